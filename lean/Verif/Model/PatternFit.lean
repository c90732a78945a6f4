import Verif.Model.LeBail
import Mathlib.RingTheory.Polynomial.Chebyshev
import Mathlib.Analysis.SpecialFunctions.Log.Base

/-! Model of the state of a powder pattern fit in /repo/hexrd/powder/wppf/WPPF.py: the pattern, its background, and the parameters
when the peak shape changes. Numbers are exact reals; a NaN is `none`. Weights and the joining of regions are in `LeBail`. -/

namespace Hexrd.PatternFit

/-! ### The pattern -/

/-- `s.y.min()`; there is at least one point. -/
noncomputable def lowest : List ℝ → ℝ
  | [] => 0
  | y :: ys => ys.foldl min y

/-- `s.x.max()`. -/
noncomputable def highest : List ℝ → ℝ
  | [] => 0
  | y :: ys => ys.foldl max y

open Classical in
/-- The shift of a region with negative intensities (WPPF.py:477-480). -/
noncomputable def shiftRegion (ys : List ℝ) : List ℝ := if ∃ y ∈ ys, y < 0 then ys.map (· - lowest ys) else ys

open Classical in
/-- `offset_val` after the loop over the regions (WPPF.py:474-480): it is made empty for every region. -/
noncomputable def offsetVal (regions : List (List ℝ)) : Option (List ℝ) :=
  regions.foldl (fun _ r => some (if ∃ y ∈ r, y < 0 then [lowest r] else [])) none

/-- What is assigned to `spectrum_expt`: a `Spectrum`, or an array with its mask (here the points that are used). Files are read
into a `Spectrum` but otherwise treated as arrays without a mask. -/
inductive Input
  | spectrum (y : List ℝ)
  | array (y : List ℝ) (used : List Bool)

/-- The regions, `global_index` and `global_shape`; `none` is an attribute that does not exist. -/
structure State where
  pieces : List (List ℝ)
  index : List (Nat × Nat)
  shape : Option Nat

/-- A new fit object, before the pattern is assigned. -/
def fresh : State := ⟨[], [], none⟩

/-- The `spectrum_expt` setter (WPPF.py:342-480), without the angles. -/
noncomputable def setPattern (s : State) : Input → State
  | .spectrum y => ⟨[y].map shiftRegion, [(0, y.length)], s.shape⟩
  | .array y used =>
    if used.all id then ⟨[y].map shiftRegion, [(0, y.length)], some y.length⟩
    else ⟨(LeBail.separateRegions y used).1.map shiftRegion, (LeBail.separateRegions y used).2, some y.length⟩

/-- `out_vector[a:b] = s` (WPPF.py:2656): the slice ends with the vector, and another number of values is an exception. That one
value fills any slice is left out. -/
def assignChecked (out : List (Option ℝ)) (a b : Nat) (s : List ℝ) : Option (List (Option ℝ)) :=
  if min b out.length - min a out.length = s.length then some (LeBail.assign out a b s) else none

/-- The `spectrum_expt` getter (WPPF.py:317-321) with `join_regions` (WPPF.py:2642-2659); `none` is an exception. -/
def readPattern (s : State) : Option (List (Option ℝ)) :=
  s.shape.bind fun n => (s.pieces.zip s.index).foldlM (fun out p => assignChecked out p.2.1 p.2.2 p.1) (List.replicate n none)

/-! ### The Chebyshev background -/

/-- The angles of the used points, in all regions (WPPF.py:793-796). -/
def usedPoints (tth : List ℝ) (used : List Bool) : List ℝ := (tth.zip used).filterMap fun p => if p.2 then some p.1 else none

/-- The linear map of a Chebyshev series from its domain to [-1, 1]. -/
noncomputable def mapDomain (lo hi x : ℝ) : ℝ := (hi * -1 - lo * 1) / (hi - lo) + (1 - -1) / (hi - lo) * x

/-- The value of `np.polynomial.Chebyshev(coef, domain=[lo, hi])` at `x`. -/
noncomputable def chebyshev (coef : List ℝ) (lo hi x : ℝ) : ℝ :=
  ∑ i ∈ Finset.range coef.length, coef.getD i 0 * (Polynomial.Chebyshev.T ℝ i).eval (mapDomain lo hi x)

/-- `init_bkg` (WPPF.py:775-800) with the coefficients `coef`: the domain of a fit is the range of its points. -/
noncomputable def initBkg (coef : List ℝ) (tth : List ℝ) (used : List Bool) (x : ℝ) : ℝ :=
  chebyshev coef (lowest (usedPoints tth used)) (highest (usedPoints tth used)) x

/-- `cheb_polynomial` (WPPF.py:185-189): the domain is from the first to the last angle of the pattern, used or not. It is what
`background` shows (WPPF.py:508-509). -/
noncomputable def background (coef : List ℝ) (tth : List ℝ) (x : ℝ) : ℝ :=
  chebyshev coef (tth.headD 0) (tth.getLastD 0) x

/-! ### Background parameters -/

/-- A name. -/
abbrev Name := List Char

/-- `p in n` for texts. -/
def contains (p : Name) : Name → Bool
  | [] => p.isEmpty
  | c :: cs => p.isPrefixOf (c :: cs) || contains p cs

/-- `f"bkg_{i}"` (WPPF.py:205). -/
def bkgName (i : Nat) : Name := ['b', 'k', 'g', '_'] ++ Nat.toDigits 10 i

/-- `p.split("_")[1]` (WPPF.py:218). -/
def secondPiece (n : Name) : Option Name :=
  match n.dropWhile (· ≠ '_') with
  | [] => none
  | _ :: rest => some (rest.takeWhile (· ≠ '_'))

/-- `int(s)` (WPPF.py:218) for digits; signs and blanks are left out. -/
def pyInt (s : Name) : Option Nat :=
  if s ≠ [] ∧ s.all Char.isDigit then some (Nat.ofDigitChars 10 s 0) else none

/-- `_update_bkg` (WPPF.py:209-222) for a Chebyshev background; `none` is an exception. -/
def updateBkg (coef : List ℝ) : List (Name × ℝ) → Option (List ℝ)
  | [] => some coef
  | (n, v) :: ps =>
    if contains ['b', 'k', 'g'] n then do
      let s ← secondPiece n
      let i ← pyInt s
      if i < coef.length then updateBkg (coef.set i v) ps else none
    else updateBkg coef ps

/-- `reset_background_params` (WPPF.py:198-207). -/
def resetBkg (coef : List ℝ) (params : List (Name × ℝ)) : List (Name × ℝ) :=
  (List.range coef.length).foldl (fun ps i => ps.map fun e => if e.1 = bkgName i then (e.1, coef.getD i 0) else e) params

/-! ### Peak shapes -/

/-- What may be assigned to `peakshape`. -/
inductive ShapeArg
  | name (s : String)
  | number (i : Int)
  | other

/-- The number of a peak shape (WPPF.py:812-847); `none` is an exception. -/
def shapeNumber : ShapeArg → Option Nat
  | .name s =>
    if s = "pvfcj" then some 0 else if s = "pvtch" then some 1 else if s = "pvpink" then some 2
    else if s = "pvheating" then some 3 else if s = "pvexponential" then some 4 else none
  | .number i => if 0 ≤ i ∧ i ≤ 4 then some i.toNat else none
  | .other => none

/-- The rest of the `peakshape` setter (WPPF.py:849-862): `defaults` are the default parameters with each shape. -/
def setShape {K V : Type} [DecidableEq K] (defaults : Nat → List (K × V)) (cur : Nat) (params : List (K × V)) (new : Nat) :
    Nat × List (K × V) :=
  if cur = new then (cur, params)
  else (new, (defaults new).map fun e => match params.lookup e.1 with | some v => (e.1, v) | none => e)

/-! ### Initial intensities -/

/-- The intensity each reflection starts with (WPPF.py:1088-1097), from the highest intensity of the pattern, a NaN if points are
masked. -/
noncomputable def initIntensity : Option ℝ → ℝ
  | some m => open Classical in if m > 0 then (10 : ℝ) ^ (⌊Real.logb 10 m⌋ - 1) else 10 ^ (0 : ℤ)
  | none => 10 ^ (0 : ℤ)

end Hexrd.PatternFit
