import Verif.Model.Stephens
import Mathlib.Analysis.Real.Sqrt
import Mathlib.Algebra.BigOperators.Group.Finset.Basic

/-!
Extraction of intensities from a powder pattern, its residuals and its masked regions (`hexrd/powder/wppf/WPPF.py`,
`hexrd/powder/wppf/peakfunctions.py`).

Floating-point numbers are real numbers. A pattern of `n` points is a function from indices, of which those below `n` are used.
-/

namespace Hexrd.LeBail

/-- `np.trapezoid(y, x)` of `n` points. -/
noncomputable def trapz (n : Nat) (x y : Nat → ℝ) : ℝ := ∑ i ∈ Finset.range (n - 1), (x (i + 1) - x i) * (y i + y (i + 1)) / 2

/-- `computespectrum` with the background of `spectrum_sim` (WPPF.py:1140-1287, 309-314, and the sum over the reflections in
wppf/peakfunctions.py:863-875): the reflections of all phases and wavelengths are numbered, `pv r j` is the profile of reflection `r` at point
`j`. -/
noncomputable def simulated (m : Nat) (ic : Nat → ℝ) (pv : Nat → Nat → ℝ) (bkg : Nat → ℝ) (j : Nat) : ℝ :=
  ∑ r ∈ Finset.range m, ic r * pv r j + bkg j

open Classical in
/-- One entry of `calc_Iobs_pvtch` (wppf/peakfunctions.py:1095-1120, the same in 1028-1068, 1149-1187, 1215-1252, 1280-1317). The profile is
evaluated at the points where the simulated pattern is not zero, and is then indexed with the mask of all points; unless all points are kept
the lengths differ, which is `none`: numba does not check them and no value is determined. -/
noncomputable def calcIobs (n : Nat) (x yo yc : Nat → ℝ) (ic : ℝ) (pv : Nat → ℝ) : Option ℝ :=
  if ∀ j < n, yc j ≠ 0 then some (trapz n x fun j => yo j * (ic * pv j) / yc j) else none

/-- The array `Iobs` (wppf/peakfunctions.py:1095-1120): `np.empty` with an entry for each angle, of which the first `nref` are assigned. -/
noncomputable def iobsArray (nIcalc nTth : Nat) (value : Nat → Option ℝ) (r : Nat) : Option ℝ :=
  if r < min nIcalc nTth then value r else none

/-! ### Residuals -/

/-- The weights (WPPF.py:495-499). -/
noncomputable def weight (y : ℝ) : ℝ := if y ≤ 0 then 0 else 1 / y

/-- `errvec` of `calc_rwp` for arrays of the same length (wppf/peakfunctions.py:1336). -/
noncomputable def errvec (w sim expt : Nat → ℝ) (j : Nat) : ℝ := √(w j) * (sim j - expt j)

/-- `wss` (wppf/peakfunctions.py:1335, 1357). -/
noncomputable def wss (n : Nat) (w sim expt : Nat → ℝ) : ℝ := ∑ j ∈ Finset.range n, w j * (sim j - expt j) ^ 2

/-- `Rwp` (wppf/peakfunctions.py:1345, 1358-1368); `none` is infinity. -/
noncomputable def rwp (n : Nat) (w sim expt : Nat → ℝ) : Option ℝ :=
  let den := ∑ j ∈ Finset.range n, w j * expt j ^ 2
  if 0 < den then if 0 < wss n w sim expt / den then some (√(wss n w sim expt / den)) else none else none

/-- `Rwpb` (wppf/peakfunctions.py:1347-1350, 1359, 1372-1378). -/
noncomputable def rwpb (n : Nat) (w sim expt bkg : Nat → ℝ) : Option ℝ :=
  let den := ∑ j ∈ Finset.range n, w j * (expt j - bkg j) ^ 2
  if 0 < den then if 0 < wss n w sim expt / den then some (√(wss n w sim expt / den)) else none else none

/-- `gofF` (wppf/peakfunctions.py:1381-1386). -/
noncomputable def gof (n p : Nat) (w sim expt : Nat → ℝ) : Option ℝ :=
  if p < n then some (wss n w sim expt / (n - p)) else none

/-! ### The loop of the extraction -/

/-- `rel_error > del_rwp` after a cycle (WPPF.py:2818, 2820) for the residual before it and after it. Infinity minus infinity is not a
number, and then the comparison is false. -/
noncomputable def goesOn (del : ℝ) : Option ℝ → Option ℝ → Prop
  | some a, some b => 100 * |b - a| > del
  | none, none => False
  | _, _ => True

open Classical in
/-- The loop of `single_azimuthal_extraction` (WPPF.py:2813-2822): number of cycles run, where `r i` is the residual after cycle `i`. The
arguments are the cycles left, `init_error` and the number of cycles. -/
noncomputable def cycles (del : ℝ) (r : Nat → Option ℝ) : Nat → Option ℝ → Nat → Nat
  | 0, _, k => k
  | left + 1, prev, k => if goesOn del prev (r k) then cycles del r left (r k) (k + 1) else k + 1

open Classical in
/-- The start of the loop (WPPF.py:2813-2818): `rel_error` is one. -/
noncomputable def extraction (del : ℝ) (maxIter : Nat) (r : Nat → Option ℝ) : Nat :=
  if (1 : ℝ) > del then cycles del r maxIter (some 1) 0 else 0

/-! ### Regions -/

/-- `np.flatnonzero(m0[1:] != m0[:-1])` (WPPF.py:2636-2637) for the part of the mask from position `k`, with the value before it. -/
def flips : Bool → Nat → List Bool → List Nat
  | prev, k, [] => if prev then [k] else []
  | prev, k, b :: bs => (if b != prev then [k] else []) ++ flips b (k + 1) bs

/-- `[(idx[i], idx[i + 1]) for i in range(0, len(idx), 2)]` (WPPF.py:2638). -/
def pairUp : List Nat → List (Nat × Nat)
  | a :: b :: l => (a, b) :: pairUp l
  | _ => []

/-- `separate_regions` (WPPF.py:2626-2639): the pieces and their positions. The mask tells the points that are used. -/
def separateRegions {α : Type} (values : List α) (used : List Bool) : List (List α) × List (Nat × Nat) :=
  let gidx := pairUp (flips false 0 used)
  (gidx.map fun p => (values.take p.2).drop p.1, gidx)

/-- `out_vector[a:b] = s` for a piece of the length of the slice (WPPF.py:2656); `none` is a NaN. -/
def assign {α : Type} (out : List (Option α)) (a b : Nat) (s : List α) : List (Option α) :=
  out.take a ++ s.map some ++ out.drop b

/-- `join_regions` (WPPF.py:2642-2659). -/
def joinRegions {α : Type} (pieces : List (List α)) (gidx : List (Nat × Nat)) (n : Nat) : List (Option α) :=
  (pieces.zip gidx).foldl (fun out p => assign out p.2.1 p.2.2 p.1) (List.replicate n none)

/-! ### Background and steps -/

/-- The `bkgmethod` setter (WPPF.py:139-150) for a Chebyshev background. -/
def resizeBkg (degree : Nat) (coef : List ℝ) : List ℝ :=
  if coef.length > degree + 1 then coef.take (degree + 1)
  else if coef.length < degree + 1 then coef ++ List.replicate (degree + 1 - coef.length) 0 else coef

/-- `tth_step` (WPPF.py:459-464). -/
noncomputable def tthStep (tthMin tthMax : ℝ) (n : Nat) : ℝ := if n > 1 then (tthMax - tthMin) / n else 0

/-! ### Broadening of several phases -/

/-- A phase in `_update_shkl`: the valid names, the constraints and the values of its parameters. -/
structure Phase where
  names : List (Fin 15)
  eqConst : List Stephens.Constraint
  value : Fin 15 → ℝ

/-- `_update_shkl` (WPPF.py:224-244) with one wavelength: the dictionary is not emptied between the phases. It is given by its keys and
values; the result is the array of each phase. -/
noncomputable def updateShkl : List (Fin 15) → (Fin 15 → ℝ) → List Phase → List (Fin 15 → ℝ)
  | _, _, [] => []
  | keys, dict, p :: ps =>
    let dict' := fun i => if i ∈ p.names then p.value i else dict i
    let keys' := keys ++ p.names
    Stephens.fill keys' dict' p.eqConst :: updateShkl keys' dict' ps

end Hexrd.LeBail
