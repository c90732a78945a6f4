import Mathlib.Order.Defs.LinearOrder
import Mathlib.Order.Lattice

/-!
# Model of the exclusion logic of `PlaneData`
(`hexrd/core/material/crystallography.py`)

Floating point numbers are elements of a linear order `K`; NaN is `none`, for which
every comparison is false.
-/
namespace Hexrd.PlaneData

/-- Entry of `hklDataList` (crystallography.py:1224-1247), restricted to the values
used for exclusions. -/
structure Refl (K : Type) where
  hkl : Int × Int × Int
  d : Option K
  tth : Option K

/-- numpy's `x > y`, false when either is NaN. -/
def fgt {K : Type} [LinearOrder K] : Option K → Option K → Bool
  | some x, some y => decide (y < x)
  | _, _ => false

/-- State of a `PlaneData` with `n` reflections (crystallography.py:743-792). `refl` is
in the order of `_hkls`; positions of `sort` are the sorted, externally visible order. -/
structure PD (K : Type) (n : Nat) where
  refl : Fin n → Refl K
  sort : Fin n → Fin n
  sortInv : Fin n → Fin n
  excl : Option (Fin n → Bool)
  tthMax : Option K
  /-- `structFact` (sorted order, crystallography.py:1106-1132) -/
  sfac : Fin n → K
  /-- `powder_intensity` (sorted order) -/
  pint : Fin n → K

variable {K : Type} [LinearOrder K] {n : Nat}

/-- `inv = np.empty(n); inv[sort] = np.arange(n)` (crystallography.py:811-812): the
assignments are carried out in order. Entries that are never assigned hold an arbitrary
value, here `j` itself. -/
def scatter (sort : Fin n → Fin n) : Fin n → Fin n :=
  (List.finRange n).foldl (fun inv i => fun j => if j = sort i then i else inv j) id

/-- `_calc` (crystallography.py:794-821) with new reflection data and the result of
`np.argsort` (`np.arange` when `doTThSort` is false). -/
def recalc (pd : PD K n) (refl : Fin n → Refl K) (sort : Fin n → Fin n) : PD K n :=
  { pd with
    refl := refl
    sort := sort
    sortInv := scatter sort }

/-- `hklDataList[i]` (crystallography.py:813). -/
def data (pd : PD K n) (i : Fin n) : Refl K := pd.refl (pd.sort i)

/-- `exclusions` getter (crystallography.py:899-908). -/
def getExclusions (pd : PD K n) (i : Fin n) : Bool :=
  let r := match pd.excl with
    | none => false
    | some e => e (pd.sort i)
  match pd.tthMax with
  | none => r
  | some m => if fgt (data pd i).tth (some m) then true else r

/-- Value given to the `exclusions` setter. -/
inductive Arg where
  | none
  | mask (m : List Bool)
  | indices (l : List Int)
  | ranges (l : List (Int × Int))

/-- Index of a numpy array of length `n`. -/
def npIndex (n : Nat) (k : Int) : Option (Fin n) :=
  let k := if k < 0 then k + n else k
  if h : 0 ≤ k ∧ k < n then some ⟨k.toNat, by omega⟩ else Option.none

/-- Bound of a slice of an array of length `n`. -/
def sliceBound (n : Nat) (x : Int) : Nat :=
  if x < 0 then (x + n).toNat else min x.toNat n

/-- Positions of the slice `[a:b]`. -/
def slice (n : Nat) (a b : Int) : List (Fin n) :=
  (List.finRange n).filter fun i => sliceBound n a ≤ i.val && i.val < sliceBound n b

/-- `excl[self.tThSortInv[idx]] = True`. -/
def mark (inv : Fin n → Fin n) (idx : List (Fin n)) (e : Fin n → Bool) : Fin n → Bool :=
  idx.foldl (fun e k => fun j => if j = inv k then true else e j) e

/-- `exclusions` setter (crystallography.py:911-932); `none` is an exception. An
argument as long as the reflection list must be a mask; a mask of another length fails
when used as an index. -/
def setExclusions (pd : PD K n) : Arg → Option (PD K n)
  | .none => some { pd with excl := some fun _ => false }
  | .mask m =>
    if h : m.length = n then
      some { pd with excl := some fun j => m[(pd.sortInv j).val]'(h ▸ (pd.sortInv j).isLt) }
    else none
  | .indices l =>
    if l.length = n then none
    else (l.mapM (npIndex n)).map fun idx =>
      { pd with excl := some (mark pd.sortInv idx fun _ => false) }
  | .ranges l =>
    if l.length = n then none
    else some { pd with
      excl := some (l.foldl (fun e r => mark pd.sortInv (slice n r.1 r.2) e) fun _ => false) }

/-- `_thisHKL` (crystallography.py:1326-1334). -/
def thisHKL (pd : PD K n) (i : Fin n) : Bool :=
  let e := match pd.excl with
    | none => false
    | some e => e (pd.sortInv i)
  if e then false
  else match pd.tthMax with
    | none => true
    | some m => !(fgt (data pd i).tth (some m) || (data pd i).tth.isNone)

/-- The positions listed by `getHKLs()`, `getTTh()`, `getMultiplicity()`
(crystallography.py:1445-1448, 1466-1469, 1597-1600). -/
def listed (pd : PD K n) : List (Fin n) := (List.finRange n).filter (thisHKL pd)

/-- Values divided by their maximum (crystallography.py:991-993, 999-1000) for
non-negative values: `0 / 0` is NaN. -/
def relative [Div K] [Zero K] (v : Fin n → K) : Fin n → Option K :=
  let m := (List.finRange n).foldl (fun acc i => max acc (v i)) 0
  fun i => if m = 0 then none else some (v i / m)

/-- Limits given to `exclude` (crystallography.py:934-944). -/
structure Limits (K : Type) where
  dmin : Option K := none
  dmax : Option K := none
  tthmin : Option K := none
  tthmax : Option K := none
  sfacmin : Option K := none
  sfacmax : Option K := none
  pintmin : Option K := none
  pintmax : Option K := none

/-- `if lo is not None: excl[v < lo] = True; if hi is not None: excl[v > hi] = True`. -/
def applyLimit (lo hi : Option K) (v : Fin n → Option K) (excl : Fin n → Bool) : Fin n → Bool :=
  let e1 := match lo with
    | none => excl
    | some b => fun i => if fgt (some b) (v i) then true else excl i
  match hi with
  | none => e1
  | some b => fun i => if fgt (v i) (some b) then true else e1 i

/-- `exclude` (crystallography.py:975-1007). All values are read after exclusions and
`tThMax` have been reset, so they cover all reflections, in sorted order. -/
def exclude [Div K] [Zero K] (pd : PD K n) (l : Limits K) : Option (PD K n) :=
  (setExclusions pd .none).bind fun pd =>
    let pd := { pd with tthMax := none }
    let e := applyLimit l.dmin l.dmax (fun i => (data pd i).d) fun _ => false
    let e := applyLimit l.tthmin l.tthmax (fun i => (data pd i).tth) e
    let e := applyLimit l.sfacmin l.sfacmax (relative pd.sfac) e
    let e := applyLimit l.pintmin l.pintmax (relative pd.pint) e
    setExclusions pd (.mask (List.ofFn e))

/-! ## `getMergedRanges` -/

/-- Two-theta and two-theta range of a listed reflection. -/
structure Ring (K : Type) where
  tth : K
  lo : K
  hi : K

/-- Loop of `getMergedRanges` (crystallography.py:1405-1426) from index `i` on, with
`hklsCur = cur` and `lo = tThRanges[tThLoIdx, 0]`. `near a b` is
`abs(a - b) < sqrt_epsf`. -/
def mergeLoop (near : K → K → Bool) (cull : Bool) : List (Ring K) → Nat → List Nat → K →
    List (List Nat × K × K)
  | [], _, _, _ => []
  | [r], i, cur, lo => [(cur ++ [i], lo, r.hi)]
  | r :: s :: rest, i, cur, lo =>
    if r.hi < s.lo then (cur ++ [i], lo, r.hi) :: mergeLoop near cull (s :: rest) (i + 1) [] s.lo
    else if cull && near r.tth s.tth then mergeLoop near cull (s :: rest) (i + 1) cur lo
    else mergeLoop near cull (s :: rest) (i + 1) (cur ++ [i]) lo

/-- `getMergedRanges` (crystallography.py:1379-1426), the two result lists zipped;
`none`: the empty array has no second axis and indexing raises. -/
def mergedRanges (near : K → K → Bool) (cull : Bool) (rs : List (Ring K)) :
    Option (List (List Nat × K × K)) :=
  match rs with
  | [] => none
  | r :: rs => some (mergeLoop near cull (r :: rs) 0 [] r.lo)

end Hexrd.PlaneData
