import Verif.Model.Angles
import Mathlib.Data.List.Sort

/-!
# Model of `hexrd/hedm/indexer.py` (`paintGrid`)

Angles are reals in radians, `none` is NaN or, as a result of a function that can raise, an error.
-/
namespace Hexrd.Indexer

open Hexrd.Angles

noncomputable section

/-! ### Angle ranges -/

/-- `a > b` for arrays of one dimension, with NumPy's broadcasting, and `np.all` of it; `none`: the shapes do not fit. -/
def allGreater (a b : List ℝ) : Option Bool :=
  open Classical in
  if a.length = b.length then some ((a.zip b).all fun xy => decide (xy.2 < xy.1))
  else match a, b with
    | [x], b => some (b.all fun y => decide (y < x))
    | a, [y] => some (a.all fun x => decide (y < x))
    | _, _ => none

/-- The pairs of starts and stops mapped into the interval at `offset`, indexer.py:449-450. -/
def mapped (ranges : List (ℝ × ℝ)) (offset : ℝ) : List (ℝ × ℝ) :=
  ranges.map fun r => (indexerMapAngle r.1 offset, indexerMapAngle r.2 offset)

/-- Sorted by start, indexer.py:452.  (`np.argsort` leaves the order of equal starts open.) -/
def sorted (ranges : List (ℝ × ℝ)) : List (ℝ × ℝ) :=
  open Classical in ranges.mergeSort fun a b => decide (a.1 ≤ b.1)

/-- `ravel` of the pairs, indexer.py:453. -/
def flat (ranges : List (ℝ × ℝ)) : List ℝ := ranges.flatMap fun r => [r.1, r.2]

/-- indexer.py:456-462: a range that wraps around is split; `none`: no range at all (`result[-1]` raises). -/
def unwrap (offset : ℝ) (l : List (ℝ × ℝ)) : Option (List (ℝ × ℝ)) :=
  open Classical in
  match l.getLast? with
  | none => none
  | some r => some (if r.2 < r.1 then (offset, r.2) :: (l.dropLast ++ [(r.1, offset + 2 * Real.pi)]) else l)

/-- `_normalize_ranges` with `ccw=False` (its only use, indexer.py:500-506), indexer.py:390-467; the comparison of lines 464-465 is made on the
unsorted arrays.  `none`: `ValueError` (or `IndexError`). -/
def normalizeRanges (ranges : List (ℝ × ℝ)) (offset : ℝ) : Option (List ℝ) :=
  open Classical in
  if ¬ ∀ r ∈ ranges, r.1 < r.2 then none
  else if ∃ r ∈ ranges, r.1 + 2 * Real.pi < r.2 + 1 / 10 ^ 8 then some [offset, 2 * Real.pi + offset]
  else
    let m := mapped ranges offset
    match unwrap offset (sorted m), allGreater ((m.map Prod.fst).drop 1) ((m.map Prod.snd).take (m.length - 2)) with
    | some l, some true => some (flat l)
    | _, _ => none

/-- The loop of `_find_in_range`, indexer.py:715-722. -/
def bisect (value : ℝ) (spans : List ℝ) (li ri : Nat) : Nat :=
  open Classical in
  if _h : li < ri then
    let mi := (li + ri) / 2
    if value < spans.getD mi 0 then bisect value spans li mi
    else bisect value spans (mi + 1) ri
  else li
termination_by ri - li

/-- `_find_in_range`, indexer.py:679-722, for an array that is not empty. -/
def findInRange (value : ℝ) (spans : List ℝ) : Int :=
  open Classical in
  if value < spans.getD 0 0 ∨ spans.getD (spans.length - 1) 0 ≤ value then -2
  else bisect value spans 0 spans.length

/-! ### Hits -/

/-- indexer.py:584-590: the pixels in the order in which they are looked at: 1 at the first value above the threshold, -1
at the first NaN, 0 at the end. -/
def scan (threshold : ℝ) : List (Option ℝ) → Int
  | [] => 0
  | none :: _ => -1
  | some v :: l => open Classical in if v > threshold then 1 else scan threshold l

/-- A map of intensities: omega pixel, eta pixel. -/
abbrev EtaOmeMap := Nat → Nat → Option ℝ

/-- indexer.py:574-585: the window, clipped to the map. -/
def window (nOme nEta eta ome dEta dOme : Nat) : List (Nat × Nat) :=
  (List.range' (ome - dOme) (min (ome + dOme + 1) nOme - (ome - dOme))).flatMap fun i =>
    (List.range' (eta - dEta) (min (eta + dEta + 1) nEta - (eta - dEta))).map fun j => (i, j)

/-- `_check_dilated`, indexer.py:523-590. -/
def checkDilated (nOme nEta eta ome dEta dOme : Nat) (m : EtaOmeMap) (threshold : ℝ) : Int :=
  scan threshold ((window nOme nEta eta ome dEta dOme).map fun ij => m ij.1 ij.2)

/-- What `_angle_is_hit` needs besides the angles, indexer.py:726-741 (`etaIndices` and `omeIndices` are `arange`,
indexer.py:254-255). -/
structure Params where
  etaSpans : List ℝ
  omeSpans : List ℝ
  etaEdges : List ℝ
  omeEdges : List ℝ
  maps : Nat → EtaOmeMap
  threshold : Nat → ℝ
  dEta : Nat
  dOme : Nat
  omeOffset : ℝ

/-- `_angle_is_hit`, indexer.py:726-842; `ang` is (eta, omega), `none` if two-theta is NaN.  The result is (hit, not
filtered). -/
def angleIsHit (p : Params) (hkl : Nat) : Option (ℝ × ℝ) → Nat × Nat
  | none => (0, 0)
  | some (eta, ome) =>
    let eta := indexerMapAngle eta (-Real.pi)
    if findInRange eta p.etaSpans % 2 = 0 then (0, 0)
    else
      let ome := indexerMapAngle ome p.omeOffset
      if findInRange ome p.omeSpans % 2 = 0 then (0, 0)
      else
        let etaIdx := findInRange eta p.etaEdges - 1
        if etaIdx < 0 then (0, 0)
        else
          let omeIdx := findInRange ome p.omeEdges - 1
          if omeIdx < 0 then (0, 0)
          else
            let isHit := checkDilated (p.omeEdges.length - 1) (p.etaEdges.length - 1) etaIdx.toNat omeIdx.toNat p.dEta p.dOme
              (p.maps hkl) (p.threshold hkl)
            if isHit = -1 then (0, 0) else (isHit.toNat, 1)

/-- The two solutions for a reflection. -/
abbrev Pair := Option (ℝ × ℝ) × Option (ℝ × ℝ)

/-- The loop of `_filter_and_count_hits`, indexer.py:917-964; the state is the position `i`, the family and the end of
the family, and the two counters; `ix` is `symHKLs_ix`. -/
def countLoop (p : Params) (ix : List Nat) : List Pair → Nat → Nat → Nat → Nat × Nat → Nat × Nat
  | [], _, _, _, c => c
  | (a0, a1) :: l, i, curr, stop, c =>
    let curr' := if stop ≤ i then curr + 1 else curr
    let stop' := if stop ≤ i then ix.getD (curr + 1 + 1) 0 else stop
    let h0 := angleIsHit p curr' a0
    let h1 := angleIsHit p curr' a1
    countLoop p ix l (i + 1) curr' stop' (c.1 + h0.1 + h1.1, c.2 + h0.2 + h1.2)

/-- `_filter_and_count_hits`, indexer.py:846-966. -/
def filterAndCountHits (p : Params) (ix : List Nat) (angs : List Pair) : ℝ :=
  let c := countLoop p ix angs 0 0 (ix.getD 1 0) (0, 0)
  if c.2 ≠ 0 then c.1 / c.2 else 0

/-- `np.add.accumulate([0] + sizes)`, indexer.py:315. -/
def accumulate : Nat → List Nat → List Nat
  | s, [] => [s]
  | s, n :: l => s :: accumulate (s + n) l

/-- The score of one orientation, `paintGridThis`, indexer.py:593-675, from the predicted angles of the reflections,
family by family (indexer.py:309-316). -/
def score (p : Params) (families : List (List Pair)) : ℝ :=
  filterAndCountHits p (accumulate 0 (families.map List.length)) families.flatten

/-- `int(round(tol / del))`, indexer.py:646-649; `round` takes halves to the even side. -/
def dpix (tol del : ℝ) : ℤ :=
  open Classical in
  let x := tol / del
  if x - ⌊x⌋ < 1 / 2 then ⌊x⌋ else if 1 / 2 < x - ⌊x⌋ then ⌊x⌋ + 1 else if ⌊x⌋ % 2 = 0 then ⌊x⌋ else ⌊x⌋ + 1

/-! ### Distribution to processes -/

/-- `Pool._get_tasks` of the standard library (CPython 3.11, multiprocessing/pool.py, lines 634-640): batches of `size`, ending at the first empty one. -/
def getTasks {α : Type} (l : List α) (size : Nat) : List (List α) :=
  match h : l.take size with
  | [] => []
  | x :: xs => (x :: xs) :: getTasks (l.drop size) size
termination_by l.length
decreasing_by
  cases l with
  | nil => simp at h
  | cons a l =>
    cases size with
    | zero => simp at h
    | succ n => simp [List.length_drop]

/-- `MapResult._set` of the standard library (lines 809-818): `value[i * chunksize : (i + 1) * chunksize] = result`. -/
def setBatch {β : Type} (size : Nat) (value : List (Option β)) (ib : Nat × List β) : List (Option β) :=
  value.take (ib.1 * size) ++ ib.2.map some ++ value.drop ((ib.1 + 1) * size)

/-- `Pool.map(f, l, chunksize=size)` of the standard library (lines 471-498 and 796-807) when the batches are finished in the order `order`.  The
value starts as a list of `None`; with `chunksize` 0 there is no batch and the value is returned at once. -/
def poolMap {α β : Type} (f : α → β) (l : List α) (size : Nat) (order : List Nat) : List (Option β) :=
  (order.filterMap fun i => (getTasks l size)[i]?.map fun b => (i, b.map f)).foldl (setBatch size)
    (List.replicate l.length none)

/-- The chunk size of `paintGrid`, indexer.py:298. -/
def chunkSize (n nCPUs : Nat) : Nat := min (n / nCPUs) 10

/-- `paintGrid`, indexer.py:342-353: the scores of all orientations; `order` is the order in which the batches are
finished.  `None` in the result is `none`. -/
def paintGrid {Q : Type} (f : Q → ℝ) (quats : List Q) (multi : Bool) (nCPUs : Nat) (order : List Nat) : List (Option ℝ) :=
  if multi then poolMap f quats (chunkSize quats.length nCPUs) order
  else (quats.map f).map some

end

end Hexrd.Indexer
