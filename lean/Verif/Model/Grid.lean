import Mathlib.Data.Real.Basic
import Mathlib.Algebra.Order.Floor.Ring
import Mathlib.Algebra.Order.Round
import Mathlib.Algebra.Order.Archimedean.Real.Basic

/-!
# Model of `hexrd/core/gridutil.py`

Numbers are real; `noncomputable` only because real comparisons are.
-/
namespace Hexrd.Grid

/-! ## Connectivity (gridutil.py:93-129) -/

/-- gridutil.py:100-103: the row of `out` for layer `k`, row `j`, column `i`. -/
def cellNodes (m n k j i : Nat) : List Nat :=
  let extra := k * (n + 1) * (m + 1)
  [i + j * (n + 1) + 1 + extra, i + j * (n + 1) + extra,
   i + j + n * (j + 1) + 1 + extra, i + j + n * (j + 1) + 2 + extra]

/-- gridutil.py:93-104 `_fill_connectivity`: `out` after the three loops; row `i_con` is written in loop order. -/
def fillConnectivity (m n p : Nat) : List (List Nat) :=
  (List.range p).flatMap fun k => (List.range m).flatMap fun j => (List.range n).map fun i => cellNodes m n k j i

/-- The argument `origin` after `lower().strip()`: only `'ll'` is distinguished. -/
inductive Origin | ul | ll
deriving DecidableEq

/-- gridutil.py:122: `con.reshape((p, m * n, 4))[layer]`. -/
def layerRows (con : List (List Nat)) (mn layer : Nat) : List (List Nat) := (con.drop (layer * mn)).take mn

/-- gridutil.py:107-129 `cellConnectivity`. -/
def cellConnectivity (m n p : Nat) (origin : Origin) : List (List Nat) :=
  let con := fillConnectivity m n p
  let con := if p > 1 then
      (List.range (p - 1)).flatMap fun layer =>
        List.zipWith (· ++ ·) (layerRows con (m * n) layer) (layerRows con (m * n) (layer + 1))
    else con
  match origin with
  | .ll => con.map List.reverse
  | .ul => con

/-! ## Centroids and areas (gridutil.py:132-184) -/

/-- A point of the plane. -/
abbrev Pt := ℝ × ℝ

/-- `a.x * b.y - a.y * b.x`. -/
def cross (a b : Pt) : ℝ := a.1 * b.2 - a.2 * b.1

/-- gridutil.py:132-144 `cellCentroids`, one cell, the columns as a pair. -/
noncomputable def cellCentroid (crd : Nat → Pt) (con : List Nat) : Pt :=
  let inv := 1 / (con.length : ℝ)
  let acc := con.foldl (fun (a : Pt) k => (a.1 + (crd k).1, a.2 + (crd k).2)) (0, 0)
  (acc.1 * inv, acc.2 * inv)

/-- gridutil.py:147-166 `compute_areas`, one cell with the corners `v0 v1 v2 v3`. -/
noncomputable def computeAreas (p0 p1 p2 p3 : Pt) : ℝ :=
  let v0 : Pt := (p1.1 - p0.1, p1.2 - p0.2)
  let acc := [p2, p3].foldl (fun acc (p : Pt) =>
    let v1 : Pt := (p.1 - p0.1, p.2 - p0.2)
    acc + (v0.1 * v1.2 - v1.1 * v0.2)) 0
  (1 / 2) * acc

/-- gridutil.py:169-184 `computeArea`: the loop over `triv`; for fewer than three vertices it is empty. -/
noncomputable def computeArea (polygon : List Pt) : ℝ :=
  let pt := fun i => polygon.getD i (0, 0)
  ((List.range (polygon.length - 2)).map (· + 2)).foldl (fun area i =>
    let a : Pt := ((pt (i - 1)).1 - (pt 0).1, (pt (i - 1)).2 - (pt 0).2)
    let b : Pt := ((pt i).1 - (pt 0).1, (pt i).2 - (pt 0).2)
    area + (1 / 2) * (a.1 * b.2 - a.2 * b.1)) 0

/-! ## Bin lookup (gridutil.py:35-90) -/

/-- constants.py:68 `sqrt_epsf`, the square root of 2⁻⁵². -/
noncomputable def ztol : ℝ := 1 / 67108864

/-- gridutil.py:35-90 `cellIndices` for floating-point points, one point at a time.  `none` stands for the
assertion or the RuntimeError.  There are no NaNs among the reals, so line 89 has no effect. -/
noncomputable def cellIndices (edges : List ℝ) (x : ℝ) : Option Int :=
  match edges with
  | e0 :: e1 :: rest =>
    let last := (e1 :: rest).getLastD e1
    let delta := e1 - e0
    if delta > 0 then
      let x := if x ≥ last - ztol then x - ztol else x
      some ⌊(x - e0) / delta⌋
    else if delta < 0 then
      let x := if x ≤ last + ztol then x + ztol else x
      some (⌈(x - e0) / delta⌉ - 1)
    else none
  | _ => none

/-- Conversion of a real to an integer array element: the fraction is dropped. -/
noncomputable def truncate (x : ℝ) : Int := if 0 ≤ x then ⌊x⌋ else ⌈x⌉

/-- The same for an array of integer points: assigning `x - ztol` or `x + ztol` into the integer array (lines 73, 77)
drops the fraction. -/
noncomputable def cellIndicesInt (edges : List ℝ) (x : Int) : Option Int :=
  match edges with
  | e0 :: e1 :: rest =>
    let last := (e1 :: rest).getLastD e1
    let delta := e1 - e0
    if delta > 0 then
      let x := if (x : ℝ) ≥ last - ztol then truncate (x - ztol) else x
      some ⌊((x : ℝ) - e0) / delta⌋
    else if delta < 0 then
      let x := if (x : ℝ) ≤ last + ztol then truncate (x + ztol) else x
      some (⌈((x : ℝ) - e0) / delta⌉ - 1)
    else none
  | _ => none

/-! ## Tolerance grids (gridutil.py:187-204) -/

/-- gridutil.py:187-204 `make_tolerance_grid`; the result is `(ndiv, grid)`.  `num_subdivisions` is a natural number,
and the quotients are of reals, so a zero divisor gives zero where Python fails or gives NaN. -/
noncomputable def makeToleranceGrid (binWidth windowWidth : ℝ) (numSubdivisions : Nat) (adjustWindow oneSided : Bool) :
    Nat × List ℝ :=
  let binWidth := min binWidth windowWidth
  let windowWidth := if adjustWindow then (⌈windowWidth / binWidth⌉ : ℝ) * binWidth else windowWidth
  if oneSided then
    let ndiv := (truncate (windowWidth / binWidth)).natAbs
    (2 * ndiv, (List.range (2 * ndiv + 1)).map fun (k : Nat) => ((k : ℝ) - ndiv) * binWidth)
  else
    let ndiv := (truncate ((numSubdivisions : ℝ) * ⌈windowWidth / binWidth⌉)).toNat
    (ndiv, (List.range (ndiv + 1)).map fun (k : Nat) => (k : ℝ) * windowWidth / ndiv - 1 / 2 * windowWidth)

/-! ## Polygon clipping (gridutil.py:207-305) -/

/-- gridutil.py:207-237 `computeIntersection` of the lines `p1 p2` and `p3 p4`; `none` is the empty result. -/
noncomputable def computeIntersection (p1 p2 p3 p4 : Pt) : Option Pt :=
  let denom := (p1.1 - p2.1) * (p3.2 - p4.2) - (p1.2 - p2.2) * (p3.1 - p4.1)
  if denom = 0 then none
  else
    let s1 := p1.1 * p2.2 - p1.2 * p2.1
    let s2 := p3.1 * p4.2 - p3.2 * p4.1
    some ((s1 * (p3.1 - p4.1) - s2 * (p1.1 - p2.1)) / denom, (s1 * (p3.2 - p4.2) - s2 * (p1.2 - p2.2)) / denom)

/-- gridutil.py:240-259 `isinside`, with the boundary's two rows `b0` and `b1`. -/
noncomputable def isinside (point b0 b1 : Pt) (ccw : Bool := true) : Bool :=
  let c := cross (point.1 - b0.1, point.2 - b0.2) (b1.1 - b0.1, b1.2 - b0.2)
  if c > 0 then ccw else if c < 0 then !ccw else true

/-- gridutil.py:287-304: the inner loop over `inputList`, with `prev_subjectVertex` and `outputList` as state.
`none`: the empty intersection was appended, after which the next `np.array(outputList)` is not a list of points. -/
noncomputable def clipLoop (cv pv : Pt) : Pt → List Pt → Option (List Pt)
  | _, [] => some []
  | prev, curr :: rest => do
    let new ←
      if isinside curr cv pv then
        if !(isinside prev cv pv) then (computeIntersection curr prev cv pv).map fun x => [x, curr]
        else some [curr]
      else if isinside prev cv pv then (computeIntersection curr prev cv pv).map fun x => [x]
      else some []
    let out ← clipLoop cv pv curr rest
    some (new ++ out)

/-- gridutil.py:275-304: the outer loop over the clip vertices.  `prev_clipVertex` is only updated in the inner loop
(line 304), so not when `inputList` is empty; `prev_subjectVertex` starts as the last vertex (line 283). -/
noncomputable def clipOuter : Pt → List Pt → List Pt → Option (List Pt)
  | _, [], input => some input
  | pv, cv :: clip, input => do
    let out ← match input.getLast? with
      | none => some []
      | some prev => clipLoop cv pv prev input
    clipOuter (if input.isEmpty then pv else cv) clip out

/-- gridutil.py:262-305 `sutherlandHodgman`; an empty clip polygon fails at line 271. -/
noncomputable def sutherlandHodgman (subject clip : List Pt) : Option (List Pt) :=
  match clip.getLast? with
  | none => none
  | some pv => clipOuter pv clip subject

end Hexrd.Grid
