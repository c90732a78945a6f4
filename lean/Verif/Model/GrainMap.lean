import Mathlib.Data.Real.Basic
import Mathlib.Data.Nat.Notation
import Mathlib.Algebra.Order.Floor.Ring
import Mathlib.Algebra.Order.Archimedean.Real.Basic

/-! Grids of test coordinates, grain maps, stitched volumes and trial orientations of near-field grain mapping
(hexrd/hedm/grainmap/nfutil.py, hexrd/hedm/grainmap/vtkutil.py). -/

namespace Hexrd.GrainMap

/-- `np.arange(start, stop, step)` of real numbers: `ceil((stop - start) / step)` values; a step of zero raises. Exact arithmetic in
place of floating point. -/
noncomputable def arange (start stop step : ℝ) : Option (List ℝ) :=
  if step = 0 then none else some ((List.range ⌈(stop - start) / step⌉.toNat).map fun i : ℕ => start + i * step)

/-- `meshgrid(xs, ys, zs)` and the three flattened arrays as rows (nfutil.py:1081-1088, 957-958): the first axis is that of `ys`. -/
def flatGrid (xs ys zs : List ℝ) : List (ℝ × ℝ × ℝ) :=
  ys.flatMap fun y => xs.flatMap fun x => zs.map fun z => (x, y, z)

/-- The layers of `v_bnds` (nfutil.py:1078-1085, 1096-1105). -/
noncomputable def layers (lo hi spacing : ℝ) : Option (List ℝ) :=
  if lo = hi then some [lo] else arange (lo + spacing / 2) hi spacing

/-- `gen_nf_test_grid` (nfutil.py:1065-1091): the coordinates. -/
noncomputable def testGrid (dim lo hi spacing : ℝ) : Option (List (ℝ × ℝ × ℝ)) := do
  let zs ← arange (-dim / 2 + spacing / 2) (dim / 2) spacing
  let xs ← arange (-dim / 2 + spacing / 2) (dim / 2) spacing
  let ys ← layers lo hi spacing
  pure (flatGrid xs ys zs)

/-- `gen_nf_test_grid_tomo` (nfutil.py:1094-1114) for natural numbers of points. -/
noncomputable def testGridTomo (nx nz : ℕ) (lo hi spacing : ℝ) : Option (List (ℝ × ℝ × ℝ)) := do
  let ys ← layers lo hi spacing
  pure (flatGrid ((List.range nx).map fun i : ℕ => ((i : ℝ) - nx / 2) * spacing) ys
    ((List.range nz).map fun i : ℕ => ((i : ℝ) - nz / 2) * spacing))

/-- `np.max` and `np.argmax` of a column (nfutil.py:1444-1448): the first place of the greatest entry; an empty column raises. -/
noncomputable def best : List ℝ → Option (ℕ × ℝ)
  | [] => none
  | a :: l =>
    match best l with
    | none => some (0, a)
    | some (i, b) => if a < b then some (i + 1, b) else some (0, a)

/-- The maps of `process_raw_confidence` before the ids are replaced (nfutil.py:1443-1452). The columns of the raw confidence are
given, one for each voxel; the shape of the volume is left out. -/
noncomputable def rawMap (thresh : ℝ) (columns : List (List ℝ)) : Option (List (ℤ × ℝ)) :=
  columns.mapM fun c => (best c).map fun b => (if b.2 ≤ thresh then -1 else (b.1 : ℤ), b.2)

/-- `np.max(grain_map)` (nfutil.py:1455): of no voxels it raises. -/
def maxOf : List ℤ → Option ℤ
  | [] => none
  | a :: l => some (l.foldl max a)

/-- The loop over the grains (nfutil.py:1454-1461): `range` leaves out the greatest number; an id that is not in the table raises. -/
def remap (table : List ℤ) (ids : List ℤ) : Option (List ℤ) := do
  let m ← maxOf ids
  if m ≤ table.length then
    pure (ids.map fun g => if 0 ≤ g ∧ g < m then table.getD g.toNat 0 else g)
  else none

/-- `process_raw_confidence` (nfutil.py:1438-1463). -/
noncomputable def processRaw (columns : List (List ℝ)) (table : Option (List ℤ)) (thresh : ℝ) : Option (List ℤ × List ℝ) := do
  let m ← rawMap thresh columns
  match table with
  | none => pure (m.map Prod.fst, m.map Prod.snd)
  | some t => do
    let g ← remap t (m.map Prod.fst)
    pure (g, m.map Prod.snd)

/-- One loaded volume (nfutil.py:1716-1726): a layer is a list of rows of voxels (grain, confidence, X, Y, Z). -/
structure Voxel where
  (grain conf x y z : ℝ)

abbrev Layer := List (List Voxel)

/-- `vol_shifts` (nfutil.py:1711-1714). -/
noncomputable def shifts (spacing : List ℝ) (scans : ℕ) : Option (List ℝ) :=
  match spacing with
  | [s] => arange 0 (s * scans + 1e-12) s
  | l => some l

/-- Block `ii` of the stitched volume (nfutil.py:1742-1775). -/
def block (topDown : Bool) (vols : List (List Layer)) (shift : List ℝ) (ii : ℕ) : Option (List Layer) := do
  let v ← vols[if topDown then vols.length - 1 - ii else ii]?
  let s ← shift[ii]?
  pure (v.map fun l => l.map fun r => r.map fun p => { p with y := p.y + s })

/-- Whether the volumes have one shape, as the assignments to the blocks need (nfutil.py:1728-1740). Broadcasting of a volume with an
axis of length one is left out. -/
def sameShape (n r c : ℕ) (v : List Layer) : Prop := v.length = n ∧ ∀ l ∈ v, l.length = r ∧ ∀ q ∈ l, q.length = c

open Classical in
/-- The stitched volume of `output_grain_map` (nfutil.py:1703-1775), layer by layer; without scans it raises. -/
noncomputable def stitch (topDown : Bool) (vols : List (List Layer)) (spacing : List ℝ) : Option (List Layer) := do
  let shift ← shifts spacing vols.length
  let v0 ← vols.head?
  let l0 ← v0.head?
  let r0 ← l0.head?
  if ∀ v ∈ vols, sameShape v0.length l0.length r0.length v then
    let bs ← (List.range vols.length).mapM (block topDown vols shift)
    pure bs.flatten
  else none

/-- The cells written to the VTK file (nfutil.py:1825-1845; vtkutil.py:105-124). -/
def cells (nk nj ni : ℕ) : List (List ℕ) :=
  let s2 := ni * nj
  let s1 := ni
  (List.range (nk - 1)).flatMap fun k => (List.range (nj - 1)).flatMap fun j => (List.range (ni - 1)).map fun i =>
    let base := s2 * k + s1 * j + i
    [base, base + 1, base + 1 + s1, base + s1, base + s2, base + s2 + 1, base + s2 + s1 + 1, base + s2 + s1]

/-- The grid of misorientations (nfutil.py:1272-1283), in degrees times `deg`. -/
noncomputable def oriGrid (deg bnd spacing : ℝ) : Option (List (ℝ × ℝ × ℝ)) := do
  let p ← arange (-(bnd * deg)) (bnd * deg + spacing * deg * 0.999) (spacing * deg)
  pure (flatGrid p p p)

/-- The grains that are kept (nfutil.py:1266): completeness above and chi squared below the thresholds. -/
noncomputable def cut (comp chi : ℝ) (rows : List (ℝ × ℝ)) : List ℕ :=
  (List.range rows.length).filter fun i =>
    match rows[i]? with
    | some r => decide (comp < r.1 ∧ r.2 < chi)
    | none => false

/-- The expanded orientations (nfutil.py:1285-1290): the whole grid for one grain, then for the next. -/
noncomputable def expand (grid : List (ℝ × ℝ × ℝ)) (maps : List (ℝ × ℝ × ℝ)) : List (ℝ × ℝ × ℝ) :=
  maps.flatMap fun m => grid.map fun g => (g.1 + m.1, g.2.1 + m.2.1, g.2.2 + m.2.2)

/-- `nf_to_ff_id_map` (nfutil.py:1430-1433): `tile` repeats the whole list. -/
def idMap (steps : ℕ) (ids : List ℕ) : List ℕ :=
  if steps = 0 then ids else (List.replicate (27 * steps) ids).flatten

end Hexrd.GrainMap
