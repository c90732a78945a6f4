import Verif.Model.Grid

/-!
# Model of the pixel grid of a panel

`hexrd/core/instrument/detector.py` (pixel coordinates, clipping, interpolation) and
`hexrd/core/utils/panel_buffer.py`.  Numbers are real.  Distortion and named panel-buffer files are not modelled
here.
-/
namespace Hexrd.Detector
open Hexrd.Grid

/-- The part of a `Detector` that describes its pixels (detector.py:280-284): the numbers of rows and columns and the
pixel sizes in mm. -/
structure Panel where
  rows : Nat
  cols : Nat
  psr : ℝ
  psc : ℝ

namespace Panel
variable (p : Panel)

/-- detector.py:435-437 `row_dim`. -/
noncomputable def rowDim : ℝ := p.rows * p.psr

/-- detector.py:439-441 `col_dim`. -/
noncomputable def colDim : ℝ := p.cols * p.psc

/-- detector.py:443-445 `row_pixel_vec`. -/
noncomputable def rowPixelVec : List ℝ :=
  (List.range p.rows).map fun (k : Nat) => p.psr * (1 / 2 * ((p.rows : ℝ) - 1) - k)

/-- detector.py:451-453 `col_pixel_vec`. -/
noncomputable def colPixelVec : List ℝ :=
  (List.range p.cols).map fun (k : Nat) => p.psc * (k - 1 / 2 * ((p.cols : ℝ) - 1))

/-- detector.py:2055-2056 `_row_edge_vec`. -/
noncomputable def rowEdgeVec : List ℝ :=
  (List.range (p.rows + 1)).map fun (k : Nat) => p.psr * (1 / 2 * (p.rows : ℝ) - k)

/-- detector.py:2059-2060 `_col_edge_vec`. -/
noncomputable def colEdgeVec : List ℝ :=
  (List.range (p.cols + 1)).map fun (k : Nat) => p.psc * (k - 1 / 2 * (p.cols : ℝ))

/-- detector.py:459-461 `corner_ul`. -/
noncomputable def cornerUL : ℝ × ℝ := (-(1 / 2) * p.colDim, 1 / 2 * p.rowDim)

/-- detector.py:463-465 `corner_ll`. -/
noncomputable def cornerLL : ℝ × ℝ := (-(1 / 2) * p.colDim, -(1 / 2) * p.rowDim)

end Panel

/-- `np.round` and the conversion to an integer: to the nearest integer, halves to the even one. -/
noncomputable def npRound (x : ℝ) : Int :=
  if Int.fract x < 1 / 2 then ⌊x⌋
  else if Int.fract x = 1 / 2 then (if ⌊x⌋ % 2 = 0 then ⌊x⌋ else ⌊x⌋ + 1)
  else ⌊x⌋ + 1

/-- detector.py:953-994 `cartToPixel` with `pixels=False`, one point, no distortion. -/
noncomputable def cartToPixel (p : Panel) (xy : ℝ × ℝ) : ℝ × ℝ :=
  let t := (xy.1 - p.cornerUL.1, xy.2 - p.cornerUL.2)
  (-t.2 / p.psr - 1 / 2, t.1 / p.psc - 1 / 2)

/-- detector.py:988-992: with `pixels=True` the coordinates are rounded. -/
noncomputable def cartToPixelInt (p : Panel) (xy : ℝ × ℝ) : Int × Int :=
  (npRound (cartToPixel p xy).1, npRound (cartToPixel p xy).2)

/-- detector.py:996-1006 `pixelToCart`, one point. -/
noncomputable def pixelToCart (p : Panel) (ij : ℝ × ℝ) : ℝ × ℝ :=
  ((ij.2 + 1 / 2) * p.psc + p.cornerLL.1, (p.rows - ij.1 - 1 / 2) * p.psr + p.cornerLL.2)

/-! ## Panel buffers -/

/-- The value of `panel.panel_buffer` (named buffers are not modelled). -/
inductive Buffer
  | none
  | mm (x y : ℝ)
  | mask (m : Nat → Nat → Bool)

/-- A bound of a NumPy slice of a dimension of size `n`. -/
def sliceBound (n : Nat) (a : Int) : Int := if a < 0 then max (a + n) 0 else min a n

/-- Membership of the index `i` in the NumPy slice `a:b`. -/
def inSlice (n : Nat) (a b : Int) (i : Nat) : Bool := decide (sliceBound n a ≤ i ∧ (i : Int) < sliceBound n b)

/-- panel_buffer.py:15-45 `panel_buffer_as_2d_array`: the entry for row `i` and column `j`. -/
noncomputable def bufferAs2d (p : Panel) (buf : Buffer) (i j : Nat) : Bool :=
  match buf with
  | .none => true
  | .mm x y =>
    let b0 := npRound (y / p.psr)
    let b1 := npRound (x / p.psc)
    inSlice p.rows b0 (p.rows - b0) i && inSlice p.cols b1 (p.cols - b1) j
  | .mask m => m i j

/-- detector.py:1067-1095, `on_panel` of one point. -/
noncomputable def onPanel (p : Panel) (buf : Buffer) (bufferEdges : Bool) (xy : ℝ × ℝ) : Bool :=
  let xlim := 1 / 2 * p.colDim
  let ylim := 1 / 2 * p.rowDim
  match bufferEdges, buf with
  | true, .mask m =>
    let pix := cartToPixelInt p xy
    let roff := decide (pix.1 < 0 ∨ pix.1 ≥ p.rows)
    let coff := decide (pix.2 < 0 ∨ pix.2 ≥ p.cols)
    if roff || coff then false else m pix.1.toNat pix.2.toNat
  | true, .mm x y =>
    let xlim := xlim - x
    let ylim := ylim - y
    decide (xy.1 ≥ -xlim ∧ xy.1 ≤ xlim) && decide (xy.2 ≥ -ylim ∧ xy.2 ≤ ylim)
  | _, _ => decide (xy.1 ≥ -xlim ∧ xy.1 ≤ xlim) && decide (xy.2 ≥ -ylim ∧ xy.2 ≤ ylim)

/-- `a[mask]` for a Boolean mask of the same length. -/
def select {α : Type} : List α → List Bool → List α
  | a :: as, b :: bs => if b then a :: select as bs else select as bs
  | _, _ => []

/-- detector.py:1056-1096 `clip_to_panel`. -/
noncomputable def clipToPanel (p : Panel) (buf : Buffer) (bufferEdges : Bool) (xy : List (ℝ × ℝ)) :
    List (ℝ × ℝ) × List Bool :=
  let on := xy.map (onPanel p buf bufferEdges)
  (select xy on, on)

/-! ## Interpolation -/

/-- `out[mask] = vals` where `out` is filled with `fill`. -/
def scatter {α : Type} (fill : α) : List Bool → List α → List α
  | [], _ => []
  | true :: bs, v :: vs => v :: scatter fill bs vs
  | true :: bs, [] => fill :: scatter fill bs []
  | false :: bs, vs => fill :: scatter fill bs vs

/-- gridutil.py:35-90 `cellIndices` on an array: the assertion and the error do not depend on the points. -/
noncomputable def cellIndicesL (edges : List ℝ) (xs : List ℝ) : Option (List Int) :=
  if (cellIndices edges 0).isNone then none else xs.mapM (cellIndices edges)

/-- Index of an array dimension of size `n`: negative indices count from the end; `none` is the IndexError. -/
def pyIndex (n : Nat) (i : Int) : Option Nat :=
  if 0 ≤ i then (if i < n then some i.toNat else none) else if -n ≤ i then some (i + n).toNat else none

/-- detector.py:1098-1126 `interpolate_nearest`.  The image is given by its entries; an entry `none` of the result is
a NaN.  The outer `none` is an exception. -/
noncomputable def interpolateNearest (p : Panel) (buf : Buffer) (xy : List (ℝ × ℝ)) (img : Nat → Nat → ℝ)
    (padWithNans : Bool) : Option (List (Option ℝ)) := do
  let fill : Option ℝ := if padWithNans then none else some 0
  let (clip, on) := clipToPanel p buf true xy
  let iSrc ← cellIndicesL p.rowPixelVec (clip.map (·.2))
  let jSrc ← cellIndicesL p.colPixelVec (clip.map (·.1))
  let vals ← (iSrc.zip jSrc).mapM fun (ij : Int × Int) => do
    let i ← pyIndex p.rows ij.1
    let j ← pyIndex p.cols ij.2
    pure (some (img i j))
  pure (scatter fill on vals)

/-- detector.py:2046-2052 `_fix_indices`, one index. -/
def fixIndex (idx lo hi : Int) : Int := if idx < lo then lo else if idx > hi then hi else idx

/-- detector.py:1182-1218 and 2095-2121, one point: the weights and indices of `_generate_bilinear_interp_dict` used by
`_interpolate_bilinear_in_place`. -/
noncomputable def bilinearAt (p : Panel) (img : Nat → Nat → ℝ) (xy : ℝ × ℝ) (iFloor jFloor : Int) : ℝ :=
  let f := cartToPixel p xy
  let iF := (fixIndex iFloor 0 (p.rows - 1)).toNat
  let jF := (fixIndex jFloor 0 (p.cols - 1)).toNat
  let iCeil := iFloor + 1
  let iC := (fixIndex iCeil 0 (p.rows - 1)).toNat
  let jCeil := jFloor + 1
  let jC := (fixIndex jCeil 0 (p.cols - 1)).toNat
  let jCeilSub := jCeil - f.2
  let jFloorSub := f.2 - jFloor
  let iCeilSub := iCeil - f.1
  let iFloorSub := f.1 - iFloor
  let cc := jCeilSub * iCeilSub
  let fc := jFloorSub * iCeilSub
  let cf := jCeilSub * iFloorSub
  let ff := jFloorSub * iFloorSub
  cc * img iF jF + fc * img iF jC + cf * img iC jF + ff * img iC jC

/-- detector.py:1128-1169 `interpolate_bilinear` for an image of floating-point numbers. -/
noncomputable def interpolateBilinear (p : Panel) (buf : Buffer) (xy : List (ℝ × ℝ)) (img : Nat → Nat → ℝ)
    (padWithNans : Bool) : Option (List (Option ℝ)) := do
  let fill : Option ℝ := if padWithNans then none else some 0
  let (clip, on) := clipToPanel p buf true xy
  let iFloor ← cellIndicesL p.rowPixelVec (clip.map (·.2))
  let jFloor ← cellIndicesL p.colPixelVec (clip.map (·.1))
  let vals := (clip.zip (iFloor.zip jFloor)).map fun q => some (bilinearAt p img q.1 q.2.1 q.2.2)
  pure (scatter fill on vals)

/-- The same for an image of integers: `_interpolate_bilinear` (detector.py:2077) allocates the result with the type
of the image, so the sum is truncated when it is stored. -/
noncomputable def interpolateBilinearInt (p : Panel) (buf : Buffer) (xy : List (ℝ × ℝ)) (img : Nat → Nat → Int)
    (padWithNans : Bool) : Option (List (Option ℝ)) :=
  (interpolateBilinear p buf xy (fun i j => (img i j : ℝ)) true).map fun l =>
    l.map fun v => match v with
      | some x => some ((truncate x : Int) : ℝ)
      | none => if padWithNans then none else some 0

end Hexrd.Detector
