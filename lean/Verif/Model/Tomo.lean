import Mathlib.Data.List.Basic
import Mathlib.Data.Real.Basic
import Mathlib.Analysis.SpecialFunctions.Log.Basic
import Verif.Model.Detector

/-! Model of /repo/hexrd/hedm/grainmap/tomoutil.py: attenuation, the part of the sinogram that is inverted, cleaning, cropping and the
circular mask. The inverse transform, dilation, erosion and resampling are left out, and the labels of the connected parts are given. -/

namespace Hexrd.Tomo

open Hexrd.Detector (npRound)

/-- `l[a:b]` of Python: negative bounds count from the end. -/
def bound (n : ℕ) (a : ℤ) : ℕ := if a < 0 then (a + n).toNat else min a.toNat n

/-- `l[a:b]`. -/
def slice {β : Type} (l : List β) (a b : ℤ) : List β := (l.take (bound l.length b)).drop (bound l.length a)

/-- The numbers of the images that are read (tomoutil.py:27, 57, 85). -/
def imageNumbers (start n : ℕ) : List ℕ := (List.range n).map (start + ·)

/-- One pixel of `gen_attenuation_rads` (tomoutil.py:103-105). -/
noncomputable def attenuation (image bright dark : ℝ) : ℝ := -Real.log ((image - dark) / (bright - dark))

/-- The stack of `gen_attenuation_rads` (tomoutil.py:72-107): `len(tdf)` raises without a dark field. An image is a function of the pixel. -/
noncomputable def radiographs {P : Type} (images : List (P → ℝ)) (bright : P → ℝ) (dark : Option (P → ℝ)) : Option (List (P → ℝ)) :=
  match dark with
  | none => none
  | some d => some (images.map fun im p => attenuation (im p) (bright p) (d p))

/-- `rotation_axis_pos` (tomoutil.py:122). -/
noncomputable def axisPos (center pixel : ℝ) : ℤ := -npRound (center / pixel)

/-- `max_rad` (tomoutil.py:127-129), for a positive size. -/
noncomputable def maxRad (dim pixel : ℝ) : ℤ := ⌊dim / pixel / 2 * 1.1⌋

/-- The row of the sinogram that is inverted (tomoutil.py:131-138). -/
noncomputable def cutRow {β : Type} (row : List β) (axis rad : ℤ) : List β :=
  let cut := if 0 ≤ axis then slice row (2 * axis) row.length else slice row 0 (2 * axis)
  let dist := npRound ((cut.length : ℝ) / 2) - rad
  slice cut dist (-dist)

/-- The angles of the projections, in degrees (tomoutil.py:125): `linspace` without its end. -/
noncomputable def angles (start stop : ℝ) (n : ℕ) : List ℝ := (List.range n).map fun i : ℕ => start + i * ((stop - start) / n)

/-- The number of pixels with a label. -/
def size {P : Type} (pixels : List P) (lab : P → ℕ) (k : ℕ) : ℕ := (pixels.filter fun p => lab p = k).length

/-- Removing noise (tomoutil.py:167-173): the loop ends before the last label. -/
def removeNoise {P : Type} [DecidableEq P] (pixels : List P) (lab : P → ℕ) (n noise : ℕ) (image : P → Bool) : P → Bool :=
  (List.range (n - 1)).foldl (fun im i => if size pixels lab (i + 1) < noise then fun p => if lab p = i + 1 then false else im p else im) image

/-- Closing holes (tomoutil.py:175-182), with the labels of the background. -/
def closeHoles {P : Type} [DecidableEq P] (pixels : List P) (lab : P → ℕ) (n hole : ℕ) (image : P → Bool) : P → Bool :=
  (List.range (n - 1)).foldl
    (fun im i => if 1 ≤ size pixels lab (i + 1) ∧ size pixels lab (i + 1) < hole then fun p => if lab p = i + 1 then true else im p else im) image

/-- `new_rows` (tomoutil.py:203-209). -/
noncomputable def newRows (rows : ℕ) (spacing pixel : ℝ) : ℤ := npRound (rows / (spacing / pixel))

/-- `cut_edge` (tomoutil.py:219-225). -/
noncomputable def cutEdge (rows : ℕ) (spacing dim : ℝ) : ℤ := npRound ((rows * spacing - dim) / 2 / spacing)

/-- The cropped layer (tomoutil.py:227); the cut is that of the rows. -/
noncomputable def crop {β : Type} (layer : List (List β)) (spacing dim : ℝ) : List (List β) :=
  let c := cutEdge layer.length spacing dim
  (slice layer c (-c)).map fun r => slice r c (-c)

/-- Whether the mask keeps the pixel in row `i` and column `j` of a layer with `nx` rows (tomoutil.py:229-236). -/
noncomputable def inMask (nx : ℕ) (rad spacing : ℝ) (i j : ℕ) : Prop :=
  let center := (nx : ℝ) / 2
  let radius := npRound (rad / spacing)
  ¬ (j - center) * (j - center) + (i - center) * (i - center) > (radius : ℝ) * radius

end Hexrd.Tomo
