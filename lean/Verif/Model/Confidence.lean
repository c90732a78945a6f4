import Mathlib.Data.Real.Basic
import Mathlib.Data.Nat.Notation
import Mathlib.Algebra.Order.Floor.Ring
import Mathlib.Algebra.Order.Archimedean.Real.Basic

/-! Counting the predicted spots of one orientation at one coordinate that are lit in the image stack, and drawing such spots
(hexrd/hedm/grainmap/nfutil.py). -/

namespace Hexrd.Confidence

/-- The quantization of the sensor (nfutil.py:1352-1363, 1425-1428): `base`, `inv_deltas`, `clip_vals` and the beam stop. -/
structure Sensor where
  (b0 b1 b2 i0 i1 i2 : ℝ)
  (cols rows : ℕ)
  (stop width : ℝ)

/-- A stack of images: `val z y x` counts inside the shape only. -/
structure Stack (β : Type) where
  (frames rows cols : ℕ)
  (val : ℕ → ℕ → ℕ → β)

/-- A predicted spot: the point on the detector, `none` for a pair of NaN, and the rotation angle. -/
abbrev Spot := Option (ℝ × ℝ) × ℝ

/-- A first index as numba reads it: a negative one counts from the end. -/
def wrap (n : ℕ) (z : ℤ) : ℤ := if z < 0 then z + n else z

/-- `image[z, y, x]` in compiled code: outside of the array the read is undefined (`none`). -/
def read {β : Type} (img : Stack β) (z y x : ℤ) : Option β :=
  let z := wrap img.frames z
  if 0 ≤ z ∧ z < img.frames ∧ 0 ≤ y ∧ y < img.rows ∧ 0 ≤ x ∧ x < img.cols
  then some (img.val z.toNat y.toNat x.toNat) else none

/-- One round of the loop of `_quant_and_clip_confidence` (nfutil.py:448-481): the counts `in_sensor` and `matches`. Every comparison
with a NaN is false, so that such a spot is passed over by `not xf >= 0.0` (nfutil.py:457-458). -/
noncomputable def count (s : Sensor) (img : Stack Bool) (st : ℕ × ℕ) (p : Spot) : Option (ℕ × ℕ) :=
  match p.1 with
  | none => some st
  | some (x, y) =>
    if |y - s.stop| < s.width / 2 then some st else
    let xf := ⌊(x - s.b0) * s.i0⌋
    if ¬ 0 ≤ xf then some st else
    if ¬ xf < s.cols then some st else
    let yf := ⌊(y - s.b1) * s.i1⌋
    if ¬ 0 ≤ yf then some st else
    if ¬ yf < s.rows then some st else
    let zf := ⌊(p.2 - s.b2) * s.i2⌋
    (read img zf yf xf).map fun lit => (st.1 + 1, if lit then st.2 + 1 else st.2)

/-- `_quant_and_clip_confidence` (nfutil.py:427-483). -/
noncomputable def confidence (s : Sensor) (img : Stack Bool) (spots : List Spot) : Option ℝ :=
  (spots.foldlM (count s img) (0, 0)).map fun c => if c.1 = 0 then 0 else (c.2 : ℝ) / (c.1 : ℝ)

/-- One round of the loop of `_write_pixels` (nfutil.py:625-640), `image[z, y, x // 8] |= 1 << (7 - x % 8)`: outside of the array the
write is undefined. The conversion of a NaN to an integer is taken to be negative, so that such a spot is passed over. -/
noncomputable def writePixel (s : Sensor) (img : Stack ℕ) (p : Spot) : Option (Stack ℕ) :=
  match p.1 with
  | none => some img
  | some (x, y) =>
    let x := ⌊(x - s.b0) * s.i0⌋
    if x < 0 ∨ s.cols ≤ x then some img else
    let y := ⌊(y - s.b1) * s.i1⌋
    if y < 0 ∨ s.rows ≤ y then some img else
    let z := wrap img.frames ⌊(p.2 - s.b2) * s.i2⌋
    let byte := x.toNat / 8
    if 0 ≤ z ∧ z < img.frames ∧ y < img.rows ∧ byte < img.cols then
      some { img with val := fun a b c =>
        if a = z.toNat ∧ b = y.toNat ∧ c = byte then img.val a b c ||| 1 <<< (7 - x.toNat % 8) else img.val a b c }
    else none

/-- `_write_pixels` (nfutil.py:623-640). -/
noncomputable def writePixels (s : Sensor) (img : Stack ℕ) (spots : List Spot) : Option (Stack ℕ) := spots.foldlM (writePixel s) img

/-- The array of `simulate_diffractions` (nfutil.py:511-517). -/
def blank (nframes nrows ncols : ℕ) : Stack ℕ := ⟨nframes, ncols, (nrows - 1) / 8 + 1, fun _ _ _ => 0⟩

/-- `np.unpackbits(image, axis=-1)` (nfutil.py:603): the most significant bit comes first. -/
def unpack (img : Stack ℕ) : Stack Bool :=
  ⟨img.frames, img.rows, 8 * img.cols, fun z y x => (img.val z y (x / 8)).testBit (7 - x % 8)⟩

/-- The truth of an entry of a packed stack, as `if image[z, y, x]` takes it (nfutil.py:480). -/
def bytes (img : Stack ℕ) : Stack Bool := ⟨img.frames, img.rows, img.cols, fun z y x => img.val z y x ≠ 0⟩

/-- `ski_dilation` with a rectangle of ones of `2 * r + 1` rows and `2 * c + 1` columns, image by image (nfutil.py:590-609). The
packing of the result is `unpack` backwards and is not modelled. -/
def dilate (r c : ℕ) (img : Stack Bool) : Stack Bool :=
  { img with val := fun z y x =>
      (List.range img.rows).any fun y' => (List.range img.cols).any fun x' =>
        decide (y' ≤ y + r ∧ y ≤ y' + r ∧ x' ≤ x + c ∧ x ≤ x' + c) && img.val z y' x' }

end Hexrd.Confidence
