import Mathlib.Data.Real.Basic
import Mathlib.Algebra.Order.Floor.Ring
import Mathlib.Algebra.Order.Archimedean.Real.Basic

/-!
Model of `hexrd/hedm/ipfcolor/colorspace.py`: conversion of colours between hue, saturation, lightness and red, green,
blue.

Simplifications: real numbers; an exception is `none`; arrays of floating point numbers with three columns.
-/

namespace Hexrd.ColorSpace

/-- `eps` (colorspace.py:32, `core/constants.py:67`). -/
noncomputable def eps : ℝ := 1 / 2 ^ 26

/-- A row of an array with three columns. -/
structure Row where
  a : ℝ
  b : ℝ
  c : ℝ

open Classical in
/-- Values next to 0 and next to 1 (colorspace.py:49-50). -/
noncomputable def snap (x : ℝ) : ℝ :=
  let y := if |x| < eps then 0 else x
  if |y - 1| < eps then 1 else y

/-- `numpy.mod` for a positive modulus. -/
noncomputable def fmod (x m : ℝ) : ℝ := x - m * ⌊x / m⌋

open Classical in
/-- Values out of bounds (colorspace.py:102-103, 165-166). -/
noncomputable def clip (x : ℝ) : ℝ :=
  let y := if x < 0 then 0 else x
  if y > 1 then 1 else y

/-- The row of `hsl` after colorspace.py:49-50. -/
noncomputable def snapRow (r : Row) : Row := ⟨snap r.a, snap r.b, snap r.c⟩

/-- The row of `rgb` (colorspace.py:57-103) for a row that has been snapped. -/
noncomputable def toRgb (r : Row) : Row :=
  let cc := (1 - |2 * r.c - 1|) * r.b
  let x := (1 - |fmod (6 * r.a) 2 - 1|) * cc
  let m := r.c - cc / 2
  let cp := cc + m
  let xp := x + m
  let zp := m
  let rgb : Row := match ⌊6 * r.a⌋ with
    | 0 => ⟨cp, xp, zp⟩
    | 6 => ⟨cp, xp, zp⟩
    | 1 => ⟨xp, cp, zp⟩
    | 2 => ⟨zp, cp, xp⟩
    | 3 => ⟨zp, xp, cp⟩
    | 4 => ⟨xp, zp, cp⟩
    | 5 => ⟨cp, zp, xp⟩
    | _ => ⟨0, 0, 0⟩
  ⟨clip rgb.a, clip rgb.b, clip rgb.c⟩

open Classical in
/-- The three values of a row are in the range (colorspace.py:52). -/
noncomputable def inRange (r : Row) : Bool :=
  decide (0 ≤ r.a ∧ r.a ≤ 1 ∧ 0 ≤ r.b ∧ r.b ≤ 1 ∧ 0 ≤ r.c ∧ r.c ≤ 1)

/-- `hsl2rgb` (colorspace.py:35-104): the array that is returned, `none` for the error, and the array of the caller
afterwards, which `numpy.atleast_2d` does not copy (colorspace.py:48).  An empty array has no minimum (colorspace.py:52). -/
noncomputable def hsl2rgb (rows : List Row) : Option (List Row) × List Row :=
  let s := rows.map snapRow
  (if !s.isEmpty && s.all inRange then some (s.map toRgb) else none, s)

open Classical in
/-- A row of `rgb2hsl` (colorspace.py:107-167): later assignments to the hue win. -/
noncomputable def toHsl (r : Row) : Row :=
  let cmax := max (max r.a r.b) r.c
  let cmin := min (min r.a r.b) r.c
  let delta := cmax - cmin
  let l := 1 / 2 * (cmax + cmin)
  let z := |delta| < eps
  let h0 : ℝ := 0
  let h1 := if r.a = cmax ∧ ¬ z then fmod ((r.b - r.c) / delta) 6 / 6 else h0
  let h2 := if r.b = cmax ∧ ¬ z then fmod ((r.c - r.a) / delta + 2) 6 / 6 else h1
  let h3 := if r.c = cmax ∧ ¬ z then fmod ((r.a - r.b) / delta + 4) 6 / 6 else h2
  let s := if z then 0 else delta / (1 - |2 * l - 1|)
  ⟨clip h3, clip s, clip l⟩

/-- `rgb2hsl` (colorspace.py:107-167). -/
noncomputable def rgb2hsl (rows : List Row) : List Row := rows.map toHsl

end Hexrd.ColorSpace
