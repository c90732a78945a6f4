import Mathlib.Data.Real.Basic
import Mathlib.Analysis.SpecialFunctions.Pow.Real
import Mathlib.Analysis.SpecialFunctions.Trigonometric.Inverse
import Mathlib.Analysis.Real.Sqrt

/-!
# Model of `hexrd/core/distortion` and of `inverse_distortion.cpp`

Each map on one point; the code applies it to every row of an array of points.  Parameters are functions on positions.
`none` is NaN.
-/
namespace Hexrd.Distortion

noncomputable section

/-- A point of the detector plane. -/
abbrev Pt := ℝ × ℝ

/-! ### `dexela_2923.py` -/

/-- The position of the first of the two parameters used for a point, dexela_2923.py:69-83 and :89-103. -/
def quadrant (q : Pt) : Nat :=
  if q.1 < 0 then if q.2 < 0 then 4 else 2
  else if q.2 < 0 then 6 else 0

/-- `is_trivial`, dexela_2923.py:32-34, with `n` parameters. -/
def trivial (n : Nat) (p : Nat → ℝ) : Prop := ∀ i < n, p i = 0

/-- `_dexela_2923_distortion`, dexela_2923.py:66-83. -/
def dexelaMap (p : Nat → ℝ) (q : Pt) : Pt := (q.1 + p (quadrant q), q.2 + p (quadrant q + 1))

/-- `_dexela_2923_inverse_distortion`, dexela_2923.py:86-103. -/
def dexelaInv (p : Nat → ℝ) (q : Pt) : Pt := (q.1 - p (quadrant q), q.2 - p (quadrant q + 1))

open Classical in
/-- `Dexela_2923.apply`, dexela_2923.py:36-42. -/
def dexelaApply (p : Nat → ℝ) (q : Pt) : Pt := if trivial 8 p then q else dexelaMap p q

open Classical in
/-- `Dexela_2923.apply_inverse`, dexela_2923.py:44-50. -/
def dexelaApplyInv (p : Nat → ℝ) (q : Pt) : Pt := if trivial 8 p then q else dexelaInv p q

/-! ### `dexela_2923_quad.py` -/

/-- dexela_2923_quad.py:65-66: the shifted coefficients. -/
def shift (a : ℝ) : ℝ := a + 1e-12

/-- `_dexela_2923_quad_distortion`, dexela_2923_quad.py:61-72.  A division by zero is NaN or infinite in the code; here it
is zero, so theorems exclude it. -/
def quadMap (p : Nat → ℝ) (q : Pt) : Pt :=
  let p1 := shift (p 1)
  let p5 := shift (p 5)
  let x := (q.1 / p1 - p 0 / p1 - (p 2 / (p1 * p5) * (q.2 - p 3))) / (1 - (p 2 * p 4) / (p1 * p5))
  (x, (q.2 - p 3 - p 4 * x) / p5)

/-- `_dexela_2923_quad_inverse_distortion`, dexela_2923_quad.py:75-84. -/
def quadInv (p : Nat → ℝ) (q : Pt) : Pt :=
  (p 0 + shift (p 1) * q.1 + p 2 * q.2, p 3 + p 4 * q.1 + shift (p 5) * q.2)

open Classical in
/-- `Dexela_2923_quad.apply`, dexela_2923_quad.py:29-36. -/
def quadApply (p : Nat → ℝ) (q : Pt) : Pt := if trivial 6 p then q else quadMap p q

open Classical in
/-- `Dexela_2923_quad.apply_inverse`, dexela_2923_quad.py:38-45. -/
def quadApplyInv (p : Nat → ℝ) (q : Pt) : Pt := if trivial 6 p then q else quadInv p q

/-! ### `ge_41rt.py` -/

/-- ge_41rt.py:16 -/
def rhoMax : ℝ := 204.8

/-- `constants.sqrt_epsf`: the square root of the machine precision. -/
def sqrtEps : ℝ := √(2 ^ (-52 : ℤ))

/-- `_ge_41rt_distortion`, ge_41rt.py:49-76.  A power of zero with a negative exponent is infinite in the code. -/
def geMap (p : Nat → ℝ) (q : Pt) : Pt :=
  let r := √(q.1 * q.1 + q.2 * q.2)
  let rInv := if r < sqrtEps then 0 else 1 / r
  let s := q.2 * rInv
  let c := q.1 * rInv
  let c2 := c * c - s * s
  let s2 := 2 * s * c
  let c4 := c2 * c2 - s2 * s2
  let ratio := r * (1 / rhoMax)
  let r' := (p 0 * ratio ^ p 3 * c2 + p 1 * ratio ^ p 4 * c4 + p 2 * ratio ^ p 5 + 1) * r
  (r' * c, r' * s)

open Classical in
/-- `ge_41rt_inverse_distortion`, inverse_distortion.cpp:13-36.  NaN for the origin (0 times infinity), for the square
root of a negative number, for the reciprocal of zero, and for an arc cosine outside [-1, 1]. -/
def geInv (p : Nat → ℝ) (q : Pt) : Option Pt :=
  let r := √(q.1 * q.1 + q.2 * q.2)
  let c := q.1 * (1 / r)
  let c2 := 2 * c ^ 2 - 1
  let c4 := 2 * c2 ^ 2 - 1
  let a := -p 0 * c2 - p 1 * c4 - p 2
  let s := rhoMax / √a
  let u := (-3 / 2 * √3) * r / s
  let t := (2 / √3) * s * Real.cos (Real.arccos u / 3 + Real.pi * 4 / 3)
  if r = 0 ∨ a ≤ 0 ∨ u < -1 then none else some (t * q.1 * (1 / r), t * q.2 * (1 / r))

/-- `is_trivial`, ge_41rt.py:123-125. -/
def geTrivial (p : Nat → ℝ) : Prop := p 0 = 0 ∧ p 1 = 0 ∧ p 2 = 0

open Classical in
/-- `GE_41RT.apply`, ge_41rt.py:127-134. -/
def geApply (p : Nat → ℝ) (q : Pt) : Pt := if geTrivial p then q else geMap p q

open Classical in
/-- `GE_41RT.apply_inverse`, ge_41rt.py:136-144: only the first three parameters are passed on. -/
def geApplyInv (p : Nat → ℝ) (q : Pt) : Option Pt :=
  if geTrivial p then some q else geInv (fun i => if i < 3 then p i else 0) q

end

end Hexrd.Distortion
