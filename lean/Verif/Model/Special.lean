import Mathlib.Analysis.SpecialFunctions.Complex.Log
import Mathlib.Analysis.SpecialFunctions.Trigonometric.Basic
import Mathlib.Analysis.Complex.Trigonometric
import Mathlib.Algebra.BigOperators.Group.Finset.Basic

/-! Model of /repo/hexrd/core/fitting/special.py over the real and the complex numbers: no rounding, no overflow, no infinities, and a
zero has no sign. -/

namespace Hexrd.Special

open Complex (I)

/-- `erfc` (special.py:26-39; core/constants.py:131-140), Abramowitz and Stegun 7.1.26. -/
noncomputable def erfc (x : ℝ) : ℝ :=
  let s : ℝ := if 0 < x then 1 else if x < 0 then -1 else 0
  let t := 1 / (1 + 0.3275911 * |x|)
  let y := 1 - (((((1.061405429 * t + -1.453152027) * t) + 1.421413741) * t + -0.284496736) * t + 0.254829592) * t * Real.exp (-|x| * |x|)
  1 - s * y

/-- The step of the rules, `_H_STEP` with `_NTRAP = 11` (special.py:18-19). -/
noncomputable def hStep : ℝ := Real.sqrt (Real.pi / (11 + 1))

/-- `_H_CAP` (special.py:20). -/
noncomputable def hCap : ℝ := Real.pi / hStep

/-- `_cexp_parts` (special.py:243-257) without the guards against overflow. -/
noncomputable def cexpParts (a b : ℝ) : ℂ := ⟨Real.exp a * Real.cos b, Real.exp a * Real.sin b⟩

/-- `_exp_neg_z2` (special.py:260-268). -/
noncomputable def expNegZ2 (z : ℂ) : ℂ := cexpParts (z.im * z.im - z.re * z.re) (-2 * z.re * z.im)

/-- `_trap_correction` (special.py:271-314). -/
noncomputable def trapCorrection (z : ℂ) (plus : Bool) : ℂ :=
  let x := z.re
  let y := z.im
  let logAbsB := 2 * hCap * y
  if 40 < logAbsB then
    let invB := cexpParts (-2 * hCap * y) (2 * hCap * x)
    let aOverB := 2 * cexpParts (y * y - x * x - 2 * hCap * y) (-2 * x * y + 2 * hCap * x)
    if plus then aOverB / (1 + invB) else aOverB / (invB - 1)
  else
    let a := 2 * expNegZ2 z
    let b := cexpParts logAbsB (-2 * hCap * x)
    if plus then a / (1 + b) else a / (1 - b)

/-- `_wofz_midpoint` (special.py:317-334); the first term and those of the loop in one sum. -/
noncomputable def wofzMidpoint (z : ℂ) : ℂ :=
  (⟨0, 2 / hCap⟩ * z) * ∑ k ∈ Finset.range 12, (Real.exp (-(hStep * (k + 0.5)) * (hStep * (k + 0.5))) : ℂ) /
    (z * z - (hStep * (k + 0.5) : ℝ) * (hStep * (k + 0.5) : ℝ))

/-- `_wofz_modified_midpoint` (special.py:337-342). -/
noncomputable def wofzModifiedMidpoint (z : ℂ) : ℂ := wofzMidpoint z + trapCorrection z true

/-- `_wofz_modified_trapezoid` (special.py:345-362); the term that comes first is the last of the sum. -/
noncomputable def wofzModifiedTrapezoid (z : ℂ) : ℂ :=
  ⟨0, 1 / hCap⟩ / z + (⟨0, 2 / hCap⟩ * z) * (∑ k ∈ Finset.range 11, (Real.exp (-(hStep * (k + 1)) * (hStep * (k + 1))) : ℂ) /
    (z * z - (hStep * (k + 1) : ℝ) * (hStep * (k + 1) : ℝ))) + trapCorrection z false

/-- `_wofz_first_quadrant` (special.py:365-383). -/
noncomputable def wofzFirst (z : ℂ) : ℂ :=
  let rzh := z.re / hStep
  let buff := |rzh - ⌊rzh⌋ - 0.5|
  if max z.re hCap ≤ z.im then wofzMidpoint z
  else if z.im < z.re ∧ buff ≤ 0.25 then wofzModifiedTrapezoid z
  else wofzModifiedMidpoint z

/-- `wofz_complex_scalar_numba` (special.py:386-434) for finite arguments. -/
noncomputable def wofz (z : ℂ) : ℂ :=
  let xneg := decide (z.re < 0)
  let yneg := decide (z.im < 0)
  let notBoth := xneg != yneg
  let zw := if xneg then -z else z
  let zw := if notBoth then ⟨zw.re, -zw.im⟩ else zw
  let w := wofzFirst zw
  let w := if notBoth then ⟨w.re, -w.im⟩ else w
  if yneg then 2 * expNegZ2 z - w else w

/-- The loop of `_exp1_series_numba` (special.py:82-91) from number `k` on, with the steps that are left: it ends when the term is small
compared to the sum. -/
noncomputable def seriesLoop (z : ℂ) : ℕ → ℕ → ℂ → ℂ → ℂ
  | 0, _, _, s => s
  | n + 1, k, term, s =>
    let term := term * (-z / k)
    let add := term / k
    let s := s + add
    if ‖add‖ ≤ 2.220446049250313e-16 * max 1 ‖s‖ then s else seriesLoop z n (k + 1) term s

/-- `_exp1_series_numba` (special.py:73-93); the logarithm of special.py:42-51 is the principal one. -/
noncomputable def exp1Series (z : ℂ) : ℂ :=
  -(0.577215664901532860606512090082402431 : ℝ) - Complex.log z - seriesLoop z 999 2 (-z) (-z)

/-- The state of the loop of `_exp1_contfrac_numba` (special.py:96-127) after `n` steps, without its end and without the guards against
a zero: `b`, `c`, `d` and `h`. `tau` stands for `_TINY`. -/
noncomputable def lentz (tau z : ℂ) : ℕ → ℂ × ℂ × ℂ × ℂ
  | 0 => (z + 1, 1 / tau, 1 / (z + 1), 1 / (z + 1))
  | n + 1 =>
    let p := lentz tau z n
    let a : ℂ := -(((n + 1) * (n + 1) : ℕ) : ℂ)
    let b := p.1 + 2
    let d := 1 / (a * p.2.2.1 + b)
    let c := b + a / p.2.1
    (b, c, d, p.2.2.2 * (c * d))

end Hexrd.Special
