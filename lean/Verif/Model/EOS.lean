import Mathlib.Analysis.SpecialFunctions.Pow.Real
import Mathlib.Order.Bounds.Basic

/-!
The equation of state of a material (`hexrd/core/material/material.py`).
-/

namespace Hexrd.EOS

/-- The constants of the equation of state: volume (Å³), bulk modulus and its pressure derivative at the reference state, the
coefficients of thermal expansion, and the temperature derivatives of the two moduli. -/
structure Eos where
  v0 : ℝ
  k0 : ℝ
  k0p : ℝ
  alpha0 : ℝ
  alpha1 : ℝ
  dk0dt : ℝ
  dk0pdt : ℝ

/-- `vt` (material.py:439-451). -/
noncomputable def vt (m : Eos) (T : Option ℝ) : ℝ :=
  match T with
  | none => m.v0
  | some t => m.v0 * Real.exp (m.alpha0 * (t - 298) + 0.5 * m.alpha1 * (t ^ 2 - 298 ^ 2))

/-- `kt` (material.py:453-462). -/
noncomputable def kt (m : Eos) (T : Option ℝ) : ℝ :=
  match T with
  | none => m.k0
  | some t => m.k0 + m.dk0dt * (t - 298)

/-- `ktp` (material.py:464-473). -/
noncomputable def ktp (m : Eos) (T : Option ℝ) : ℝ :=
  match T with
  | none => m.k0p
  | some t => m.k0p + m.dk0pdt * (t - 298)

/-- `calc_pressure` (material.py:490-503), for a given volume. -/
noncomputable def calcPressure (m : Eos) (volume : ℝ) (T : Option ℝ) : ℝ :=
  let f := 0.5 * ((vt m T / volume) ^ (2 / 3 : ℝ) - 1)
  3 * kt m T * f * (1 - 1.5 * (4 - ktp m T) * f) * (1 + 2 * f) ^ (2.5 : ℝ)

/-- The polynomial whose roots are searched (material.py:517-526). -/
noncomputable def poly (m : Eos) (P : ℝ) (T : Option ℝ) (x : ℝ) : ℝ :=
  let alpha := 0.75 * (ktp m T - 4)
  alpha * x ^ 9 + (1 - 2 * alpha) * x ^ 7 + (alpha - 1) * x ^ 5 + -2 * P / 3 / kt m T

/-- The values that are left of the roots (material.py:527-532). Simplification: the roots are the exact real roots; the root zero gives
an infinite value, which the mask removes. -/
def ratios (m : Eos) (P : ℝ) (T : Option ℝ) : Set ℝ :=
  {r | ∃ x, x ≠ 0 ∧ poly m P T x = 0 ∧ r = 1 / x ^ 3 ∧ 0 ≤ r ∧ r ≤ 1}

/-- `calc_volume` (material.py:505-536) returns `V`: without a pressure the volume at the temperature, and the same if no value is left;
otherwise the largest value times that volume. -/
def CalcVolume (m : Eos) (P T : Option ℝ) (V : ℝ) : Prop :=
  match P with
  | none => V = vt m T
  | some p => (ratios m p T = ∅ ∧ V = vt m T) ∨ ∃ r, IsGreatest (ratios m p T) r ∧ V = r * vt m T

/-- `pt_lp_factor` (material.py:475-477); `vol` is the volume of the cell in nm³. -/
noncomputable def ptLpFactor (m : Eos) (vol : ℝ) : ℝ := (vol * 1e3 / m.v0) ^ (1 / 3 : ℝ)

/-- The lengths of `lparms0` (material.py:479-488). -/
noncomputable def lparms0 (m : Eos) (vol : ℝ) (l : ℝ × ℝ × ℝ) : ℝ × ℝ × ℝ :=
  (l.1 / ptLpFactor m vol, l.2.1 / ptLpFactor m vol, l.2.2 / ptLpFactor m vol)

/-- `calc_lp_factor` (material.py:538-545), for the volume `V` that `calc_volume` has returned. -/
noncomputable def lpFactor (m : Eos) (T : Option ℝ) (V : ℝ) : ℝ := (V / vt m T) ^ (1 / 3 : ℝ)

/-- The lengths of `calc_lp_at_PT` (material.py:547-560), for the volume `V` that `calc_volume` has returned. -/
noncomputable def lpAtPT (m : Eos) (vol : ℝ) (l : ℝ × ℝ × ℝ) (T : Option ℝ) (V : ℝ) : ℝ × ℝ × ℝ :=
  let f := lpFactor m T V
  let l0 := lparms0 m vol l
  (f * l0.1, f * l0.2.1, f * l0.2.2)

end Hexrd.EOS
