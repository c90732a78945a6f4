import Verif.Model.EOS

/-!
What the equation of state should give.
-/

namespace Hexrd.EOS

/-- The third-order Birch–Murnaghan pressure, in terms of `x`, the cube root of the ratio of the volumes. -/
noncomputable def bm3 (k k' x : ℝ) : ℝ := 3 / 2 * k * (x ^ 7 - x ^ 5) * (1 + 3 / 4 * (k' - 4) * (x ^ 2 - 1))

/-- The volumes up to the reference volume at which the material has the pressure `P`. -/
def compressed (m : Eos) (P : ℝ) (T : Option ℝ) : Set ℝ := {V | 0 < V ∧ V ≤ vt m T ∧ calcPressure m V T = P}

end Hexrd.EOS
