import Verif.Model.EulerClass

/-! # Specification for C177 -/
namespace Hexrd.EulerClass.Spec

/-- A proper rotation. -/
def IsRotation (m : M) : Prop := m * m.transpose = 1 ∧ m.det = 1

/-- The direction of an axis. -/
def dir : Axis → Fin 3 → ℝ
  | .x => ![1, 0, 0]
  | .y => ![0, 1, 0]
  | .z => ![0, 0, 1]

/-- The right-handed rotation of a vector by an angle about a unit vector (the formula of Rodrigues). -/
noncomputable def turn (n : Fin 3 → ℝ) (t : ℝ) (v : Fin 3 → ℝ) : Fin 3 → ℝ :=
  let d := n 0 * v 0 + n 1 * v 1 + n 2 * v 2
  let c : Fin 3 → ℝ := ![n 1 * v 2 - n 2 * v 1, n 2 * v 0 - n 0 * v 2, n 0 * v 1 - n 1 * v 0]
  fun i => Real.cos t * v i + Real.sin t * c i + (1 - Real.cos t) * d * n i

/-- The twelve orders of axes. -/
def twelve : List Order := [(.x, .y, .z), (.x, .z, .y), (.y, .x, .z), (.y, .z, .x), (.z, .x, .y), (.z, .y, .x),
  (.x, .y, .x), (.x, .z, .x), (.y, .x, .y), (.y, .z, .y), (.z, .x, .z), (.z, .y, .z)]

/-- The contract of scipy: the angles it finds for a rotation give that rotation. -/
def Contract (asEuler : M → Order → Bool → Angles) : Prop :=
  ∀ m o b, IsRotation m → orderOk o = true → makeRmat (asEuler m o b) o b = m

/-- The unit is written as the class writes it. -/
def Plain (e : Euler) : Prop := e.units = "degrees" ∨ e.units = "radians"

/-- A sequence of changes of units, all of which are accepted. -/
def Change (e e' : Euler) (us : List String) : Prop := us.foldlM setUnits e = some e'

end Hexrd.EulerClass.Spec
