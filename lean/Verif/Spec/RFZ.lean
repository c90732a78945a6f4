import Verif.Model.RFZ
import Verif.Model.Laue
import Verif.Spec.Quat

/-!
What the fundamental zone should be, in terms of the symmetry group of the crystal.
-/

namespace Hexrd.RFZ
open Hexrd.Rotations Hexrd.Rotations.Spec Quat

/-- The Rodrigues vector stands for the rotation of the unit quaternion: its axis is a unit vector, and the vector part of
the quaternion is the scalar part times the tangent times the axis; for half a turn it is the axis, up to sign. -/
def Represents (ro : Ro) (q : Quat ℝ) : Prop :=
  ro.x ^ 2 + ro.y ^ 2 + ro.z ^ 2 = 1 ∧ UnitQ q ∧
    match ro.t with
    | none => SameUpToSign q ⟨0, ro.x, ro.y, ro.z⟩
    | some t => q.w ≠ 0 ∧ q.x = q.w * (t * ro.x) ∧ q.y = q.w * (t * ro.y) ∧ q.z = q.w * (t * ro.z)

/-- Among the orientations equivalent to `q`, none has a smaller rotation angle: `q` is in the fundamental zone. -/
def Reduced (G : List (Quat ℝ)) (q : Quat ℝ) : Prop := ∀ p, Equivalent G p q → |p.w| ≤ |q.w|

/-- All symmetries other than the identity lead to a larger rotation angle: `q` is inside the fundamental zone. -/
def StrictlyReduced (G : List (Quat ℝ)) (q : Quat ℝ) : Prop :=
  ∀ g ∈ G, SameUpToSign g qone ∨ |(qmul q g).w| < |q.w|

/-- The Laue class of the 32 point groups in the order of the tables: 1, -1 | 2, m, 2/m | 222, mm2, mmm | 4, -4, 4/m |
422, 4mm, -42m, 4/mmm | 3, -3 | 32, 3m, -3m | 6, -6, 6/m | 622, 6mm, -6m2, 6/mmm | 23, m-3 | 432, -43m, m-3m. -/
def laueOf (pgnum : ℕ) : LaueTag :=
  if pgnum ≤ 2 then .ci else if pgnum ≤ 5 then .c2h else if pgnum ≤ 8 then .d2h else if pgnum ≤ 11 then .c4h
  else if pgnum ≤ 15 then .d4h else if pgnum ≤ 17 then .c3i else if pgnum ≤ 20 then .d3d else if pgnum ≤ 23 then .c6h
  else if pgnum ≤ 27 then .d6h else if pgnum ≤ 29 then .th else .oh

end Hexrd.RFZ
