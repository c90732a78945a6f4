import Verif.Model.Quat

/-!
# Model of the Laue-group quaternions (`hexrd/core/rotations.py`)

Angles are real numbers. In floating point the scalar part `cos(pi / 2)` of half a turn is
never exactly zero, so its sign is 1 or -1, depending on rounding. The model takes these signs as
an argument `sigma`, and the theorems hold for every choice.
-/
namespace Hexrd.Rotations

open Quat

/-- `sq3by2` (rotations.py:78). -/
noncomputable def sq3by2 : ℝ := √3 / 2

/-- `piby2` (rotations.py:79). -/
noncomputable def piby2 : ℝ := Real.pi / 2

/-- `piby3` (rotations.py:80). -/
noncomputable def piby3 : ℝ := Real.pi / 3

/-- `scipy`'s `R.from_rotvec(v)` as a quaternion. -/
noncomputable def fromRotvec (x y z : ℝ) : Quat ℝ :=
  let angle := √(x ^ 2 + y ^ 2 + z ^ 2)
  let scale := Real.sin (angle / 2) / angle
  ⟨Real.cos (angle / 2), scale * x, scale * y, scale * z⟩

/-- `unitVector` of a column of three (`hexrd/core/matrixutil.py`:76-93): the length to divide by. -/
noncomputable def unitLen (x y z : ℝ) : ℝ :=
  if √(x ^ 2 + y ^ 2 + z ^ 2) ≤ tenEps then 1 else √(x ^ 2 + y ^ 2 + z ^ 2)

/-- `quatOfAngleAxis` for one column (rotations.py:361-376) and `_scipy_rotation_to_quat`
(rotations.py:113-117); `sigma` is the sign of a scalar part that is zero up to rounding. -/
noncomputable def quatOfAngleAxis (sigma a x y z : ℝ) : Quat ℝ :=
  let n := unitLen x y z
  let r := fromRotvec (a * (x / n)) (a * (y / n)) (a * (z / n))
  qsmul (if r.w = 0 then sigma else npSign r.w) r

/-- The tags accepted by `quatOfLaueGroup`, in lower case (rotations.py:1391-1520). -/
inductive LaueTag
  | ci | s2 | c2h | d2h | vh | c4h | d4h | c3i | s6 | d3d | c6h | d6h | th | oh
deriving DecidableEq, Repr

/-- A column of `angleAxis`: angle and axis. -/
structure AngleAxis where
  a : ℝ
  x : ℝ
  y : ℝ
  z : ℝ

/-- `angleAxis` of the tag ci (rotations.py:1391-1393). -/
noncomputable def angleAxis_ci : List AngleAxis :=
  [⟨0, 1, 0, 0⟩]

/-- `angleAxis` of the tag c2h (rotations.py:1394-1399). -/
noncomputable def angleAxis_c2h : List AngleAxis :=
  [⟨0, 1, 0, 0⟩,
   ⟨Real.pi, 0, 1, 0⟩]

/-- `angleAxis` of the tag d2h (rotations.py:1400-1407). -/
noncomputable def angleAxis_d2h : List AngleAxis :=
  [⟨0, 1, 0, 0⟩,
   ⟨Real.pi, 1, 0, 0⟩,
   ⟨Real.pi, 0, 1, 0⟩,
   ⟨Real.pi, 0, 0, 1⟩]

/-- `angleAxis` of the tag c4h (rotations.py:1408-1415). -/
noncomputable def angleAxis_c4h : List AngleAxis :=
  [⟨0, 1, 0, 0⟩,
   ⟨piby2, 0, 0, 1⟩,
   ⟨Real.pi, 0, 0, 1⟩,
   ⟨piby2 * 3, 0, 0, 1⟩]

/-- `angleAxis` of the tag d4h (rotations.py:1416-1427). -/
noncomputable def angleAxis_d4h : List AngleAxis :=
  [⟨0, 1, 0, 0⟩,
   ⟨piby2, 0, 0, 1⟩,
   ⟨Real.pi, 0, 0, 1⟩,
   ⟨piby2 * 3, 0, 0, 1⟩,
   ⟨Real.pi, 1, 0, 0⟩,
   ⟨Real.pi, 0, 1, 0⟩,
   ⟨Real.pi, 1, 1, 0⟩,
   ⟨Real.pi, -1, 1, 0⟩]

/-- `angleAxis` of the tag c3i (rotations.py:1428-1434). -/
noncomputable def angleAxis_c3i : List AngleAxis :=
  [⟨0, 1, 0, 0⟩,
   ⟨piby3 * 2, 0, 0, 1⟩,
   ⟨piby3 * 4, 0, 0, 1⟩]

/-- `angleAxis` of the tag d3d (rotations.py:1435-1444). -/
noncomputable def angleAxis_d3d : List AngleAxis :=
  [⟨0, 1, 0, 0⟩,
   ⟨piby3 * 2, 0, 0, 1⟩,
   ⟨piby3 * 4, 0, 0, 1⟩,
   ⟨Real.pi, 1, 0, 0⟩,
   ⟨Real.pi, -(1 / 2), sq3by2, 0⟩,
   ⟨Real.pi, -(1 / 2), -sq3by2, 0⟩]

/-- `angleAxis` of the tag c6h (rotations.py:1445-1454). -/
noncomputable def angleAxis_c6h : List AngleAxis :=
  [⟨0, 1, 0, 0⟩,
   ⟨piby3, 0, 0, 1⟩,
   ⟨piby3 * 2, 0, 0, 1⟩,
   ⟨Real.pi, 0, 0, 1⟩,
   ⟨piby3 * 4, 0, 0, 1⟩,
   ⟨piby3 * 5, 0, 0, 1⟩]

/-- `angleAxis` of the tag d6h (rotations.py:1455-1470). -/
noncomputable def angleAxis_d6h : List AngleAxis :=
  [⟨0, 1, 0, 0⟩,
   ⟨piby3, 0, 0, 1⟩,
   ⟨piby3 * 2, 0, 0, 1⟩,
   ⟨Real.pi, 0, 0, 1⟩,
   ⟨piby3 * 4, 0, 0, 1⟩,
   ⟨piby3 * 5, 0, 0, 1⟩,
   ⟨Real.pi, 1, 0, 0⟩,
   ⟨Real.pi, -(1 / 2), sq3by2, 0⟩,
   ⟨Real.pi, -(1 / 2), -sq3by2, 0⟩,
   ⟨Real.pi, sq3by2, 1 / 2, 0⟩,
   ⟨Real.pi, 0, 1, 0⟩,
   ⟨Real.pi, -sq3by2, 1 / 2, 0⟩]

/-- `angleAxis` of the tag th (rotations.py:1471-1486). -/
noncomputable def angleAxis_th : List AngleAxis :=
  [⟨0, 1, 0, 0⟩,
   ⟨Real.pi, 1, 0, 0⟩,
   ⟨Real.pi, 0, 1, 0⟩,
   ⟨Real.pi, 0, 0, 1⟩,
   ⟨piby3 * 2, 1, 1, 1⟩,
   ⟨piby3 * 4, 1, 1, 1⟩,
   ⟨piby3 * 2, -1, 1, 1⟩,
   ⟨piby3 * 4, -1, 1, 1⟩,
   ⟨piby3 * 2, -1, -1, 1⟩,
   ⟨piby3 * 4, -1, -1, 1⟩,
   ⟨piby3 * 2, 1, -1, 1⟩,
   ⟨piby3 * 4, 1, -1, 1⟩]

/-- `angleAxis` of the tag oh (rotations.py:1487-1514). -/
noncomputable def angleAxis_oh : List AngleAxis :=
  [⟨0, 1, 0, 0⟩,
   ⟨piby2, 1, 0, 0⟩,
   ⟨Real.pi, 1, 0, 0⟩,
   ⟨piby2 * 3, 1, 0, 0⟩,
   ⟨piby2, 0, 1, 0⟩,
   ⟨Real.pi, 0, 1, 0⟩,
   ⟨piby2 * 3, 0, 1, 0⟩,
   ⟨piby2, 0, 0, 1⟩,
   ⟨Real.pi, 0, 0, 1⟩,
   ⟨piby2 * 3, 0, 0, 1⟩,
   ⟨piby3 * 2, 1, 1, 1⟩,
   ⟨piby3 * 4, 1, 1, 1⟩,
   ⟨piby3 * 2, -1, 1, 1⟩,
   ⟨piby3 * 4, -1, 1, 1⟩,
   ⟨piby3 * 2, -1, -1, 1⟩,
   ⟨piby3 * 4, -1, -1, 1⟩,
   ⟨piby3 * 2, 1, -1, 1⟩,
   ⟨piby3 * 4, 1, -1, 1⟩,
   ⟨Real.pi, 1, 1, 0⟩,
   ⟨Real.pi, -1, 1, 0⟩,
   ⟨Real.pi, 1, 0, 1⟩,
   ⟨Real.pi, 0, 1, 1⟩,
   ⟨Real.pi, -1, 0, 1⟩,
   ⟨Real.pi, 0, -1, 1⟩]

/-- `angleAxis` for every tag (rotations.py:1391-1520). -/
noncomputable def angleAxis : LaueTag → List AngleAxis
  | .ci => angleAxis_ci
  | .s2 => angleAxis_ci
  | .c2h => angleAxis_c2h
  | .d2h => angleAxis_d2h
  | .vh => angleAxis_d2h
  | .c4h => angleAxis_c4h
  | .d4h => angleAxis_d4h
  | .c3i => angleAxis_c3i
  | .s6 => angleAxis_c3i
  | .d3d => angleAxis_d3d
  | .c6h => angleAxis_c6h
  | .d6h => angleAxis_d6h
  | .th => angleAxis_th
  | .oh => angleAxis_oh

/-- `quatOfLaueGroup` (rotations.py:1342-1529); `sigma i` is the sign given to column `i` if that
is half a turn. -/
noncomputable def quatOfLaueGroup (sigma : ℕ → ℝ) (tag : LaueTag) : List (Quat ℝ) :=
  (angleAxis tag).mapIdx fun i c => quatOfAngleAxis (sigma i) c.a c.x c.y c.z

end Hexrd.Rotations
