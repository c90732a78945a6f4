import Mathlib.LinearAlgebra.Matrix.NonsingularInverse
import Mathlib.LinearAlgebra.Matrix.Notation
import Mathlib.LinearAlgebra.Matrix.Determinant.Basic
import Mathlib.Analysis.SpecialFunctions.Trigonometric.Inverse

/-!
# Model of the quaternion functions (`hexrd/core/rotations.py`)

Floating-point numbers are real numbers; arrays of quaternions are treated column by
column. `scipy`'s rotations are modelled by unit quaternions and their product.
-/
namespace Hexrd.Rotations

open Matrix

/-- A quaternion, scalar part first (a column of the arrays). -/
@[ext] structure Quat (R : Type) where
  w : R
  x : R
  y : R
  z : R
deriving DecidableEq, Repr

namespace Quat

variable {R : Type} [CommRing R]

/-- Hamilton product, as in `scipy`'s composition of rotations. -/
def qmul (p q : Quat R) : Quat R :=
  ⟨p.w * q.w - p.x * q.x - p.y * q.y - p.z * q.z,
   p.w * q.x + p.x * q.w + p.y * q.z - p.z * q.y,
   p.w * q.y - p.x * q.z + p.y * q.w + p.z * q.x,
   p.w * q.z + p.x * q.y - p.y * q.x + p.z * q.w⟩

/-- `-1 * q` -/
def qneg (q : Quat R) : Quat R := ⟨-q.w, -q.x, -q.y, -q.z⟩

/-- `c * q` -/
def qsmul (c : R) (q : Quat R) : Quat R := ⟨c * q.w, c * q.x, c * q.y, c * q.z⟩

/-- The identity rotation. -/
def qone : Quat R := ⟨1, 0, 0, 0⟩

/-- Squared length. -/
def norm2 (q : Quat R) : R := q.w ^ 2 + q.x ^ 2 + q.y ^ 2 + q.z ^ 2

/-- A quaternion as a column. -/
def vec (q : Quat R) : Fin 4 → R := ![q.w, q.x, q.y, q.z]

end Quat

open Quat

/-- A column as a quaternion. -/
def ofVec {R : Type} (v : Fin 4 → R) : Quat R := ⟨v 0, v 1, v 2, v 3⟩

/-- A list of 16 entries put into a 4x4 array column by column
(`qmats.T.reshape((nq, 4, 4)).transpose(0, 2, 1)`, rotations.py:357). -/
def columnMajor {R : Type} (l : Fin 16 → R) : Matrix (Fin 4) (Fin 4) R :=
  fun i j => l ⟨4 * j.1 + i.1, by omega⟩

/-- `quatProductMatrix(h, mult='right')` (rotations.py:314-334, 357). -/
def prodMatRight {R : Type} [CommRing R] (h : Quat R) : Matrix (Fin 4) (Fin 4) R :=
  columnMajor ![h.w, h.x, h.y, h.z, -h.x, h.w, -h.z, h.y, -h.y, h.z, h.w, -h.x, -h.z, -h.y, h.x, h.w]

/-- `quatProductMatrix(h, mult='left')` (rotations.py:335-355, 357). -/
def prodMatLeft {R : Type} [CommRing R] (h : Quat R) : Matrix (Fin 4) (Fin 4) R :=
  columnMajor ![h.w, h.x, h.y, h.z, -h.x, h.w, h.z, -h.y, -h.y, -h.z, h.w, h.x, -h.z, h.y, -h.x, h.w]

/-- `_rotmatofquat` / `rotMatOfQuat` (rotations.py:561-627). -/
def rotMat {R : Type} [CommRing R] (q : Quat R) : Matrix (Fin 3) (Fin 3) R :=
  !![q.w ^ 2 + q.x ^ 2 - q.y ^ 2 - q.z ^ 2, 2 * q.x * q.y - 2 * q.w * q.z, 2 * q.w * q.y + 2 * q.x * q.z;
     2 * q.w * q.z + 2 * q.x * q.y, q.w ^ 2 - q.x ^ 2 + q.y ^ 2 - q.z ^ 2, 2 * q.y * q.z - 2 * q.w * q.x;
     2 * q.x * q.z - 2 * q.w * q.y, 2 * q.w * q.x + 2 * q.y * q.z, q.w ^ 2 - q.x ^ 2 - q.y ^ 2 + q.z ^ 2]

/-- `constants.ten_epsf` (constants.py:67). -/
noncomputable def tenEps : ℝ := 10 / 2 ^ 52

/-- `unitVector` for one column (`hexrd/core/matrixutil.py`:76-93): vectors of length at
most `ten_epsf` are left alone. -/
noncomputable def unitVector (q : Quat ℝ) : Quat ℝ :=
  let nrm := √(norm2 q)
  let nrm := if nrm ≤ tenEps then 1 else nrm
  qsmul nrm⁻¹ q

/-- `fixQuat` (rotations.py:120-138). -/
noncomputable def fixQuat (q : Quat ℝ) : Quat ℝ :=
  let u := unitVector q
  if u.w < 0 then qneg u else u

/-- `invertQuat` (rotations.py:141-151). -/
noncomputable def invertQuat (q : Quat ℝ) : Quat ℝ := fixQuat ⟨-q.w, q.x, q.y, q.z⟩

/-- `np.sign` -/
noncomputable def npSign (x : ℝ) : ℝ := if x < 0 then -1 else if x = 0 then 0 else 1

/-- `_scipy_rotation_to_quat` (rotations.py:113-117) of the rotation that `scipy` holds as
the unit quaternion `r`. -/
noncomputable def ofRotation (r : Quat ℝ) : Quat ℝ := qsmul (npSign r.w) r

/-- `R.from_quat` normalises; `none` is its error for zero quaternions. -/
noncomputable def fromQuat (q : Quat ℝ) : Option (Quat ℝ) :=
  if norm2 q = 0 then none else some (qsmul (√(norm2 q))⁻¹ q)

/-- `quatProduct` (rotations.py:254-275). -/
noncomputable def quatProduct (q1 q2 : Quat ℝ) : Option (Quat ℝ) := do
  let r1 ← fromQuat q1
  let r2 ← fromQuat q2
  return ofRotation (qmul r2 r1)

/-- `np.argmax`: the first entry with the largest scalar part. -/
noncomputable def argmaxW : List (Quat ℝ) → Option (Quat ℝ)
  | [] => none
  | q :: l => match argmaxW l with
    | none => some q
    | some r => if r.w ≤ q.w then some q else some r

/-- `toFundamentalRegion` for one quaternion, with a list of crystal symmetries and no sample
symmetry (rotations.py:1211-1292); `none` is the error for an empty symmetry array. -/
noncomputable def toFundamentalRegion (sym : List (Quat ℝ)) (q : Quat ℝ) : Option (Quat ℝ) :=
  argmaxW (sym.map fun g => fixQuat (ofVec (prodMatRight g *ᵥ vec q)))

/-- Distance of two quaternions up to symmetry: `none` is NaN
(`hexrd/core/transforms/new_capi/quat_distance.c`:1-35). -/
noncomputable def quatDistance (q1 q2 : Quat ℝ) (qsym : List (Quat ℝ)) : Option ℝ :=
  let q0max := qsym.foldl (fun m qs =>
    let q2s : Quat ℝ :=
      ⟨q2.w * qs.w - q2.x * qs.x - q2.y * qs.y - q2.z * qs.z,
       q2.x * qs.w + q2.w * qs.x - q2.z * qs.y + q2.y * qs.z,
       q2.y * qs.w + q2.z * qs.x + q2.w * qs.y - q2.x * qs.z,
       q2.z * qs.w - q2.y * qs.x + q2.x * qs.y + q2.w * qs.z⟩
    let absq0 := |q1.w * q2s.w + q1.x * q2s.x + q1.y * q2s.y + q1.z * q2s.z|
    if m < absq0 then absq0 else m) 0
  if q0max ≤ 1 then some (2 * Real.arccos q0max)
  else if q0max - 1 < 1 / 10 ^ 12 then some 0
  else none

/-- The angle of `misorientation(q1, q2, symmetries)` for one `q2` (rotations.py:154-251), with
crystal symmetries `gc` and sample symmetries `gs`; `none` is an error (empty arrays, or
`arccosSafe`, rotations.py:89-97). -/
noncomputable def misorientationAngle (q1 q2 : Quat ℝ) (gc gs : List (Quat ℝ)) : Option ℝ := do
  let eqv := gc.flatMap fun g => gs.map fun s =>
    fixQuat (ofVec (prodMatRight (invertQuat q1) *ᵥ (prodMatLeft s *ᵥ (prodMatRight g *ᵥ vec q2))))
  let best ← argmaxW eqv
  let c := best.w
  if 1 + 1 / 10 ^ 5 < |c| then none else return 2 * Real.arccos (max (-1) (min 1 c))

end Hexrd.Rotations
