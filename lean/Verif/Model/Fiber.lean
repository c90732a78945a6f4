import Verif.Model.Laue

/-!
# Model of the discrete orientation fibres (`discreteFiber`, `hexrd/core/rotations.py`)

Floating-point numbers are real numbers. The function is called with one crystal direction and one
sample direction (it reshapes both to one column). The singular value decomposition that supplies a
perpendicular direction, and the sign of a scalar part that is zero up to rounding, are arguments.
-/
namespace Hexrd.Rotations

open Matrix Quat

/-- `constants.sqrt_epsf` (constants.py:68). -/
noncomputable def fiberTol : ℝ := √(2 ^ (-52 : ℤ))

/-- `unitVector` of one column of three (`hexrd/core/matrixutil.py`:76-93). -/
noncomputable def unitVec (v : Fin 3 → ℝ) : Fin 3 → ℝ := fun i => v i / unitLen (v 0) (v 1) (v 2)

/-- The axis of the half turn that carries `c` to `s` (rotations.py:1068-1082). `hperp` is the first
column of `nullSpace(c)` (`hexrd/core/matrixutil.py`:96-114). -/
noncomputable def fiberAxis (hperp : Fin 3 → ℝ) (c s : Fin 3 → ℝ) : Fin 3 → ℝ :=
  let anrm := √((s 0 + c 0) ^ 2 + (s 1 + c 1) ^ 2 + (s 2 + c 2) ^ 2)
  if anrm > fiberTol then fun i => (s i + c i) / anrm else hperp

/-- The entry `i` of `phi` (rotations.py:1089). -/
noncomputable def fiberPhi (ndiv i : ℕ) : ℝ := i * (2 * Real.pi / ndiv)

/-- The column `i` of `qfib` (rotations.py:1084-1093). -/
noncomputable def fiberQuat (hperp : Fin 3 → ℝ) (sigma : ℕ → ℝ) (ndiv : ℕ) (c s : Fin 3 → ℝ) (i : ℕ) : Quat ℝ :=
  let ax := fiberAxis hperp c s
  let q0 : Quat ℝ := ⟨0, ax 0, ax 1, ax 2⟩
  let qh := quatOfAngleAxis (sigma i) (fiberPhi ndiv i) (c 0) (c 1) (c 2)
  ofVec (prodMatRight qh *ᵥ vec q0)

/-- `discreteFiber(c, s, B, ndiv)` (rotations.py:1020-1100), without symmetries. -/
noncomputable def discreteFiber (hperp : (Fin 3 → ℝ) → Fin 3 → ℝ) (sigma : ℕ → ℝ) (B : Matrix (Fin 3) (Fin 3) ℝ)
    (ndiv : ℕ) (hkl s : Fin 3 → ℝ) : List (Quat ℝ) :=
  let c := unitVec (B *ᵥ hkl)
  let s := unitVec s
  (List.range ndiv).map fun i => fixQuat (fiberQuat (hperp c) sigma ndiv c s i)

/-- `discreteFiber(c, s, B, ndiv, csym=sym)` (rotations.py:1020-1100), each column reduced to the
fundamental region; `none` is the error for an empty array of symmetries. -/
noncomputable def discreteFiberSym (hperp : (Fin 3 → ℝ) → Fin 3 → ℝ) (sigma : ℕ → ℝ) (sym : List (Quat ℝ))
    (B : Matrix (Fin 3) (Fin 3) ℝ) (ndiv : ℕ) (hkl s : Fin 3 → ℝ) : Option (List (Quat ℝ)) :=
  let c := unitVec (B *ᵥ hkl)
  let s := unitVec s
  (List.range ndiv).mapM fun i => toFundamentalRegion sym (fiberQuat (hperp c) sigma ndiv c s i)

end Hexrd.Rotations
