import Verif.Model.Transforms

/-!
# Model of the near-field versions of the transforms (`hexrd/hedm/grainmap/nfutil.py`)

Written there once more for the compiler of numba, for the standard beam. Arrays of angles and matrices are lists with one entry for
each spot. Reals stand for floating point numbers, NaN is `none`.
-/
namespace Hexrd.NfKernels
open Hexrd.Transforms

/-- `_v3_normalized` (nfutil.py:299-310). -/
noncomputable def normalized (v : V) : V :=
  let sqr := v 0 * v 0 + v 1 * v 1 + v 2 * v 2
  let inv := if sqr = 0 then 1 else 1 / √sqr
  fun i => v i * inv

/-- `_make_binary_rot_mat` (nfutil.py:314-329). -/
def binaryRotMat (v : V) : M :=
  !![2 * v 0 * v 0 - 1, 2 * v 0 * v 1, 2 * v 0 * v 2;
     2 * v 1 * v 0, 2 * v 1 * v 1 - 1, 2 * v 1 * v 2;
     2 * v 2 * v 0, 2 * v 2 * v 1, 2 * v 2 * v 2 - 1]

/-- One row of `_anglesToGVec` (nfutil.py:342-358) for the angles `tth` and `eta`. -/
noncomputable def gvec (tth eta : ℝ) (rs rc : M) : V :=
  let g0 := Real.cos (0.5 * tth) * Real.cos eta
  let g1 := Real.cos (0.5 * tth) * Real.sin eta
  let g2 := Real.sin (0.5 * tth)
  let t := fun j : Fin 3 => rs 0 j * g0 + rs 1 j * g1 + rs 2 j * g2
  fun j => rc 0 j * t 0 + rc 1 j * t 1 + rc 2 j * t 2

/-- `_anglesToGVec` (nfutil.py:338-360) with the matrices that `test_orientations` passes (nfutil.py:729-730): rows of `tth`, `eta` and
`ome`. -/
noncomputable def gvecs (angs : List (ℝ × ℝ × ℝ)) (chi : ℝ) (rc : M) : List V :=
  List.zipWith (fun a rs => gvec a.1 a.2.1 rs rc) angs (sampleRmats chi (angs.map fun a => a.2.2))

/-- The beam, `constants.beam_vec` (nfutil.py:74). -/
def beam : V := ![0, 0, -1]

/-- One row of `_gvec_to_detector_array` (nfutil.py:393-421). -/
noncomputable def toXY (g : V) (rd rs rc : M) (td ts tc : V) : Option (ℝ × ℝ) :=
  let nb := normalized beam
  let tz := mulV rd ![0, 0, 1]
  let p3 : V := fun i => mulV rs tc i + ts i
  let diff : V := fun i => td i - p3 i
  let num := dot tz diff
  let vg := mulV rs (mulV rc (normalized g))
  let bdot := -dot nb vg
  if bdot < epsf ∨ bdot > 1 - epsf then none
  else
    let d := mulV (binaryRotMat vg) nb
    let denom := dot tz d
    if denom < epsf then none
    else
      let u := num / denom
      let r : V := fun i => u * d i - diff i
      some (dot r (col rd 0), dot r (col rd 1))

end Hexrd.NfKernels
