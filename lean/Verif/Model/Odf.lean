import Verif.Model.Laue
import Mathlib.Analysis.SpecialFunctions.Pow.Real
import Mathlib.Analysis.SpecialFunctions.Integrals.Basic
import Mathlib.LinearAlgebra.Matrix.Trace

/-!
# Model of the orientation distribution functions
(`hexrd/phase_transition/texture/kernels.py`, `unimodal_odf.py`, `uniform_odf.py`, `evaluation.py`)

Floating-point numbers are real numbers. An array of rotation matrices is either one matrix
(shape `(3, 3)`) or a list of them; arrays with several leading axes are taken in flattened
order. Errors and NaN are `none`.
-/
namespace Hexrd.Odf

open Hexrd.Rotations Matrix

/-- A rotation matrix. -/
abbrev Mat := Matrix (Fin 3) (Fin 3) ℝ

/-- An array over orientations: shape `()` or `(n,)`. -/
inductive Arr (α : Type) where
  | one (a : α)
  | many (l : List α)

/-- The number of entries (`np.prod(R.shape[:-2])`, kernels.py:319-320, 408-409). -/
def Arr.count {α : Type} : Arr α → ℕ
  | .one _ => 1
  | .many l => l.length

/-- A symmetry label, in lower case: a tag of `quatOfLaueGroup`, one of the three sample labels, or
any other text. -/
inductive Label
  | tag (t : LaueTag)
  | triclinic
  | monoclinic
  | orthorhombic
  | other

/-- A symmetry argument: absent, an array of quaternions, or a label. -/
inductive Symm
  | absent
  | quats (q : List (Quat ℝ))
  | label (l : Label)

/-- `_SAMPLE_SYMMETRY_TO_LAUE.get(symmetry.lower(), symmetry)` (kernels.py:19-23, 42). -/
def sampleLabel : Label → Label
  | .triclinic => .tag .ci
  | .monoclinic => .tag .c2h
  | .orthorhombic => .tag .d2h
  | l => l

/-- `rotations.quatOfLaueGroup(symmetry)` of a label; `none` is its error (kernels.py:43-48). -/
noncomputable def labelQuats (sigma : ℕ → ℝ) : Label → Option (List (Quat ℝ))
  | .tag t => some (quatOfLaueGroup sigma t)
  | _ => none

/-- `_symmetry_quaternions` (kernels.py:28-48). The outer `none` is the error. -/
noncomputable def symQuats (sigma : ℕ → ℝ) (sample : Bool) : Symm → Option (Option (List (Quat ℝ)))
  | .absent => some none
  | .quats q => some (some q)
  | .label l => (labelQuats sigma (if sample then sampleLabel l else l)).map some

/-- `_is_trivial_symmetry` with the tolerances of `np.allclose` (kernels.py:51-64). -/
def Trivial : Option (List (Quat ℝ)) → Prop
  | none => True
  | some l => ∀ q ∈ l, |(|q.w| - 1)| ≤ 1 / 10 ^ 8 + 1 / 10 ^ 5 * 1

/-- The Beta function of `scipy.special` (kernels.py:13). -/
noncomputable def beta (a b : ℝ) : ℝ := ∫ t in (0 : ℝ)..1, t ^ (a - 1) * (1 - t) ^ (b - 1)

/-- The state of a kernel (kernels.py:188-204). -/
structure Kernel where
  halfwidth : ℝ
  kappa : ℝ
  norm : ℝ
  crystal : Option (List (Quat ℝ))
  sample : Option (List (Quat ℝ))

/-- `DeLaValleePoussinKernel.__init__` (kernels.py:178-204). `none` is an error, a shape parameter
that is NaN (negative cosine), or a limit of the logarithm that is not modelled (a cosine of 0 or 1). -/
noncomputable def mkKernel (sigma : ℕ → ℝ) (halfwidth : ℝ) (crystal sample : Symm) : Option Kernel :=
  if halfwidth ≤ 0 then none
  else
    let c := Real.cos (halfwidth / 2)
    if c ≤ 0 ∨ c = 1 then none
    else do
      let kappa := 0.5 * Real.log 0.5 / Real.log c
      let C := beta 1.5 0.5 / beta 1.5 (kappa + 0.5)
      let cq ← symQuats sigma false crystal
      let sq ← symQuats sigma true sample
      return ⟨halfwidth, kappa, C, cq, sq⟩

/-- `has_symmetry` (kernels.py:238-244). -/
def HasSymmetry (k : Kernel) : Prop := ¬ (Trivial k.crystal ∧ Trivial k.sample)

/-- The angle from the trace of the relative rotation (kernels.py:301-303, 436-437). -/
noncomputable def angleOfTrace (t : ℝ) : ℝ := Real.arccos (max (-1) (min 1 ((t - 1) / 2)))

/-- The angle between two rotations without symmetry (kernels.py:296-303). -/
noncomputable def rawAngle (R1 R2 : Mat) : ℝ := angleOfTrace (R1ᵀ * R2).trace

/-- `_kernel_values` (kernels.py:385-388). -/
noncomputable def kernelValue (k : Kernel) (omega : ℝ) : ℝ := k.norm * Real.cos (omega / 2) ^ (2 * k.kappa)

/-- The rotation matrices of a symmetry, the identity if there is none (kernels.py:422-427). -/
noncomputable def ops (s : Option (List (Quat ℝ))) : List Mat := (s.getD [⟨1, 0, 0, 0⟩]).map rotMat

/-- The value of `_symmetrized_eval` for one reference and one entry of the batch
(kernels.py:429-440). -/
noncomputable def symValue (k : Kernel) (ref g : Mat) : ℝ :=
  ((ops k.sample).foldl (fun total s => (ops k.crystal).foldl (fun total c =>
      total + kernelValue k (angleOfTrace (gᵀ * (s * ref * c)).trace)) total) 0)
    / ((ops k.sample).length * (ops k.crystal).length)

/-- `f` applied to every entry. -/
def Arr.map {α β : Type} (f : α → β) : Arr α → Arr β
  | .one a => .one (f a)
  | .many l => .many (l.map f)

/-- Broadcasting of a function of two arrays; `none` is the error for shapes that do not match. -/
def broadcast {α β γ : Type} (f : α → β → γ) : Arr α → Arr β → Option (Arr γ)
  | .one a, .one b => some (.one (f a b))
  | .one a, .many m => some (.many (m.map (f a)))
  | .many l, .one b => some (.many (l.map (f · b)))
  | .many l, .many m =>
    if l.length = m.length then some (.many (List.zipWith f l m))
    else match l with
      | [a] => some (.many (m.map (f a)))
      | _ => match m with
        | [b] => some (.many (l.map (f · b)))
        | _ => none

/-- `R.reshape(3, 3)` of an array with one entry. -/
def Arr.single {α : Type} : Arr α → Option α
  | .one a => some a
  | .many [a] => some a
  | .many _ => none

/-- `_symmetrized_eval` (kernels.py:390-443). -/
noncomputable def symEval (k : Kernel) (R1 R2 : Arr Mat) : Option (Arr ℝ) :=
  if R1.count = 1 then R1.single.map fun ref => R2.map (symValue k ref)
  else if R2.count = 1 then R2.single.map fun ref => R1.map (symValue k ref)
  else none

open Classical in
/-- `eval` of the kernel (kernels.py:356-383). -/
noncomputable def eval (k : Kernel) (R1 R2 : Arr Mat) : Option (Arr ℝ) :=
  if HasSymmetry k then symEval k R1 R2
  else broadcast (fun a b => kernelValue k (rawAngle a b)) R1 R2

/-- `_misorientation_symmetries`, filled up by `rotations.misorientation` (kernels.py:347-354,
rotations.py:189-196): the crystal and the sample quaternions. -/
def misorientationSyms (k : Kernel) : List (Quat ℝ) × List (Quat ℝ) :=
  (k.crystal.getD [⟨1, 0, 0, 0⟩], k.sample.getD [⟨1, 0, 0, 0⟩])

/-- The state of a `UnimodalODF` (unimodal_odf.py:96-131). -/
structure Unimodal where
  kernel : Kernel
  modes : List Mat
  weights : List ℝ

open Classical in
/-- `UnimodalODF.__init__` (unimodal_odf.py:96-131). One modal matrix is the list of it. -/
noncomputable def mkUnimodal (kernel : Kernel) (modes : Arr Mat) (weights : Option (List ℝ)) : Option Unimodal :=
  let ms := match modes with
    | .one m => [m]
    | .many l => l
  match weights with
  | none => if ms.length = 0 then none else some ⟨kernel, ms, List.replicate ms.length (1 / (ms.length : ℝ))⟩
  | some w =>
    if w.length ≠ ms.length then none
    else if ¬ |w.sum - 1| ≤ 1 / 10 ^ 8 + 1 / 10 ^ 5 * 1 then none
    else if ∃ x ∈ w, x < 0 then none
    else some ⟨kernel, ms, w⟩

/-- `results += weight * kernel_values` (unimodal_odf.py:229); a single value goes to all entries. -/
noncomputable def accumulate (results : List ℝ) (w : ℝ) : Arr ℝ → Option (List ℝ)
  | .one v => some (results.map (· + w * v))
  | .many l => if l.length = results.length then some (List.zipWith (fun r v => r + w * v) results l) else none

/-- The loop of `UnimodalODF.eval` over a list of orientations (unimodal_odf.py:213-229). -/
noncomputable def unimodalLoop (o : Unimodal) (queries : List Mat) : Option (List ℝ) :=
  (List.zip o.modes o.weights).foldlM (fun results mw => do
    let v ← eval o.kernel (.many queries) (.one mw.1)
    accumulate results mw.2 v) (List.replicate queries.length 0)

/-- `UnimodalODF.eval` (unimodal_odf.py:192-240). -/
noncomputable def unimodalEval (o : Unimodal) : Arr Mat → Option (Arr ℝ)
  | .one g => (unimodalLoop o [g]).bind fun r => r.head?.map .one
  | .many l => (unimodalLoop o l).map .many

/-- `np.max` of a list; `none` is the error for an empty one. -/
noncomputable def listMax : List ℝ → Option ℝ
  | [] => none
  | a :: l => some (l.foldl max a)

/-- `estimated_max_value` (unimodal_odf.py:258-259). -/
noncomputable def estimatedMax (o : Unimodal) : Option ℝ :=
  (unimodalEval o (.many o.modes)).bind fun
    | .one v => some v
    | .many l => listMax l

open Classical in
/-- `UnimodalODF.analytic_texture_index` (unimodal_odf.py:282-289). -/
noncomputable def analyticIndex (o : Unimodal) : Option ℝ :=
  if o.modes.length ≠ 1 ∨ HasSymmetry o.kernel then none
  else some (2 * o.kernel.norm ^ 2 / Real.pi * beta (2 * o.kernel.kappa + 0.5) 1.5)

/-- `UniformODF.eval` (uniform_odf.py:197-214). -/
noncomputable def uniformEval (a : Arr Mat) : Option (Arr ℝ) := some (a.map fun _ => 1)

/-- `UniformODF.analytic_texture_index` (uniform_odf.py:119). -/
noncomputable def uniformIndex : Option ℝ := some (1 ^ 2)

/-- `range(0, n, chunk)` and the slices (evaluation.py:53-57), for a positive chunk size. -/
def chunks {α : Type} (size : ℕ) (l : List α) : List (List α) :=
  (List.range ((l.length + size - 1) / size)).map fun i =>
    (l.drop (i * size)).take (min (i * size + size) l.length - i * size)

/-- An array with one axis; `none` is the error of `np.concatenate` for other arrays. -/
def axis {α : Type} : Arr α → Option (List α)
  | .one _ => none
  | .many v => some v

/-- `np.concatenate` of the results (evaluation.py:59); `none` if there are none, or if one has no
axis. -/
def concatenate (l : List (Arr ℝ)) : Option (Arr ℝ) :=
  if l.isEmpty then none else (l.mapM axis).map fun vs => .many vs.flatten

/-- `eval_odf_batch` (evaluation.py:43-59), for the evaluation function of an ODF. A chunk size of
zero is the error of `range`, a negative one leaves nothing to concatenate. -/
noncomputable def evalBatch (odf : Arr Mat → Option (Arr ℝ)) (orientations : Arr Mat) (chunk : ℤ) : Option (Arr ℝ) :=
  match orientations with
  | .one g => odf (.one g)
  | .many l =>
    if (l.length : ℤ) ≤ chunk then odf (.many l)
    else if chunk ≤ 0 then none
    else ((chunks chunk.toNat l).mapM fun c => odf (.many c)).bind concatenate

/-- `np.mean`; `none` is NaN. -/
noncomputable def mean (l : List ℝ) : Option ℝ := if l = [] then none else some (l.sum / l.length)

open Classical in
/-- `texture_index` (evaluation.py:142-153): the closed form if there is one, else the estimate from
the values at the sampled orientations. -/
noncomputable def textureIndex (analytic : Option ℝ) (values : List ℝ) : Option ℝ :=
  match analytic with
  | some v => some v
  | none => do
    let m2 ← mean (values.map (· ^ 2))
    let m ← mean values
    if m = 0 then none else return m2 / m ^ 2

/-- `texture_norm` (evaluation.py:186-188). -/
noncomputable def textureNorm (analytic : Option ℝ) (values : List ℝ) : Option ℝ :=
  (textureIndex analytic values).map Real.sqrt

end Hexrd.Odf
