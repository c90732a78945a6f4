import Verif.Model.Calib

/-!
Model of the parameters of the calibrators that an instrument calibration combines
(`abstract_grain.py`, `powder.py`, `instrument.py` and `lmfit_param_handling.py` in
`hexrd/core/fitting/calibration`).

Simplifications: the parameters of the instrument and of a material are given as lists (they are modelled in
`Model/Calib`), SciPy's conversions between matrices, rotation vectors and Euler angles are those of `RotLib`, and an
exception is `none`.
-/
namespace Hexrd.Calib
open Hexrd.Transforms

/-! ### A grain calibrator -/

/-- The twelve grain parameters (abstract_grain.py:34): exponential map, position, inverse stretch. -/
structure GrainP where
  orient : V
  trans : V
  stretch : Fin 6 → ℝ

/-- The attributes of a grain or Laue calibrator (abstract_grain.py:32-42). -/
structure GrainCal where
  name : Name
  grain : GrainP
  refinements : Option (Fin 12 → Bool)
  conv : Conv
  paramNames : List Name

def sGrain : Name := ['_', 'g', 'r', 'a', 'i', 'n', '_', 'p', 'a', 'r', 'a', 'm', '_']

/-- `grain_param_names` of the name without hyphens (lmfit_param_handling.py:627-634). -/
def grainNames (base : Name) : List Name := (List.range 12).map fun i => mangle base ++ sGrain ++ Nat.toDigits 10 i

/-- The twelve numbers of `grain_params_euler` (abstract_grain.py:102-112). -/
noncomputable def eulerValues (L : RotLib) (c : Conv) (g : GrainP) : List ℝ :=
  let a := detectorAngles L c g.orient
  [a 0, a 1, a 2, g.trans 0, g.trans 1, g.trans 2, g.stretch 0, g.stretch 1, g.stretch 2, g.stretch 3, g.stretch 4,
    g.stretch 5]

/-- The setter of `grain_params_euler` (abstract_grain.py:114-129); `none` when there are not twelve numbers. -/
noncomputable def ofEuler (L : RotLib) (c : Conv) : List ℝ → Option GrainP
  | [a0, a1, a2, t0, t1, t2, s0, s1, s2, s3, s4, s5] =>
    some ⟨setAngles L c ![a0, a1, a2], ![t0, t1, t2], ![s0, s1, s2, s3, s4, s5]⟩
  | _ => none

/-- `create_grain_params` (lmfit_param_handling.py:631-649) with the names given. -/
noncomputable def grainParams (names : List Name) (values : List ℝ) (refinements : Option (Fin 12 → Bool)) :
    List Param :=
  (names.zip values).mapIdx fun i nv =>
    ⟨nv.1, nv.2, (match refinements with | none => true | some r => r (Fin.ofNat 12 i)), some (nv.2 - 2),
      some (nv.2 + 2)⟩

/-- `create_lmfit_params` (abstract_grain.py:49-60): the names are changed where they are in use. -/
noncomputable def createGrain (L : RotLib) (cal : GrainCal) (current : List Name) : List Param × GrainCal :=
  let names := (renameAll current [] (grainNames cal.name)).1
  (grainParams names (eulerValues L cal.conv cal.grain) cal.refinements, { cal with paramNames := names })

/-- `update_from_lmfit_params` (abstract_grain.py:62-67). -/
noncomputable def updateGrain (L : RotLib) (cal : GrainCal) (ps : List Param) : Option GrainCal := do
  let vs ← cal.paramNames.mapM (val ps)
  let g ← ofEuler L cal.conv vs
  pure { cal with grain := g }

/-! ### Fixing parameters -/

/-- `force_param_value` (abstract_grain.py:181-193); an infinite bound is `none`. -/
noncomputable def force (p : Param) (v : ℝ) : Param :=
  let tol := 1 / 10000
  open Classical in
  if ∃ lo, p.lo = some lo ∧ lo > v then { p with lo := some (v - tol), value := v }
  else if ∃ hi, p.hi = some hi ∧ hi < v then { p with hi := some (v + tol), value := v }
  else { p with value := v }

/-- `params_dict[name]` is forced to a value and no longer varied (abstract_grain.py:72-75, 80-82, 86-88); a missing
name raises. -/
noncomputable def fixOne (ps : List Param) (nv : Name × ℝ) : Option (List Param) :=
  if nv.1 ∈ ps.map Param.name then
    some (ps.map fun p => if p.name = nv.1 then { force p nv.2 with vary := false } else p)
  else none

/-- `fix_strain_to_identity` (abstract_grain.py:69-75). -/
noncomputable def fixStrain (cal : GrainCal) (ps : List Param) : Option (List Param) :=
  ((cal.paramNames.drop 6).zip [1, 1, 1, 0, 0, 0]).foldlM fixOne ps

/-- `fix_translation_to_origin` (abstract_grain.py:77-82). -/
noncomputable def fixTranslation (cal : GrainCal) (ps : List Param) : Option (List Param) :=
  (((cal.paramNames.drop 3).take 3).zip [0, 0, 0]).foldlM fixOne ps

/-- `fix_y_to_zero` (abstract_grain.py:84-88); too few names raise. -/
noncomputable def fixY (cal : GrainCal) (ps : List Param) : Option (List Param) :=
  (((cal.paramNames.drop 3).take 3)[1]?).bind fun n => fixOne ps (n, 0)

/-! ### Several calibrators -/

/-- A calibrator: of a grain, or of powder rings with the parameters that its material has (C69). -/
inductive Cal where
  | grain (c : GrainCal)
  | powder (material : List Param) (paramNames : List Name)

/-- `create_lmfit_params` of a calibrator, given the names in use (abstract_grain.py:49-60,
core/fitting/calibration/powder.py:100-111). -/
noncomputable def createCal (L : RotLib) (current : List Name) : Cal → List Param × Cal
  | .grain c => ((createGrain L c current).1, .grain (createGrain L c current).2)
  | .powder mat _ =>
    let new := mat.filter fun p => p.name ∉ current
    (new, .powder mat (new.map Param.name))

/-- The loop of `make_lmfit_params` (core/fitting/calibration/instrument.py:76-80). -/
noncomputable def createAll (L : RotLib) : List Param → List Cal → List Param × List Cal
  | ps, [] => (ps, [])
  | ps, c :: cs =>
    let n := createCal L (ps.map Param.name) c
    let r := createAll L (ps ++ n.1) cs
    (r.1, n.2 :: r.2)

end Hexrd.Calib
