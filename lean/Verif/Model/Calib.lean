import Verif.Model.Transforms

/-!
Model of the fit-parameter handling of instrument calibration:
`hexrd/core/fitting/calibration/lmfit_param_handling.py`, `relative_constraints.py`, and the beam angles of
`hexrd/core/instrument/hedm_instrument.py`.

Names are lists of characters.  An `lmfit.Parameters` dictionary is the list of its parameters in order of insertion;
a lookup finds the last one with the name, as a later one replaces an earlier one.  Names that `lmfit` refuses
(not identifiers) and the clipping of values to their bounds are not modelled.  The logarithm of a rotation and the
extraction of Euler angles come from SciPy: they are the fields of `RotLib`.
-/

namespace Hexrd.Calib

open Hexrd.Transforms Matrix

/-- A parameter or detector name. -/
abbrev Name := List Char

/-- `name.replace('-', '_')` (`lmfit_param_handling.py:117`, 238, 371, 490, 567, 604, 633). -/
def mangle (n : Name) : Name := n.map fun c => if c = '-' then '_' else c

/-- A tuple (name, value, vary, min, max) (`lmfit_param_handling.py:41`); `none` is an infinite bound. -/
structure Param where
  name : Name
  value : ℝ
  vary : Bool
  lo : Option ℝ
  hi : Option ℝ

/-- `params[name]`; a missing name raises. -/
def get (ps : List Param) (n : Name) : Option Param := ps.reverse.find? fun p => p.name = n

/-- `params[name].value`. -/
def val (ps : List Param) (n : Name) : Option ℝ := (get ps n).map Param.value

/-- `_expmap_x` (`lmfit_param_handling.py:731-735`). -/
def s_EX : Name :=
  ['_', 'e', 'x', 'p', 'm', 'a', 'p', '_', 'x']
/-- `_expmap_y` (`lmfit_param_handling.py:731-735`). -/
def s_EY : Name :=
  ['_', 'e', 'x', 'p', 'm', 'a', 'p', '_', 'y']
/-- `_expmap_z` (`lmfit_param_handling.py:731-735`). -/
def s_EZ : Name :=
  ['_', 'e', 'x', 'p', 'm', 'a', 'p', '_', 'z']
/-- `_euler_x` (`lmfit_param_handling.py:731-735`). -/
def s_UX : Name :=
  ['_', 'e', 'u', 'l', 'e', 'r', '_', 'x']
/-- `_euler_y` (`lmfit_param_handling.py:731-735`). -/
def s_UY : Name :=
  ['_', 'e', 'u', 'l', 'e', 'r', '_', 'y']
/-- `_euler_z` (`lmfit_param_handling.py:731-735`). -/
def s_UZ : Name :=
  ['_', 'e', 'u', 'l', 'e', 'r', '_', 'z']
/-- `_euler_xp` (`lmfit_param_handling.py:731-735`). -/
def s_UXP : Name :=
  ['_', 'e', 'u', 'l', 'e', 'r', '_', 'x', 'p']
/-- `_euler_zpp` (`lmfit_param_handling.py:731-735`). -/
def s_UZPP : Name :=
  ['_', 'e', 'u', 'l', 'e', 'r', '_', 'z', 'p', 'p']
/-- The text `beam_polar` (`lmfit_param_handling.py`). -/
def sPolar : Name :=
  ['b', 'e', 'a', 'm', '_', 'p', 'o', 'l', 'a', 'r']
/-- The text `beam_azimuth` (`lmfit_param_handling.py`). -/
def sAzim : Name :=
  ['b', 'e', 'a', 'm', '_', 'a', 'z', 'i', 'm', 'u', 't', 'h']
/-- The text `beam_energy` (`lmfit_param_handling.py`). -/
def sEnergy : Name :=
  ['b', 'e', 'a', 'm', '_', 'e', 'n', 'e', 'r', 'g', 'y']
/-- The text `beam_energy_correction` (`lmfit_param_handling.py`). -/
def sCorr : Name :=
  ['b', 'e', 'a', 'm', '_', 'e', 'n', 'e', 'r', 'g', 'y', '_', 'c', 'o', 'r', 'r', 'e', 'c', 't', 'i', 'o', 'n']
/-- The text `_intercept` (`lmfit_param_handling.py`). -/
def sIcpt : Name :=
  ['_', 'i', 'n', 't', 'e', 'r', 'c', 'e', 'p', 't']
/-- The text `_slope` (`lmfit_param_handling.py`). -/
def sSlope : Name :=
  ['_', 's', 'l', 'o', 'p', 'e']
/-- The text `_distortion_param` (`lmfit_param_handling.py`). -/
def sDist : Name :=
  ['_', 'd', 'i', 's', 't', 'o', 'r', 't', 'i', 'o', 'n', '_', 'p', 'a', 'r', 'a', 'm']
/-- The text `_tvec_x` (`lmfit_param_handling.py`). -/
def sTX : Name :=
  ['_', 't', 'v', 'e', 'c', '_', 'x']
/-- The text `_tvec_y` (`lmfit_param_handling.py`). -/
def sTY : Name :=
  ['_', 't', 'v', 'e', 'c', '_', 'y']
/-- The text `_tvec_z` (`lmfit_param_handling.py`). -/
def sTZ : Name :=
  ['_', 't', 'v', 'e', 'c', '_', 'z']
/-- The text `_radius` (`lmfit_param_handling.py`). -/
def sRadius : Name :=
  ['_', 'r', 'a', 'd', 'i', 'u', 's']
/-- The text `instr_chi` (`lmfit_param_handling.py`). -/
def sChi : Name :=
  ['i', 'n', 's', 't', 'r', '_', 'c', 'h', 'i']
/-- The text `instr_tvec_x` (`lmfit_param_handling.py`). -/
def sITX : Name :=
  ['i', 'n', 's', 't', 'r', '_', 't', 'v', 'e', 'c', '_', 'x']
/-- The text `instr_tvec_y` (`lmfit_param_handling.py`). -/
def sITY : Name :=
  ['i', 'n', 's', 't', 'r', '_', 't', 'v', 'e', 'c', '_', 'y']
/-- The text `instr_tvec_z` (`lmfit_param_handling.py`). -/
def sITZ : Name :=
  ['i', 'n', 's', 't', 'r', '_', 't', 'v', 'e', 'c', '_', 'z']

/-- The keys of `EULER_PARAM_NAMES_MAPPING` (`lmfit_param_handling.py:731-735`): `None`, `('xyz', True)` and
`('zxz', False)`. -/
inductive Conv
  | expmap
  | xyz
  | zxz

/-- The parameter suffixes (`lmfit_param_handling.py:731-735`, 750-752). -/
def angleNames : Conv → Name × Name × Name
  | .expmap => (s_EX, s_EY, s_EZ)
  | .xyz => (s_UX, s_UY, s_UZ)
  | .zxz => (s_UZ, s_UXP, s_UZPP)

/-- SciPy's `as_rotvec` and `as_euler`. -/
structure RotLib where
  log : M → V
  toEuler : Conv → M → V

/-- `np.degrees`. -/
noncomputable def degrees (x : ℝ) : ℝ := x * (180 / Real.pi)
/-- `np.radians`. -/
noncomputable def radians (x : ℝ) : ℝ := x * (Real.pi / 180)

/-- Rotation about the first axis. -/
noncomputable def rx (a : ℝ) : M := !![1, 0, 0; 0, Real.cos a, -Real.sin a; 0, Real.sin a, Real.cos a]
/-- Rotation about the second axis. -/
noncomputable def ry (a : ℝ) : M := !![Real.cos a, 0, Real.sin a; 0, 1, 0; -Real.sin a, 0, Real.cos a]
/-- Rotation about the third axis. -/
noncomputable def rz (a : ℝ) : M := !![Real.cos a, -Real.sin a, 0; Real.sin a, Real.cos a, 0; 0, 0, 1]

/-- `make_rmat_euler` (`hexrd/core/rotations.py:696-729`) for the two conventions in use: fixed axes x, y, z and
moving axes z, x, z; for `None`, the exponential map. -/
noncomputable def rmatOf : Conv → V → M
  | .expmap, a => expmapRmat a
  | .xyz, a => rz (a 2) * ry (a 1) * rx (a 0)
  | .zxz, a => rz (a 0) * rx (a 1) * rz (a 2)

/-- `_tilt_to_rmat` (`lmfit_param_handling.py:503-519`). -/
noncomputable def tiltToRmat (c : Conv) (tilt : V) : M :=
  match c with
  | .expmap => expmapRmat tilt
  | c => rmatOf c fun i => radians (tilt i)

/-- `detector_angles_euler` (`lmfit_param_handling.py:755-769`). -/
noncomputable def detectorAngles (L : RotLib) (c : Conv) (tilt : V) : V :=
  match c with
  | .expmap => tilt
  | c => fun i => degrees (L.toEuler c (expmapRmat tilt) i)

/-- `set_detector_angles_euler` (`lmfit_param_handling.py:772-793`): the new tilt. -/
noncomputable def setAngles (L : RotLib) (c : Conv) (angles : V) : V :=
  match c with
  | .expmap => angles
  | c => L.log (rmatOf c fun i => radians (angles i))

/-- A distortion function: how many parameters its setter demands, and the parameters. -/
structure Distortion where
  need : Nat
  params : List ℝ

/-- A detector, as far as calibration changes it; a radius means a cylindrical detector. -/
structure Panel where
  tilt : V
  tvec : V
  distortion : Option Distortion
  radius : Option ℝ
  group : Option Name

/-- A beam: propagation vector, energy, and intercept and slope of the energy correction. -/
structure Beam where
  vector : V
  energy : ℝ
  correction : Option (ℝ × ℝ)

/-- The instrument. -/
structure Instr where
  beams : List (Name × Beam)
  chi : ℝ
  tvec : V
  dets : List (Name × Panel)

/-- `calc_beam_vec` (`hedm_instrument.py:341-351`). -/
noncomputable def calcBeamVec (azim pola : ℝ) : V :=
  ![-(Real.sin (radians pola) * Real.cos (radians azim)), -Real.cos (radians pola),
    -(Real.sin (radians pola) * Real.sin (radians azim))]

/-- `calc_angles_from_beam_vec` (`hedm_instrument.py:354-363`): azimuth and polar angle. -/
noncomputable def calcBeamAngles (b : V) : ℝ × ℝ :=
  let n := (unitRow fun i => -b i).1
  (degrees (atan2 (n 2) (n 0)), degrees (Real.arccos (n 1)))

/-- The prefix of a beam's parameters (`create_beam_param_names`, `lmfit_param_handling.py:248-258`). -/
def beamPrefix (multi : Bool) (k : Name) : Name := if multi then k ++ ['_'] else []

/-- The parameters of one beam (`lmfit_param_handling.py:46-72`). -/
noncomputable def beamParams (multi : Bool) (k : Name) (b : Beam) : List Param :=
  let a := calcBeamAngles b.vector
  let pre := beamPrefix multi k
  [⟨pre ++ sPolar, a.2, false, some (a.2 - 1), some (a.2 + 1)⟩,
   ⟨pre ++ sAzim, a.1, false, some (a.1 - 1), some (a.1 + 1)⟩,
   ⟨pre ++ sEnergy, b.energy, false, some (b.energy - 1 / 5), some (b.energy + 1 / 5)⟩] ++
  match b.correction with
  | none => []
  | some (ic, sl) =>
    [⟨pre ++ sCorr ++ sIcpt, ic, false, none, none⟩, ⟨pre ++ sCorr ++ sSlope, sl, false, none, none⟩]

/-- `f'{det}_distortion_param_{ii}'` (`lmfit_param_handling.py:157`). -/
def distName (det : Name) (ii : Nat) : Name := det ++ sDist ++ '_' :: Nat.toDigits 10 ii

/-- The parameters of one detector (`add_unconstrained_detector_parameters`, `lmfit_param_handling.py:115-165`). -/
noncomputable def detParams (L : RotLib) (c : Conv) (det : Name) (p : Panel) : List Param :=
  let a := detectorAngles L c p.tilt
  let n := angleNames c
  [⟨det ++ n.1, a 0, false, some (a 0 - 2), some (a 0 + 2)⟩,
   ⟨det ++ n.2.1, a 1, false, some (a 1 - 2), some (a 1 + 2)⟩,
   ⟨det ++ n.2.2, a 2, false, some (a 2 - 2), some (a 2 + 2)⟩,
   ⟨det ++ sTX, p.tvec 0, true, some (p.tvec 0 - 1), some (p.tvec 0 + 1)⟩,
   ⟨det ++ sTY, p.tvec 1, true, some (p.tvec 1 - 1 / 2), some (p.tvec 1 + 1 / 2)⟩,
   ⟨det ++ sTZ, p.tvec 2, true, some (p.tvec 2 - 1), some (p.tvec 2 + 1)⟩] ++
  (match p.distortion with
   | none => []
   | some d => d.params.mapIdx fun ii pp => ⟨distName det ii, pp, false, none, none⟩) ++
  (match p.radius with
   | none => []
   | some r => [⟨det ++ sRadius, r, false, none, none⟩])

/-- The parameters of the stage (`lmfit_param_handling.py:73-84`). -/
noncomputable def stageParams (ins : Instr) : List Param :=
  [⟨sChi, degrees ins.chi, false, some (degrees ins.chi - 1), some (degrees ins.chi + 1)⟩,
   ⟨sITX, ins.tvec 0, false, none, none⟩, ⟨sITY, ins.tvec 1, false, none, none⟩,
   ⟨sITZ, ins.tvec 2, false, none, none⟩]

/-- `instr.has_multi_beam` (`hedm_instrument.py:817-818`). -/
def multiBeam (ins : Instr) : Bool := decide (1 < ins.beams.length)

/-- `create_instr_params` without relative constraints (`lmfit_param_handling.py:40-112`). -/
noncomputable def createInstrParams (L : RotLib) (c : Conv) (ins : Instr) : List Param :=
  ins.beams.flatMap (fun kb => beamParams (multiBeam ins) kb.1 kb.2) ++ stageParams ins ++
    ins.dets.flatMap fun np => detParams L c (mangle np.1) np.2

/-- One beam of `update_instrument_from_params` (`lmfit_param_handling.py:304-320`). -/
noncomputable def updateBeam (ps : List Param) (multi : Bool) (k : Name) (b : Beam) : Option Beam := do
  let pre := beamPrefix multi k
  let energy ← val ps (pre ++ sEnergy)
  let azim ← val ps (pre ++ sAzim)
  let pola ← val ps (pre ++ sPolar)
  let correction ← match b.correction with
    | none => some none
    | some _ => do
      let slope ← val ps (pre ++ sCorr ++ sSlope)
      let intercept ← val ps (pre ++ sCorr ++ sIcpt)
      some (some (intercept, slope))
  some ⟨calcBeamVec azim pola, energy, correction⟩

/-- `np.sort` of names: by code points. -/
def sortNames (l : List Name) : List Name := l.mergeSort fun a b => decide (a ≤ b)

/-- The distortion part of `update_unconstrained_detector_parameters` (`lmfit_param_handling.py:383-398`): all
parameters whose name *contains* `f'{det}_distortion_param'`, sorted by name.  `none` is one of the two exceptions. -/
def updateDistortion (ps : List Param) (det : Name) (d : Option Distortion) : Option (Option Distortion) :=
  let own := (ps.map Param.name).filter fun q => decide ((det ++ sDist) <:+: q)
  if own = [] then some d else
  match d with
  | none => none
  | some d => do
    let vals ← (sortNames own).mapM (val ps)
    if vals.length = d.need then some (some ⟨d.need, vals⟩) else none

/-- One detector of `update_unconstrained_detector_parameters` (`lmfit_param_handling.py:369-398`). -/
noncomputable def updateDet (L : RotLib) (c : Conv) (ps : List Param) (det : Name) (p : Panel) : Option Panel := do
  let n := angleNames c
  let a0 ← val ps (det ++ n.1)
  let a1 ← val ps (det ++ n.2.1)
  let a2 ← val ps (det ++ n.2.2)
  let x ← val ps (det ++ sTX)
  let y ← val ps (det ++ sTY)
  let z ← val ps (det ++ sTZ)
  let radius ← match p.radius with
    | none => some none
    | some _ => (val ps (det ++ sRadius)).map some
  let distortion ← updateDistortion ps det p.distortion
  some ⟨setAngles L c ![a0, a1, a2], ![x, y, z], distortion, radius, p.group⟩

/-- `update_instrument_from_params` without relative constraints (`lmfit_param_handling.py:285-398`). -/
noncomputable def updateInstr (L : RotLib) (c : Conv) (ps : List Param) (ins : Instr) : Option Instr := do
  let beams ← ins.beams.mapM fun kb => (updateBeam ps (multiBeam ins) kb.1 kb.2).map fun b => (kb.1, b)
  let chi ← val ps sChi
  let x ← val ps sITX
  let y ← val ps sITY
  let z ← val ps sITZ
  let dets ← ins.dets.mapM fun np => (updateDet L c ps (mangle np.1) np.2).map fun p => (np.1, p)
  some ⟨beams, radians chi, ![x, y, z], dets⟩

/-! ### Relative constraints -/

/-- The stored tilt and translation of a constraint (`relative_constraints.py:75-82`, 151-155). -/
structure Constraint where
  tilt : V
  tvec : V

/-- What `_update_constrained_detector_parameters` reads from the parameters: the values, and whether any of the three
varies (`lmfit_param_handling.py:409-425`, 443-445). -/
structure CParams where
  tilt : V
  tvec : V
  tiltVary : Bool
  tvecVary : Bool

/-- Reading them (`lmfit_param_handling.py:412-417`). -/
def readC (ps : List Param) (pre : Name) (c : Conv) : Option CParams := do
  let n := angleNames c
  let x ← get ps (pre ++ sTX)
  let y ← get ps (pre ++ sTY)
  let z ← get ps (pre ++ sTZ)
  let a ← get ps (pre ++ n.1)
  let b ← get ps (pre ++ n.2.1)
  let d ← get ps (pre ++ n.2.2)
  some ⟨![a.value, b.value, d.value], ![x.value, y.value, z.value], a.vary || b.vary || d.vary,
    x.vary || y.vary || z.vary⟩

/-- `_add_constrained_detector_parameters` (`lmfit_param_handling.py:168-212`). -/
noncomputable def constrainedParams (L : RotLib) (c : Conv) (pre : Name) (k : Constraint) : List Param :=
  let a := detectorAngles L c k.tilt
  let n := angleNames c
  [⟨pre ++ sTX, k.tvec 0, true, some (k.tvec 0 - 1), some (k.tvec 0 + 1)⟩,
   ⟨pre ++ sTY, k.tvec 1, true, some (k.tvec 1 - 1), some (k.tvec 1 + 1)⟩,
   ⟨pre ++ sTZ, k.tvec 2, true, some (k.tvec 2 - 1), some (k.tvec 2 + 1)⟩,
   ⟨pre ++ n.1, a 0, true, some (a 0 - 2), some (a 0 + 2)⟩,
   ⟨pre ++ n.2.1, a 1, true, some (a 1 - 2), some (a 1 + 2)⟩,
   ⟨pre ++ n.2.2, a 2, true, some (a 2 - 2), some (a 2 + 2)⟩]

/-- The rotation of the detectors (`lmfit_param_handling.py:422-441`). -/
noncomputable def rotateStep (L : RotLib) (c : Conv) (center : V) (p : CParams) (s : List Panel × Constraint) :
    List Panel × Constraint :=
  if p.tiltVary then
    let newR := tiltToRmat c p.tilt
    let diff := newR * (expmapRmat s.2.tilt)ᵀ
    (s.1.map fun q => { q with
        tilt := L.log (diff * expmapRmat q.tilt)
        tvec := fun i => mulV diff (fun j => q.tvec j - center j) i + center i },
     { s.2 with tilt := L.log newR })
  else s

/-- The translation of the detectors (`lmfit_param_handling.py:443-453`). -/
noncomputable def shiftStep (p : CParams) (s : List Panel × Constraint) : List Panel × Constraint :=
  if p.tvecVary then
    (s.1.map fun q => { q with tvec := fun i => q.tvec i + (p.tvec i - s.2.tvec i) }, { s.2 with tvec := p.tvec })
  else s

/-- `_update_constrained_detector_parameters` (`lmfit_param_handling.py:401-453`). -/
noncomputable def constrainedStep (L : RotLib) (c : Conv) (center : V) (p : CParams)
    (s : List Panel × Constraint) : List Panel × Constraint :=
  shiftStep p (rotateStep L c center p s)

/-- `RotationCenter` (`relative_constraints.py:20-30`). -/
inductive Center
  | instrumentMean
  | groupMean
  | origin

/-- `mean_detector_center`, `mean_group_center` (`hedm_instrument.py:736-744`). -/
noncomputable def meanCenter (l : List Panel) : V := fun i => (l.map fun q => q.tvec i).sum / l.length

/-- `update_system_constrained_detector_parameters` (`lmfit_param_handling.py:456-476`), with the center of
`RelativeConstraintsSystem.center_of_rotation` (`relative_constraints.py:160-166`). -/
noncomputable def systemStep (L : RotLib) (c : Conv) (k : Center) (p : CParams) (s : List Panel × Constraint) :
    Option (List Panel × Constraint) :=
  match k with
  | .instrumentMean => some (constrainedStep L c (meanCenter s.1) p s)
  | .origin => some (constrainedStep L c 0 p s)
  | .groupMean => none

/-- One group of `update_group_constrained_detector_parameters` (`lmfit_param_handling.py:479-500`): the detectors of
the group are moved, the others stay. -/
noncomputable def groupStep (L : RotLib) (c : Conv) (k : Center) (g : Name) (p : CParams)
    (s : List Panel × Constraint) : List Panel × Constraint :=
  let members := s.1.filter fun q => q.group = some g
  let center := match k with
    | .instrumentMean => meanCenter s.1
    | .groupMean => meanCenter members
    | .origin => 0
  (s.1.map fun q => if q.group = some g then ((constrainedStep L c center p ([q], s.2)).1.headD q) else q,
   (constrainedStep L c center p ([], s.2)).2)

/-- `detector_groups` (`hedm_instrument.py:746-754`). -/
def detectorGroups (l : List Panel) : List Name :=
  (l.filterMap Panel.group).foldl (fun acc g => if g ∈ acc then acc else acc ++ [g]) []

/-- The loop over the groups (`lmfit_param_handling.py:485-500`); what is read for a group is given as a function. -/
noncomputable def groupUpdate (L : RotLib) (c : Conv) (k : Center) (ps : Name → CParams)
    (s : List Panel × (Name → Constraint)) : List Panel × (Name → Constraint) :=
  (detectorGroups s.1).foldl
    (fun s g =>
      let r := groupStep L c k g (ps g) (s.1, s.2 g)
      (r.1, fun g' => if g' = g then r.2 else s.2 g'))
    s

/-! ### Names -/

/-- The loop `while f'{i}_{name}' in names: i += 1` (`lmfit_param_handling.py:661-664`), given enough turns. -/
def firstFree (names : List Name) (n : Name) : Nat → Nat → Nat
  | 0, i => i
  | k + 1, i => if (Nat.toDigits 10 i ++ '_' :: n) ∈ names then firstFree names n k (i + 1) else i

/-- One turn of the loop of `rename_to_avoid_collision` (`lmfit_param_handling.py:656-668`): the new name, given all
names in use. -/
def renameOne (used : List Name) (n : Name) : Name :=
  if n ∈ used then Nat.toDigits 10 (firstFree used n used.length 1) ++ '_' :: n else n

/-- `rename_to_avoid_collision` (`lmfit_param_handling.py:652-669`), on names: the new names in order, and the mapping
from old to new names as a list of assignments (a later one replaces an earlier one). -/
def renameAll (current : List Name) : List Name → List Name → List Name × List (Name × Name)
  | _, [] => ([], [])
  | done, n :: ns =>
    let new := renameOne (current ++ done) n
    let r := renameAll current (done ++ [new]) ns
    (new :: r.1, (n, new) :: r.2)

/-- Reading a dictionary given as a list of assignments. -/
def lookupLast (m : List (Name × Name)) (n : Name) : Option Name := (m.reverse.find? fun p => p.1 = n).map Prod.snd

/-- `validate_params_list` (`lmfit_param_handling.py:718-728`): the duplicate names; empty means accepted. -/
def duplicateNames : List Name → List Name
  | [] => []
  | x :: ys => (ys.filter fun y => x = y).map (fun _ => x) ++ duplicateNames ys

/-! ### Engineering constraints -/

/-- The smallest and largest allowed distance of the two plates (`lmfit_param_handling.py:680-681`). -/
noncomputable def minDist : ℝ := 2283 / 100
/-- See `minDist`. -/
noncomputable def maxDist : ℝ := 2343 / 100

/-- `add_engineering_constraints` for TARDIS (`lmfit_param_handling.py:672-711`): the new y of plates 2 and 4 and
the new parameter for their distance; the y of plate 4 is then given by the expression `distance - abs(y2)`. -/
noncomputable def tardis (y2 y4 : ℝ) : ℝ × ℝ × ℝ :=
  let dist := |y2| + |y4|
  if dist > maxDist then
    let y2' := y2 + 1 / 2 * |dist - maxDist|
    (y2', maxDist - |y2'|, maxDist)
  else if dist < minDist then
    let y2' := y2 - 1 / 2 * |dist - minDist|
    (y2', minDist - |y2'|, minDist)
  else (y2, dist - |y2|, dist)

/-! ### Materials -/

/-- `_lpname` (`hexrd/core/material/unitcell.py:1775`). -/
def lpName : Fin 6 → Name :=
  ![['a'], ['b'], ['c'], ['a', 'l', 'p', 'h', 'a'], ['b', 'e', 't', 'a'],
    ['g', 'a', 'm', 'm', 'a']]

/-- `f'{mat_name}_{lp_name}'` (`lmfit_param_handling.py:591`, 608). -/
def lpParam (mat : Name) (i : Fin 6) : Name := mangle mat ++ '_' :: lpName i

/-- `create_material_params` (`lmfit_param_handling.py:562-599`): names and values of the editable lattice parameters,
lengths in angstrom and angles in degrees; `lp` holds nm and degrees. -/
noncomputable def materialParams (mat : Name) (editable : Fin 6 → Bool) (lp : Fin 6 → ℝ) : List (Name × ℝ) :=
  (List.finRange 6).filterMap fun i =>
    if editable i then some (lpParam mat i, lp i * if i.val < 3 then 10 else 1) else none

/-- `update_material_from_params` (`lmfit_param_handling.py:602-621`): the new lattice parameters in nm and degrees. -/
noncomputable def updateMaterial (ps : List (Name × ℝ)) (mat : Name) (lp : Fin 6 → ℝ) : Fin 6 → ℝ := fun i =>
  match ps.reverse.find? fun p => p.1 = lpParam mat i with
  | some p => p.2 * if i.val < 3 then 1 / 10 else 1
  | none => lp i

end Hexrd.Calib
