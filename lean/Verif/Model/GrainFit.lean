import Verif.Model.Simulate
import Verif.Model.Tensors
import Verif.Model.FitGrains

/-!
Model of the two objective functions that compare the spots of a grain with a calculation:
`objFuncFitGrain` of `hexrd/hedm/fitting/grains.py` (below `fitting/grains.py`) for the refinement of a grain, and
`sxcal_obj_func` of `hexrd/hedm/fitting/calibration/grain.py` (below `calibration/grain.py`) for the calibration.

Simplifications: numbers are real numbers, the point of a ray that misses the detector plane is `none` where the code
has NaN, an exception is `none`, and a single grain is calibrated, which is how the calibrator calls the function
(calibration/grain.py:73-83).
-/

namespace Hexrd.GrainFit

open Hexrd.Transforms Hexrd.Simulate Hexrd.FitGrains

/-- What is read from the instrument and the material (fitting/grains.py:213-216, 247-249;
calibration/grain.py:106-110).  `eta` is the azimuth reference. -/
structure Setup where
  beam : V
  eta : V
  chi : ℝ
  ts : V
  lam : ℝ
  corr : Option Correction
  bmat : M

/-- A detector (fitting/grains.py:247-249; calibration/grain.py:122-123); `apply` is `panel.distortion.apply`, the
identity without a distortion. -/
structure Det where
  rd : M
  td : V
  apply : ℝ × ℝ → ℝ × ℝ

/-- A measured spot: the indices, the place on the detector and omega (fitting/grains.py:270-281;
calibration/grain.py:131-137). -/
structure Meas where
  hkl : V
  xy : ℝ × ℝ
  ome : ℝ

/-- `corrected_wavelength` (fitting/grains.py:227-233; calibration/grain.py:157-163). -/
noncomputable def wave (s : Setup) (g : Grain) : ℝ := correctWavelength s.lam s.corr s.ts g.tc

/-- A column of `gVec_s` (fitting/grains.py:298-299; calibration/grain.py:149-154). -/
noncomputable def stretched (s : Setup) (g : Grain) (hkl : V) : V :=
  mulV (Tensors.vecMVToSymm g.vInv true) (mulV g.rc (mulV s.bmat hkl))

/-- A column of `gHat_c` (fitting/grains.py:300). -/
noncomputable def normalFit (s : Setup) (g : Grain) (hkl : V) : V :=
  Tensors.unitVector3 (mulTV g.rc (stretched s g hkl))

/-- A column of `ghat_c` (calibration/grain.py:154-155). -/
noncomputable def normalCal (s : Setup) (g : Grain) (hkl : V) : V :=
  mulTV g.rc (Tensors.unitVector3 (stretched s g hkl))

/-- `matchOmegas` (fitting/grains.py:384-441) for one spot: `none` is the error raised when the reflection cannot
diffract, or the failed assertion of the C module.  The two-theta and eta of the solutions, of which a NaN would raise as
well, are not looked at. -/
noncomputable def calcOme (s : Setup) (eta : V) (g : Grain) (period : Option (ℝ × ℝ)) (m : Meas) : Option ℝ :=
  match oscillAngles m.hkl s.chi g.rc s.bmat (wave s g) g.vInv s.beam eta with
  | some (some (p, q)) => matchOmega period m.ome p.ome q.ome
  | _ => none

/-- A calculated spot: the place, which may be missing, and omega. -/
abbrev Calc := Option (ℝ × ℝ) × ℝ

/-- A row of `calc_xy` and of `calc_omes` of the refinement (fitting/grains.py:302-330). -/
noncomputable def predictFit (s : Setup) (p : Det) (g : Grain) (period : Option (ℝ × ℝ)) (m : Meas) : Option Calc := do
  let o ← calcOme s s.eta g period m
  some (gvecToXY (normalFit s g m.hkl) p.rd (sampleRmat s.chi o) g.rc p.td s.ts g.tc s.beam, o)

/-- The default beam `constants.beam_vec` (`hexrd/core/constants.py:91`, `xfcapi.py:247`). -/
def beamVec : V := ![0, 0, -1]

/-- A row of `calc_xy_tmp` and of `calc_omes_tmp` of the calibration (calibration/grain.py:165-182): the place is
calculated for the default beam, and omega with the default azimuth reference. -/
noncomputable def predictCal (s : Setup) (p : Det) (g : Grain) (period : Option (ℝ × ℝ)) (m : Meas) : Option Calc := do
  let o ← calcOme s etaVec g period m
  some (gvecToXY (normalCal s g m.hkl) p.rd (sampleRmat s.chi o) g.rc p.td s.ts g.tc beamVec, o)

/-- A calculated spot with the spot that was measured, the place of which has been corrected for the distortion
(fitting/grains.py:283-287; calibration/grain.py:138-141). -/
noncomputable def compare (p : Det) (predict : Meas → Option Calc) (m : Meas) : Option (Calc × (ℝ × ℝ × ℝ)) :=
  (predict m).map fun c => (c, ((p.apply m.xy).1, (p.apply m.xy).2, m.ome))

/-- The three numbers of a spot in the residual (fitting/grains.py:366-368; calibration/grain.py:217-219); `none` if
the calculated place is NaN. -/
noncomputable def row (cm : Calc × (ℝ × ℝ × ℝ)) : Option (ℝ × ℝ × ℝ) :=
  cm.1.1.map fun xy => residual (xy.1, xy.2, cm.1.2) cm.2

/-- The residual of `objFuncFitGrain` (fitting/grains.py:241-368): panels without spots are passed over, and only the
places on the last panel that has spots are looked at for a NaN (fitting/grains.py:321, 345). Without any spot
there is nothing to stack. -/
noncomputable def fitResidual (s : Setup) (g : Grain) (period : Option (ℝ × ℝ)) (panels : List (Det × List Meas)) :
    Option (List (Option (ℝ × ℝ × ℝ))) := do
  let out ← (panels.filter fun d => !d.2.isEmpty).mapM fun d =>
    d.2.mapM (compare d.1 (predictFit s d.1 g period))
  let last ← out.getLast?
  if last.any fun cm => cm.1.1.isNone then none else some (out.flatten.map row)

/-- The residual of `sxcal_obj_func` (calibration/grain.py:112-220) for one grain: a NaN is only reported in the log
(calibration/grain.py:183-187). -/
noncomputable def calResidual (s : Setup) (g : Grain) (period : Option (ℝ × ℝ)) (panels : List (Det × List Meas)) :
    Option (List (Option (ℝ × ℝ × ℝ))) := do
  let out ← panels.mapM fun d => d.2.mapM (compare d.1 (predictCal s d.1 g period))
  if out.isEmpty then none else some (out.flatten.map row)

end Hexrd.GrainFit
