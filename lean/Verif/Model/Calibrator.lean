import Verif.Model.Calib

/-! Model of the object that runs a calibration, `InstrumentCalibrator` in /repo/hexrd/core/fitting/calibration/instrument.py, with
a constraint on the whole instrument. The steps that move the detectors are those of `Calib`. -/

namespace Hexrd.Calibrator

open Hexrd.Calib

/-- The detectors, the constraint with its centre of rotation, and the stored parameters of the constraint; parameters that do not
belong to the constraint are left out. -/
structure Sys where
  panels : List Panel
  con : Constraint
  center : Center
  params : CParams

/-- What is read from the parameters made from a constraint (lmfit_param_handling.py:168-212): all of them vary. -/
noncomputable def make (L : RotLib) (c : Conv) (k : Constraint) : CParams := ⟨detectorAngles L c k.tilt, k.tvec, true, true⟩

/-- The zero constraint (relative_constraints.py:151-155). -/
def zero : Constraint := ⟨0, 0⟩

/-- `update_all_from_params` (calibration/instrument.py:91-101) for the detectors; `none` is the exception for the centre of a group. -/
noncomputable def update (L : RotLib) (c : Conv) (p : CParams) (s : Sys) : Option Sys :=
  (systemStep L c s.center p (s.panels, s.con)).map fun r => { s with panels := r.1, con := r.2 }

/-- `reset_lmfit_params` (calibration/instrument.py:186-187). -/
noncomputable def remake (L : RotLib) (c : Conv) (s : Sys) : Sys := { s with params := make L c s.con }

/-- `reset_relative_constraint_params` (calibration/instrument.py:189-191) with `RelativeConstraintsSystem.reset` (relative_constraints.py:147-158). -/
def reset (s : Sys) : Sys := { s with con := zero, center := .instrumentMean }

/-- The `relative_constraints_type` setter (calibration/instrument.py:169-175) with the `relative_constraints` setter (calibration/instrument.py:181-184), for a
system constraint that is asked for again (`same`) or anew. -/
noncomputable def setType (L : RotLib) (c : Conv) (same : Bool) (s : Sys) : Sys :=
  if same then s else { s with con := zero, center := .instrumentMean, params := make L c zero }

/-- The evaluations of the minimizer (calibration/instrument.py:107-109). -/
noncomputable def evaluate (L : RotLib) (c : Conv) : List CParams → Sys → Option Sys
  | [], s => some s
  | p :: ps, s => (update L c p s).bind (evaluate L c ps)

/-- `run_calibration` (calibration/instrument.py:193-217): the parameters that the minimizer tries and those it returns are given. -/
noncomputable def runCalibration (L : RotLib) (c : Conv) (trials : List CParams) (result : CParams) (s : Sys) : Option Sys :=
  (evaluate L c trials s).bind fun s' => update L c result { s' with params := result }

/-! ### Residuals -/

/-- `_normalized_ssqr` (calibration/instrument.py:24-25). -/
noncomputable def normalizedSsqr (r : List ℝ) : ℝ := (r.map fun x => x * x).sum / r.length

/-- `residual` (calibration/instrument.py:111-112). -/
def residual (rs : List (List ℝ)) : List ℝ := rs.flatten

open Classical in
/-- The verdict in the log (calibration/instrument.py:203-208): whether the fit succeeded. -/
noncomputable def improved (r0 r1 : List ℝ) : Bool := decide (1 - normalizedSsqr r1 / normalizedSsqr r0 > 0)

/-! ### Options -/

/-- A dictionary of keyword arguments, the last entry of a key counts. -/
def keyword {V : Type} (d : List (String × V)) (k : String) : Option V := d.reverse.lookup k

/-- The options of the minimizer (calibration/instrument.py:118-136), given the defaults of least squares; `none` is the exception for an argument
given twice. -/
def options {V : Type} (defaults : List (String × V)) (maxNfev : V) (leastSquares : Bool) (odict : List (String × V)) :
    Option (List (String × V)) :=
  if leastSquares then some (defaults ++ odict)
  else if (keyword odict "max_nfev").isSome then none else some (("max_nfev", maxNfev) :: odict)

/-! ### Engineering constraints -/

/-- Exceptions. -/
inductive Err
  | typeError
  | message
  deriving DecidableEq

/-- The `engineering_constraints` setter (calibration/instrument.py:144-163): what is stored and whether the parameters are made anew. For a value
that is not valid the list of the valid ones is called like a function. -/
def setEngineering (cur v : Option String) : Except Err (Option String × Bool) :=
  if v = cur then .ok (cur, false)
  else if v ∉ [none, some "None", some "TARDIS"] then .error .typeError
  else .ok (v, true)

end Hexrd.Calibrator
