import Verif.Model.LeBailCalib

/-! What the calibration by line-outs should do (C165). -/

namespace Hexrd.LeBailCalib.Spec

/-- The parameter belongs to the position of one of the detectors. -/
def IsTvec (dets : List String) : PName → Prop
  | .tvec d _ => d ∈ dets
  | _ => False

/-- The parameter belongs to the tilt of one of the detectors. -/
def IsTilt (dets : List String) : PName → Prop
  | .tilt d _ => d ∈ dets
  | _ => False

/-- The value of a parameter that varies. -/
def varied (params : PName → Option (ℝ × Bool)) (p : PName) : Option ℝ :=
  match params p with
  | some (x, true) => some x
  | _ => none

/-- The residual of a refinement: the integral of the weighted squares of the differences over that of the measured intensities. -/
noncomputable def rwp (l : List Pt) : ℝ :=
  √(trapezoid (l.map fun p => p.w * (p.e - p.s) ^ 2) (l.map Pt.x) / trapezoid (l.map fun p => p.w * p.e ^ 2) (l.map Pt.x)) * 100

end Hexrd.LeBailCalib.Spec
