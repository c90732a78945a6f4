import Verif.Model.Calib
import Verif.Model.Transforms

/-!
Model of the residuals of powder calibrations: `hexrd/core/fitting/calibration/powder.py` and
`hexrd/core/fitting/calibration/structureless.py`, with the parameters for rings of
`hexrd/core/fitting/calibration/lmfit_param_handling.py`.

Simplifications: real arithmetic; planar detectors; the distortion of a panel and its inverse are functions, as is the
correction of angles by a two-theta distortion; NaN and an exception are `none`.
-/
namespace Hexrd.PowderCalib
open Hexrd.Transforms Hexrd.Calib

/-! ### The powder calibrator -/

/-- A planar panel: rotation, translation, `distortion.apply` and `distortion.apply_inverse` (planar_detector.py:26-94). -/
structure Panel where
  rd : M
  td : V
  unwarp : ℝ × ℝ → ℝ × ℝ
  warp : ℝ × ℝ → ℝ × ℝ

/-- The parts of the instrument that are used (core/fitting/calibration/powder.py:309-313, 336-338). -/
structure Instr where
  beam : V
  eta : V
  ts : V
  wavelength : ℝ
  dets : List (Name × Panel)

/-- The columns of a row that are used: x, y and hkl (core/fitting/calibration/powder.py:335, 341). -/
structure Row where
  xy : ℝ × ℝ
  hkl : V

/-- `panel.cart_to_angles(xy, tvec_s=…, apply_distortion=True)` for one point (planar_detector.py:26-53). -/
noncomputable def angles (I : Instr) (p : Panel) (xy : ℝ × ℝ) : Option (ℝ × ℝ) := do
  let rb ← beamRmat I.beam I.eta
  let out ← xyToGvec (p.unwarp xy) p.rd 1 p.td I.ts 0 rb
  pure (out.tTh, out.eta)

/-- `panel.angles_to_cart(tth_eta, tvec_s=…, apply_distortion=True)` for one pair (planar_detector.py:55-94). -/
noncomputable def cart (I : Instr) (p : Panel) (a : ℝ × ℝ) : Option (ℝ × ℝ) :=
  (anglesToCart a.1 a.2 p.rd p.td I.beam I.eta 1 I.ts 1 0).map p.warp

/-- `tth0` (core/fitting/calibration/powder.py:340-346). -/
noncomputable def ringTth (bmat : M) (wavelength : ℝ) (hkl : V) : Option ℝ :=
  let g := mulV bmat hkl
  let dsp := 1 / √(dot g g)
  let x := 1 / 2 * wavelength / dsp
  if |x| > 1 then none else some (2 * Real.arcsin x)

/-- `tth0, eta0` with the two-theta distortion, if there is one (core/fitting/calibration/powder.py:346-358). -/
noncomputable def reference (bmat : M) (I : Instr) (p : Panel) (corr : Option (ℝ × ℝ → ℝ × ℝ)) (r : Row) :
    Option (ℝ × ℝ) := do
  let a ← angles I p r.xy
  let t ← ringTth bmat I.wavelength r.hkl
  match corr with
  | none => pure (t, a.2)
  | some c => pure ((c r.xy).1 + t, (c r.xy).2 + 0)

/-- One entry of the residual (core/fitting/calibration/powder.py:364-371). -/
noncomputable def residualOf (bmat : M) (I : Instr) (p : Panel) (corr : Option (ℝ × ℝ → ℝ × ℝ)) (r : Row) :
    Option ℝ := do
  let a ← angles I p r.xy
  let t ← reference bmat I p corr r
  pure (a.1 - t.1)

/-- One point of the model (core/fitting/calibration/powder.py:372-376). -/
noncomputable def modelOf (bmat : M) (I : Instr) (p : Panel) (corr : Option (ℝ × ℝ → ℝ × ℝ)) (r : Row) :
    Option (ℝ × ℝ) := do
  let t ← reference bmat I p corr r
  cart I p t

/-- The loop over panels of `_evaluate` (core/fitting/calibration/powder.py:315-380), with one output per row: a panel
without picks is passed over, a panel that is not in the picks, or not in the distortions, raises. -/
noncomputable def evaluate {β : Type} (f : Panel → Option (ℝ × ℝ → ℝ × ℝ) → Row → β)
    (corrs : Option (List (Name × (ℝ × ℝ → ℝ × ℝ)))) (data : List (Name × List (List Row))) :
    List (Name × Panel) → Option (List β)
  | [] => some []
  | (k, p) :: dets => do
    let rings ← data.lookup k
    let here ← if rings.isEmpty then some [] else
      match corrs with
      | none => some (rings.flatten.map (f p none))
      | some cs => (cs.lookup k).map fun c => rings.flatten.map (f p (some c))
    let rest ← evaluate f corrs data dets
    pure (here ++ rest)

/-- `residual()` (core/fitting/calibration/powder.py:382-386). -/
noncomputable def residual (bmat : M) (I : Instr) (corrs : Option (List (Name × (ℝ × ℝ → ℝ × ℝ))))
    (data : List (Name × List (List Row))) : Option (List (Option ℝ)) :=
  evaluate (residualOf bmat I) corrs data I.dets

/-- `model()` (core/fitting/calibration/powder.py:388-392). -/
noncomputable def model (bmat : M) (I : Instr) (corrs : Option (List (Name × (ℝ × ℝ → ℝ × ℝ))))
    (data : List (Name × List (List Row))) : Option (List (Option (ℝ × ℝ))) :=
  evaluate (modelOf bmat I) corrs data I.dets

/-- The getter of `tth_tol` (core/fitting/calibration/powder.py:121-124), for the width of the plane data. -/
noncomputable def tthTol (width : Option ℝ) : Option ℝ := width.map fun w => w * (180 / Real.pi)

/-- The setter of `tth_tol` (core/fitting/calibration/powder.py:126-129): the new width. Without a width there is an
exception. -/
noncomputable def setTthTol (width : Option ℝ) (_x : ℝ) : Option (Option ℝ) :=
  (tthTol width).map fun t => some (t * (Real.pi / 180))

/-! ### The structureless calibrator -/

/-- A ring: the points picked on each panel (core/fitting/calibration/structureless.py:253-264). -/
abbrev Ring := List (Name × List (ℝ × ℝ))

/-- The two-theta angles of a ring by panel (core/fitting/calibration/structureless.py:249-268); `tth` is the angle of a point of
a panel. A panel that the instrument does not have raises. -/
noncomputable def ringAngles (dets : List Name) (tth : Name → ℝ × ℝ → ℝ) (ring : Ring) :
    Option (List (Name × Option (List ((ℝ × ℝ) × ℝ)))) :=
  if ∀ d ∈ ring.map Prod.fst, d ∈ dets then
    some (dets.map fun d => (d, (ring.lookup d).map fun xs => xs.map fun xy => (xy, tth d xy)))
  else none

def sDS : Name := ['D', 'S', '_', 'r', 'i', 'n', 'g', '_']

/-- `tth_parameter_prefixes` for one beam (lmfit_param_handling.py:552-559); a name that is no beam raises. -/
def prefixOf (beams : List Name) (source : Name) : Option Name :=
  if source ∉ beams then none
  else if beams.length = 1 then some sDS else some (source ++ ['_'] ++ sDS)

/-- The name of the parameter of a ring (lmfit_param_handling.py:547). -/
def ringName (pre : Name) (i : Nat) : Name := pre ++ Nat.toDigits 10 i

/-- The parameters of the rings of a source from number `i` on (lmfit_param_handling.py:535-547); the mean of no numbers
is NaN, here `none`. -/
noncomputable def ringParams (dets : List Name) (tth : Name → ℝ × ℝ → ℝ) (pre : Name) : Nat → List Ring → Option (List Param)
  | _, [] => some []
  | i, ring :: rings => do
    let a ← ringAngles dets tth ring
    let found := a.filterMap Prod.snd
    let ts := found.flatten.map Prod.snd
    let rest ← ringParams dets tth pre (i + 1) rings
    if found.isEmpty then pure rest
    else if ts.isEmpty then none
    else
      let v := ts.sum / ts.length * (180 / Real.pi)
      pure (⟨ringName pre i, v, true, some (v - 5), some (v + 5)⟩ :: rest)

/-- `create_tth_parameters` (lmfit_param_handling.py:527-549). -/
noncomputable def createTth (beams dets : List Name) (tth : Name → Name → ℝ × ℝ → ℝ) :
    List (Name × List Ring) → Option (List Param)
  | [] => some []
  | (s, rings) :: data => do
    let pre ← prefixOf beams s
    let here ← ringParams dets (tth s) pre 0 rings
    let rest ← createTth beams dets tth data
    pure (here ++ rest)

/-- The residuals of one ring (core/fitting/calibration/structureless.py:98-112). -/
noncomputable def ringResidual (dets : List Name) (tth : Name → ℝ × ℝ → ℝ) (corr : Option (Name → ℝ × ℝ → ℝ))
    (ps : List Param) (name : Name) (ring : Ring) : Option (List ℝ) := do
  let a ← ringAngles dets tth ring
  let here ← (a.filterMap fun kv => match kv.2 with
    | some (x :: xs) => some (kv.1, x :: xs)
    | _ => none).mapM fun kv => do
      let v ← val ps name
      pure (kv.2.map fun xt => xt.2 - v * (Real.pi / 180) - match corr with | none => 0 | some c => c kv.1 xt.1)
  pure here.flatten

/-- The rings of a source from number `i` on (core/fitting/calibration/structureless.py:98-112). -/
noncomputable def ringsResidual (dets : List Name) (tth : Name → ℝ × ℝ → ℝ) (corr : Option (Name → ℝ × ℝ → ℝ))
    (ps : List Param) (pre : Name) : Nat → List Ring → Option (List ℝ)
  | _, [] => some []
  | i, ring :: rings => do
    let here ← ringResidual dets tth corr ps (ringName pre i) ring
    let rest ← ringsResidual dets tth corr ps pre (i + 1) rings
    pure (here ++ rest)

/-- The loop of `calc_residual` (core/fitting/calibration/structureless.py:94-112). -/
noncomputable def sourcesResidual (beams dets : List Name) (tth : Name → Name → ℝ × ℝ → ℝ)
    (corr : Option (Name → Name → ℝ × ℝ → ℝ)) (ps : List Param) : List (Name × List Ring) → Option (List ℝ)
  | [] => some []
  | (s, rings) :: data => do
    let pre ← prefixOf beams s
    let here ← ringsResidual dets (tth s) (corr.map fun c => c s) ps pre 0 rings
    let rest ← sourcesResidual beams dets tth corr ps data
    pure (here ++ rest)

/-- `calc_residual` (core/fitting/calibration/structureless.py:82-114) after the instrument has been updated: `hstack` of
no arrays raises. -/
noncomputable def calcResidual (beams dets : List Name) (tth : Name → Name → ℝ × ℝ → ℝ)
    (corr : Option (Name → Name → ℝ × ℝ → ℝ)) (ps : List Param) (data : List (Name × List Ring)) : Option (List ℝ) :=
  (sourcesResidual beams dets tth corr ps data).bind fun r => if r.isEmpty then none else some r

end Hexrd.PowderCalib
