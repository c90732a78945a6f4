import Verif.Model.Transforms
import Verif.Model.Detector
import Verif.Model.Angles
import Verif.Model.Units

/-!
# Model of the simulation of a rotation series

`Detector.simulate_rotation_series` (`hexrd/core/instrument/detector.py:1580-1719`), with the filter by angular ranges
and the energy correction of `hexrd/hedm/xrdutil/utils.py` and the projection of `hexrd/hed/xrdutil/utils.py`.
Numbers are real, a NaN is `none`.  Not modelled: distortion, the change of the wavelength of the plane data that is
passed in, and the angular pixel size.
-/
namespace Hexrd.Simulate
open Hexrd.Transforms Hexrd.Detector Hexrd.Angles

/-- One row of `_fetch_hkls_from_planedata` (hedm/xrdutil/utils.py:481-482): the id of the family and the indices. -/
structure Row where
  id : Int
  hkl : V

/-- The dictionary `energy_correction` (hedm/xrdutil/utils.py:1032-1045); any axis other than `'y'` counts as `'x'`. -/
structure Correction where
  intercept : ℝ
  slope : ℝ
  axisY : Bool

/-- `apply_correction_to_wavelength` (hedm/xrdutil/utils.py:1024-1069). -/
noncomputable def correctWavelength (lam : ℝ) (corr : Option Correction) (ts tc : V) : ℝ :=
  match corr with
  | none => lam
  | some k =>
    let c := Units.keVToAngstrom 1
    let ind : Fin 3 := if k.axisY then 1 else 0
    let position := tc ind + ts ind - k.intercept
    let adjustment := position * k.slope / 1000
    c / (c / lam + adjustment)

/-- Two-theta, eta and omega. -/
abbrev Ang := ℝ × ℝ × ℝ

open Classical in
/-- One angle, which may be a NaN, against one range (`new_capi/validate_angle_ranges.c:31-69`): the tests for an
empty range and for a full circle do not look at the angle, and comparisons with a NaN are false. -/
noncomputable def inRangeNan (ccw : Bool) (ang : Option ℝ) (r : ℝ × ℝ) : Bool :=
  match ang with
  | some a => inRange ccw a r.1 r.2
  | none =>
    let start := if ccw then r.1 else r.2
    let stop := if ccw then r.2 else r.1
    let thetaMax := whileOver (whileNeg (stop - start))
    decide (|thetaMax| < sqrtEpsf ∨
      (|thetaMax - 2 * Real.pi| < sqrtEpsf ∧ ((ccw = true ∧ r.2 > r.1) ∨ (ccw = false ∧ r.2 < r.1))))

/-- The entry of `angMask_eta` for one row (hedm/xrdutil/utils.py:519-524). -/
noncomputable def etaMask (ang : Option ℝ) : List (ℝ × ℝ) → Bool → Bool
  | [], m => m
  | r :: rs, m => etaMask ang rs (m || inRangeNan true ang r)

/-- The entry of `angMask_ome` for one row (hedm/xrdutil/utils.py:526-534): the variable `ccw` is set to false by
the first range that decreases and never set back. -/
noncomputable def omeMask (ang : Option ℝ) : List (ℝ × ℝ) → Bool → Bool → Bool
  | [], _, m => m
  | r :: rs, ccw, m =>
    let ccw' := if r.2 - r.1 < 0 then false else ccw
    omeMask ang rs ccw' (m || inRangeNan ccw' ang r)

/-- The entry of `angMask` for one row (hedm/xrdutil/utils.py:536). -/
noncomputable def rowMask (etaR omeR : List (ℝ × ℝ)) (a : Option Ang) : Bool :=
  etaMask (a.map (·.2.1)) etaR false && omeMask (a.map (·.2.2)) omeR true false

/-- `_filter_hkls_eta_ome` (hedm/xrdutil/utils.py:505-544). -/
noncomputable def filterHkls (hkls : List Row) (angs : List (Option Ang)) (etaR omeR : List (ℝ × ℝ)) :
    List (Option Ang) × List Row :=
  let mask := angs.map (rowMask etaR omeR)
  (select angs mask, select (hkls ++ hkls) mask)

/-- A row of the output of `oscill_angles_of_hkls` (detector.py:1667-1679).  The outer `none` is a row of which
two-theta and eta were never written, which happens for a beam along the azimuth reference. -/
def oscRow (o : Option Osc) : Option (Option Ang) :=
  match o with
  | none => some none
  | some ⟨some t, some e, w⟩ => some (some (t, e, w))
  | some _ => none

/-- The default azimuth reference `constants.eta_vec` (`hexrd/core/constants.py:92`), which is used whatever the
`evec` of the detector is. -/
def etaVec : V := ![1, 0, 0]

/-- What the simulation reads from the detector (detector.py:1688-1700) and from its arguments
(detector.py:1580-1591). -/
structure Scene where
  panel : Panel
  buf : Buffer
  rd : M
  td : V
  b : V
  rows : List Row
  bmat : M
  etaR : List (ℝ × ℝ)
  omeR : List (ℝ × ℝ)
  period : ℝ × ℝ
  chi : ℝ
  ts : V
  lam : ℝ
  corr : Option Correction

/-- The twelve grain parameters (detector.py:1653-1657). -/
structure Grain where
  expmap : V
  tc : V
  vInv : Fin 6 → ℝ

namespace Grain
/-- `rMat_c` (detector.py:1655). -/
noncomputable def rc (g : Grain) : M := expmapRmat g.expmap
end Grain

/-- `corrected_wavelength` (detector.py:1659-1665). -/
noncomputable def wavelength (s : Scene) (g : Grain) : ℝ := correctWavelength s.lam s.corr s.ts g.tc

/-- `mapAngle(allAngs[:, 2], ome_period)` for one row (detector.py:1686); a NaN becomes a number, but the other two
angles of the row stay NaN, so the row is still `none`. -/
noncomputable def mapOme (period : ℝ × ℝ) (a : Option Ang) : Option (Option Ang) := do
  let o ← mapAngle (a.map (·.2.2)) (some [period.1, period.2]) .radians
  pure (a.map fun t => (t.1, t.2.1, o))

/-- One row of `_project_on_detector_plane` (hed/xrdutil/utils.py:66-104). -/
noncomputable def project (s : Scene) (g : Grain) (a : Option Ang) : Option (ℝ × ℝ) :=
  match a with
  | none => none
  | some (t, e, o) =>
    gvecToXY (anglesToGvec t e o s.b etaVec s.chi g.rc) s.rd (sampleRmat s.chi o) g.rc s.td s.ts g.tc s.b

/-- The four arrays appended for one grain. -/
structure Result where
  ids : List Int
  hkls : List V
  angs : List (Option Ang)
  xys : List (ℝ × ℝ)

/-- The two triplets of every reflection (detector.py:1667-1679); the outer `none` is the failed assertion of the C
code. -/
noncomputable def oscAll (s : Scene) (g : Grain) : Option (List (Option (Osc × Osc))) :=
  s.rows.mapM fun r => oscillAngles r.hkl s.chi g.rc s.bmat (wavelength s g) g.vInv s.b etaVec

/-- The body of the loop over the grains (detector.py:1653-1718). -/
noncomputable def simulateGrain (s : Scene) (g : Grain) : Option Result := do
  let per ← oscAll s g
  let a0 ← per.mapM fun o => oscRow (o.map (·.1))
  let a1 ← per.mapM fun o => oscRow (o.map (·.2))
  let (angs, hk) := filterHkls s.rows (a0 ++ a1) s.etaR s.omeR
  let angs ← angs.mapM (mapOme s.period)
  let xy := angs.map (project s g)
  let onPlane := xy.map Option.isSome
  let detXy := xy.filterMap id
  let (xysP, onPan) := clipToPanel s.panel s.buf true detXy
  let angs := if onPlane.any (!·) then select angs onPlane else angs
  let hk := if onPlane.any (!·) then select hk onPlane else hk
  let hk := select hk onPan
  pure ⟨hk.map (·.id), hk.map (·.hkl), select angs onPan, xysP⟩

/-- `simulate_rotation_series` (detector.py:1580-1719): one result for each grain. -/
noncomputable def simulateRotationSeries (s : Scene) (grains : List Grain) : Option (List Result) :=
  grains.mapM (simulateGrain s)

end Hexrd.Simulate
