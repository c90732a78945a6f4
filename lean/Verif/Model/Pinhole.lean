import Mathlib.Analysis.SpecialFunctions.Complex.Arg
import Mathlib.Analysis.SpecialFunctions.Trigonometric.Inverse
import Mathlib.Analysis.SpecialFunctions.Trigonometric.Arctan
import Mathlib.Analysis.Real.Sqrt
import Verif.Model.GrainMap

/-! Model of /repo/hexrd/hed/xrdutil/phutil.py: distortions of the Bragg angle by the layers and the pinhole of a pinhole camera.
Angles are exact real numbers. The angles and directions of detector points come from the detector and are given here. -/

namespace Hexrd.Pinhole

/-- A vector in the laboratory. -/
structure Vec where
  (x y z : ℝ)

/-- `np.arctan2(y, x)`; the sign of a zero argument is not modelled. -/
noncomputable def atan2 (y x : ℝ) : ℝ := Complex.arg ⟨x, y⟩

/-- `critical_beta` (phutil.py:207, 243). -/
noncomputable def criticalBeta (radius thickness : ℝ) : ℝ := Real.arctan (2 * radius / thickness)

/-- Whether a point with the unit direction `d` is kept (phutil.py:221-224, 244-246). -/
noncomputable def passes (radius thickness : ℝ) (d : Vec) : Prop := ¬ Real.arccos |d.z| > criticalBeta radius thickness

/-- `zs`, from the centre of the pinhole to the centre of the layer (phutil.py:214, 289). -/
noncomputable def layerDistance (standoff layer pinhole : ℝ) : ℝ := standoff + 0.5 * layer + 0.5 * pinhole

/-- `tth_corr` (phutil.py:225-227, 299-303). -/
noncomputable def layerCorr (source zs cosBeta tth : ℝ) : ℝ :=
  Real.arctan (Real.sin tth / (source * cosBeta / zs - Real.cos tth))

open Classical in
/-- `tth_corr_layer` (phutil.py:170-232) at one point with the nominal angles `tth` and `eta` and the unit direction `d`; NaN is
`none`. -/
noncomputable def tthCorrLayer (source standoff layer thickness radius : ℝ) (d : Vec) (tth eta : ℝ) (nominal : Bool) :
    Option ℝ × ℝ :=
  let corr := layerCorr source (layerDistance standoff layer thickness) |d.z| tth
  (if passes radius thickness d then some (if nominal then tth - corr else -corr) else none, eta)

/-- `tth_corr_map_layer` (phutil.py:249-304) at one pixel. -/
noncomputable def tthCorrMapLayer (source standoff layer thickness : ℝ) (d : Vec) (tth : ℝ) : ℝ :=
  layerCorr source (layerDistance standoff layer thickness) |d.z| tth

/-- The point of the pinhole that is taken as the origin (phutil.py:365-367, 417-419). -/
noncomputable def jheOrigin (radius thickness eta : ℝ) : Vec :=
  ⟨-radius * Real.cos eta, -radius * Real.sin eta, -radius * (0.5 * thickness)⟩

/-- `tth_corr_pinhole` (phutil.py:355-375) at one point, with `pin` the angle seen from the origin above. -/
def tthCorrPinhole (pin tth eta : ℝ) (nominal : Bool) : ℝ × ℝ :=
  let corr := pin - tth
  (if nominal then tth - corr else -corr, eta)

/-- `np.cross`. -/
def cross (a b : Vec) : Vec := ⟨a.y * b.z - a.z * b.y, a.z * b.x - a.x * b.z, a.x * b.y - a.y * b.x⟩

/-- `np.dot`. -/
def dot (a b : Vec) : ℝ := a.x * b.x + a.y * b.y + a.z * b.z

/-- `np.linalg.norm`. -/
noncomputable def norm (a : Vec) : ℝ := Real.sqrt (a.x ^ 2 + a.y ^ 2 + a.z ^ 2)

/-- Division by the norm. -/
noncomputable def unit (a : Vec) : Vec := ⟨a.x / norm a, a.y / norm a, a.z / norm a⟩

open Classical in
/-- `calc_phi_x` (phutil.py:426-437). -/
noncomputable def phiX (b e : Vec) : ℝ :=
  let bv : Vec := ⟨b.x, b.y, 0⟩
  if norm bv ≤ 1e-8 then 0 else Real.arccos (dot (unit bv) ⟨-e.x, -e.y, -e.z⟩)

open Classical in
/-- `azimuth` (phutil.py:440-461) for arrays of vectors, which is the only use; NaN, where `vv` is along `v0`, becomes 0. -/
noncomputable def azimuth (vv v0 v1 : Vec) : ℝ :=
  let n0 := unit (cross v0 v1)
  if norm (cross v0 vv) = 0 then 0 else
    let azi := Real.arccos (dot (unit (cross v0 vv)) n0)
    if dot vv n0 < 0 then -azi else azi

/-- The numbers all elements share: the source (distance, zenith angle, azimuth), the detector point, and the pinhole
(phutil.py:552-584, 592-616). -/
structure Camera where
  (rx alpha phix rd beta phid h d mu : ℝ)

/-- An element of the wall, or of the edge on the side of the source or of the detector. -/
inductive Kind
  | surface | xEdge | dEdge
  deriving DecidableEq

structure Element where
  kind : Kind
  (phi z : ℝ)

/-- `Nz` (phutil.py:627). -/
noncomputable def axialCount (c : Camera) (np : ℕ) : ℕ := max 3 ⌊np * c.h / (Real.pi * c.d)⌋.toNat

/-- The pinhole grid (phutil.py:627-642), row by row. -/
noncomputable def elements (c : Camera) (np : ℕ) : Option (List Element) := do
  let dphi := 2 * Real.pi / np
  let nz := axialCount c np
  let dz := c.h / nz
  let phis ← GrainMap.arange (dphi / 2) (2 * Real.pi) dphi
  let zs ← GrainMap.arange (-c.h / 2 - dz / 2) (c.h / 2 + dz / 1.999) dz
  let row (k : Kind) (z : ℝ) : List Element := phis.map fun p => ⟨k, p, z⟩
  pure (row .xEdge (-c.h / 2) ++ (zs.tail.dropLast).flatMap (row .surface) ++ row .dEdge (c.h / 2))

/-- `cos_dphi_x` (phutil.py:649). -/
noncomputable def cosDx (c : Camera) (e : Element) : ℝ := Real.cos (e.phi - c.phix + Real.pi)

/-- `cos_dphi_d` (phutil.py:781). -/
noncomputable def cosDd (c : Camera) (e : Element) : ℝ := Real.cos (e.phi - c.phid + Real.pi)

/-- `alpha_i` and `phi_xi` (phutil.py:645, 651-658). -/
noncomputable def sourceAngles (c : Camera) (e : Element) : ℝ × ℝ :=
  let bx := c.d / (2 * c.rx)
  (atan2 (Real.sqrt (Real.sin c.alpha ^ 2 + 2 * bx * Real.sin c.alpha * cosDx c e + bx ^ 2)) (Real.cos c.alpha + e.z / c.rx),
    atan2 (Real.sin c.alpha * Real.sin c.phix - bx * Real.sin e.phi) (Real.sin c.alpha * Real.cos c.phix - bx * Real.cos e.phi))

/-- `beta_i` and `phi_di` (phutil.py:645, 782-790). -/
noncomputable def detectorAngles (c : Camera) (e : Element) : ℝ × ℝ :=
  let bd := c.d / (2 * c.rd)
  (atan2 (Real.sqrt (Real.sin c.beta ^ 2 + 2 * bd * Real.sin c.beta * cosDd c e + bd ^ 2)) (Real.cos c.beta - e.z / c.rd),
    atan2 (Real.sin c.beta * Real.sin c.phid - bd * Real.sin e.phi) (Real.sin c.beta * Real.cos c.phid - bd * Real.cos e.phi))

/-- `qq_i` (phutil.py:792-796). -/
noncomputable def scatter (c : Camera) (e : Element) : ℝ :=
  let x := sourceAngles c e
  let y := detectorAngles c e
  Real.arccos (max (-1) (min 1 (Real.cos x.1 * Real.cos y.1 - Real.sin x.1 * Real.sin y.1 * Real.cos (y.2 - x.2))))

/-- `is_seen` (phutil.py:814-821). -/
noncomputable def seen (c : Camera) (e : Element) : Prop :=
  match e.kind with
  | .surface => e.z > c.h / 2 - c.d / Real.tan c.beta * cosDd c e ∧ e.z < -c.h / 2 + c.d / Real.tan c.alpha * cosDx c e
  | .xEdge => c.h / c.d * Real.tan c.beta < cosDd c e
  | .dEdge => c.h / c.d * Real.tan c.alpha < cosDx c e

open Classical in
/-- `V_i` before the mask (phutil.py:628-633, 799-810), for angles between 0 and 90 degrees. -/
noncomputable def volume (c : Camera) (np : ℕ) (e : Element) : ℝ :=
  let dl := c.d * (2 * Real.pi / np)
  let dz := c.h / axialCount c np
  let secX := 1 / (Real.sin c.alpha * cosDx c e)
  let secD := 1 / (Real.sin c.beta * cosDd c e)
  match e.kind with
  | .surface => dz * dl * c.mu⁻¹ / (secX + secD)
  | .xEdge => dl * (c.mu ^ 2)⁻¹ / (secD * (1 / Real.cos c.alpha + secD * if cosDx c e ≤ 0 then 0 else Real.cos c.alpha * cosDx c e))
  | .dEdge => dl * (c.mu ^ 2)⁻¹ / (secX * (1 / Real.cos c.beta + secX * if cosDd c e ≤ 0 then 0 else Real.cos c.beta * cosDd c e))

open Classical in
/-- The weight of an element (phutil.py:824). -/
noncomputable def weight (c : Camera) (np : ℕ) (e : Element) : ℝ := if seen c e then volume c np e else 0

open Classical in
/-- `_compute_qq_p` at one detector point (phutil.py:737-752); 0 / 0 is `none`. -/
noncomputable def meanAngle (c : Camera) (np : ℕ) (es : List Element) : Option ℝ :=
  let v := (es.map (weight c np)).sum
  if v = 0 then none else some ((es.map fun e => weight c np e * scatter c e).sum / v)

/-- A place that still is NaN takes the value of the panel (phutil.py:613). -/
def keep : Option ℝ → Option ℝ → Option ℝ
  | none, p => p
  | some x, _ => some x

/-- `r_d` over the panels (phutil.py:592-613). -/
def panelDistance (panels : List (Option ℝ)) : Option ℝ := panels.foldl keep none

/-- The four ways the angle `q` seen through the pinhole is reported: `tth_corr_rygg_pinhole` with the nominal angle and without it
(phutil.py:861-873), `tth_corr_map_rygg_pinhole` (phutil.py:895) and `polar_tth_corr_map_rygg_pinhole` (phutil.py:910-921). -/
def ryggReports (q tth : ℝ) : ℝ × ℝ × ℝ × ℝ := (tth - (q - tth), tth - (q - tth) - tth, tth - q, q - tth)

end Hexrd.Pinhole
