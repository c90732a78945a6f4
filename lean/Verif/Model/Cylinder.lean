import Verif.Model.Transforms

/-!
Model of the cylindrical detector: `hexrd/core/instrument/cylindrical_detector.py` and the ray and coordinate
functions of `hexrd/hed/xrdutil/utils.py` that it and the polar view use.

Simplifications: real arithmetic; one ray or one point in place of an array of them (every function of the file
treats the rows alone); a row of NaNs is `none`; no distortion function.
-/

namespace Hexrd.Cylinder

open Hexrd.Transforms

/-- The parameters of a cylindrical panel that the geometry uses (`cylindrical_detector.py:28-30`, `detector.py`
attributes `rmat`, `tvec`, `rows`, `cols`, `pixel_size_row`, `pixel_size_col`). -/
structure Panel where
  rmat : M
  tvec : V
  radius : ℝ
  rows : Nat
  cols : Nat
  psr : ℝ
  psc : ℝ

namespace Panel
variable (p : Panel)

/-- `caxis` (`cylindrical_detector.py:258-261`). -/
def caxis : V := mulV p.rmat ![0, 1, 0]

/-- `paxis` (`cylindrical_detector.py:263-266`). -/
def paxis : V := mulV p.rmat ![1, 0, 0]

/-- `physical_size`, rows first (`cylindrical_detector.py:278-284`). -/
noncomputable def physicalSize : ℝ × ℝ := (p.rows * p.psr, p.cols * p.psc)

/-- `angle_extent` (`cylindrical_detector.py:317-321`). -/
noncomputable def angleExtent : ℝ := p.physicalSize.2 / p.radius / 2

end Panel

/-- `naxis = np.cross(caxis, paxis); naxis / norm` (`hed/xrdutil/utils.py:184-185, 301-302`). -/
noncomputable def unitNormal (c p : V) : V := fun i => cross c p i / √(dot (cross c p) (cross c p))

/-- `delta`: the point of the cylinder axis level with the panel centre, seen from the crystal
(`hed/xrdutil/utils.py:187-189, 254-256, 309-311`). -/
def delta (n : V) (td : V) (radius : ℝ) (ts tc : V) (rs : M) : V :=
  fun i => td i - (radius * n i + ts i + mulV rs tc i)

/-- `ang[np.abs(ang) > 1.0] = np.sign(...)` (`hed/xrdutil/utils.py:276, 322`, `hedm/xrdutil/utils.py:562`). -/
noncomputable def clampOne (x : ℝ) : ℝ := if |x| > 1 then (if x < 0 then -1 else 1) else x

/-- `_unitvec_to_cylinder` (`hed/xrdutil/utils.py:156-214`): a direction along the axis, and a negative argument
of the square root, give NaN. -/
noncomputable def unitvecToCylinder (u c p : V) (radius : ℝ) (td ts tc : V) (rs : M) : Option V :=
  let d := delta (unitNormal c p) td radius ts tc rs
  let t1 := dot u d
  let t2 := dot u c
  let t3 := dot d c
  let a := 1 - t2 ^ 2
  let b := t1 - t2 * t3
  let cc := radius ^ 2 - √(dot d d) ^ 2 + t3 ^ 2
  if |a| < 1 / 10 ^ 10 then none
  else if b ^ 2 + a * cc < 0 then none
  else some fun i => (b + √(b ^ 2 + a * cc)) / a * u i

open Classical in
/-- `_clip_to_cylindrical_detector` (`hed/xrdutil/utils.py:217-284`): the point, or NaN, and the mask of valid
rows.  Comparisons with NaN are false, so a NaN row counts as valid. -/
noncomputable def clip (q : Option V) (c p : V) (radius : ℝ) (size : ℝ × ℝ) (extent : ℝ) (td ts tc : V) (rs : M) :
    Option V × Bool :=
  match q with
  | none => (none, true)
  | some q =>
    let n := cross c p
    let d := delta n td radius ts tc rs
    let w : V := fun i => q i - d i
    let dp := dot w c
    let wxy : V := fun i => w i - dp * c i
    let mask1 : Bool := decide (|dp| > size.1 * (1 / 2))
    let ang := Real.arccos (clampOne (dot wxy n / radius))
    let mask2 : Bool := decide (ang ≥ extent)
    if mask1 || mask2 then (none, false) else (some q, true)

/-- `np.sign` with `sgn[sgn == 0.0] = 1.0` (`hed/xrdutil/utils.py:319-320`). -/
noncomputable def signOne (x : ℝ) : ℝ := if x < 0 then -1 else 1

/-- `_dewarp_from_cylinder` (`hed/xrdutil/utils.py:287-326`). -/
noncomputable def dewarp (q : Option V) (c p : V) (radius : ℝ) (td ts tc : V) (rs : M) : Option (ℝ × ℝ) :=
  q.map fun q =>
    let n := unitNormal c p
    let d := delta n td radius ts tc rs
    let w : V := fun i => q i - d i
    let wxy : V := fun i => w i - dot w c * c i
    let ang := Real.arccos (clampOne (dot wxy n / radius))
    (radius * ang * signOne (dot wxy p), dot w c)

/-- `_warp_to_cylinder` with `normalize=False` (`hed/xrdutil/utils.py:329-369`). -/
noncomputable def warp (xy : ℝ × ℝ) (td : V) (radius : ℝ) (c p : V) (ts : V) (rs : M) (tc : V) : V :=
  let n := cross p c
  let th := xy.1 / radius
  let xp := radius * Real.sin th
  let xn := radius * (1 - Real.cos th)
  fun i => xp * p i + xy.2 * c i + xn * n i + (td i - ts i - mulV rs tc i)

/-- `_warp_to_cylinder` with `normalize=True` (`hed/xrdutil/utils.py:366-367`); a zero vector is divided by zero
in the code and is outside the model. -/
noncomputable def warpUnit (xy : ℝ × ℝ) (td : V) (radius : ℝ) (c p : V) (ts : V) (rs : M) (tc : V) : V :=
  let v := warp xy td radius c p ts rs tc
  fun i => v i / √(dot v v)

/-- `_dvecToDetectorXYcylinder` (`hed/xrdutil/utils.py:372-420`) for a panel. -/
noncomputable def dvecToXY (pn : Panel) (u ts tc : V) (rs : M) : Option (ℝ × ℝ) × Bool :=
  let q := unitvecToCylinder u pn.caxis pn.paxis pn.radius pn.tvec ts tc rs
  let r := clip q pn.caxis pn.paxis pn.radius pn.physicalSize pn.angleExtent pn.tvec ts tc rs
  (dewarp r.1 pn.caxis pn.paxis pn.radius pn.tvec ts tc rs, r.2)

/-- `_project_on_detector_cylinder` (`hed/xrdutil/utils.py:107-153`) for one triplet of angles, without
distortion; called by the polar view with omega zero (`core/projections/polar.py:219-254`) and by
`CylindricalDetector.angles_to_cart`. -/
noncomputable def projectAngles (pn : Panel) (tth eta ome chi : ℝ) (b e ts tc : V) (rs : M) : Option (ℝ × ℝ) × Bool :=
  dvecToXY pn (anglesToDvec tth eta ome b e chi 1) ts tc rs

/-- `CylindricalDetector.cart_to_dvecs` (`cylindrical_detector.py:122-139`). -/
noncomputable def cartToDvec (pn : Panel) (xy : ℝ × ℝ) (ts : V) (rs : M) (tc : V) : V :=
  warp xy pn.tvec pn.radius pn.caxis pn.paxis ts rs tc

/-- `_dvec_to_angs` (`hedm/xrdutil/utils.py:547-571`). -/
noncomputable def dvecToAngs (d b e : V) : ℝ × ℝ :=
  let exb := cross e b
  let exb : V := fun i => exb i / √(dot exb exb)
  let bxexb := cross b exb
  let bxexb : V := fun i => bxexb i / √(dot bxexb bxexb)
  let dp := clampOne (dot b d)
  let dperp : V := fun i => d i - dp * b i
  (Real.arccos dp, atan2 (dot exb dperp) (dot bxexb dperp))

/-- `CylindricalDetector.cart_to_angles` with the default `normalize=True` (`cylindrical_detector.py:36-68`),
without distortion: two-theta, eta and the diffracted direction. -/
noncomputable def cartToAngles (pn : Panel) (xy : ℝ × ℝ) (b e ts : V) (rs : M) (tc : V) : (ℝ × ℝ) × V :=
  let d := warpUnit xy pn.tvec pn.radius pn.caxis pn.paxis ts rs tc
  (dvecToAngs d b e, d)

/-- `local_normal` for one point (`cylindrical_detector.py:150-170`). -/
noncomputable def localNormal (pn : Panel) (x : ℝ) : V :=
  let n := cross pn.paxis pn.caxis
  fun i => Real.sin (x / pn.radius) * pn.paxis i + -Real.cos (x / pn.radius) * n i

/-- `secb` of `calc_filter_coating_transmission` (`cylindrical_detector.py:197-204`): one over the cosine of the
angle of incidence, with the sample at the origin. -/
noncomputable def secb (pn : Panel) (xy : ℝ × ℝ) : ℝ :=
  let v := cartToDvec pn xy 0 1 0
  1 / dot (fun i => v i / √(dot v v)) (localNormal pn xy.1)

end Hexrd.Cylinder
