import Verif.Model.Simulate
import Verif.Model.Grid

/-!
# Model of helpers of `hexrd/hedm/xrdutil/utils.py`

Angular pixel sizes, projections of the sphere, and angular patches on a detector.  Numbers are real; distortion is
not modelled.
-/
namespace Hexrd.Xrdutil
open Hexrd.Transforms Hexrd.Grid

/-! ### Angular pixel sizes -/

/-- `_expand_pixels` (hedm/xrdutil/utils.py:711-727) for one point: the four corners of the rectangle of width `w`
and height `h` about it, in their order. -/
noncomputable def expandPixel (w h : ℝ) (xy : ℝ × ℝ) : List (ℝ × ℝ) :=
  let hw := 1 / 2 * w
  let hh := 1 / 2 * h
  [(xy.1 - hw, xy.2 - hh), (xy.1 + hw, xy.2 - hh), (xy.1 + hw, xy.2 + hh), (xy.1 - hw, xy.2 + hh)]

/-- `np.abs(np.remainder(eta_diff + hperiod, period) - hperiod)` (hedm/xrdutil/utils.py:736-737). -/
noncomputable def etaGap (a b : ℝ) : ℝ :=
  |Angles.npMod (a - b + Real.pi) (2 * Real.pi) - Real.pi|

/-- `_compute_max` (hedm/xrdutil/utils.py:731-747) for the four corners of one pixel, given by index. -/
noncomputable def computeMax (tth eta : Nat → ℝ) : ℝ × ℝ :=
  (List.range 3).foldl (fun (m : ℝ × ℝ) i =>
      (max |tth i - tth (i + 1)| m.1, max (etaGap (eta i) (eta (i + 1))) m.2))
    (|tth 0 - tth 3|, etaGap (eta 0) (eta 3))

/-- `angularPixelSize` (hedm/xrdutil/utils.py:750-803) for one point, without distortion; `none` is a beam frame that
could not be built. -/
noncomputable def angularPixelSize (xy : ℝ × ℝ) (pitch : ℝ × ℝ) (rd rs : M) (td ts tc b e : V) : Option (ℝ × ℝ) := do
  let rb ← beamRmat b e
  let outs ← (expandPixel pitch.1 pitch.2 xy).mapM fun p => xyToGvec p rd rs td ts tc rb
  let at_ := fun (f : XYOut → ℝ) (i : Nat) => (outs[i]?.map f).getD 0
  pure (computeMax (at_ (·.tTh)) (at_ (·.eta)))

/-- `Detector.angularPixelSize` (hexrd/core/instrument/detector.py:1008-1054): the pixel sizes are passed as
`(pixel_size_row, pixel_size_col)`. -/
noncomputable def detectorPixelSize (p : Detector.Panel) (xy : ℝ × ℝ) (rd rs : M) (td ts tc b e : V) :
    Option (ℝ × ℝ) :=
  angularPixelSize xy (p.psr, p.psc) rd rs td ts tc b e

/-! ### Projections of the sphere -/

/-- The argument `source` (hedm/xrdutil/utils.py:192-197). -/
inductive Source
  | d | q | g

/-- The argument `method` (hedm/xrdutil/utils.py:210-226). -/
inductive Method
  | stereographic | equalArea

/-- `ten_epsf` (hexrd/core/constants.py:67), ten times 2⁻⁵². -/
noncomputable def tenEpsf : ℝ := 10 / 2 ^ 52

/-- The unit vector of an input row (hedm/xrdutil/utils.py:192-203), with the default beam and azimuth reference, and
the crystal frame that of the sample; `rmat` is the identity when it is not given. -/
noncomputable def spherePoint (src : Source) (chi : ℝ) (rmat : M) (invertZ : Bool) (v : V) : V :=
  let s := match src with
    | .d => anglesToDvec (v 0) (v 1) (v 2) ![0, 0, -1] ![1, 0, 0] chi 1
    | .q => anglesToGvec (v 0) (v 1) (v 2) ![0, 0, -1] ![1, 0, 0] chi 1
    | .g => v
  let s := mulV rmat s
  if invertZ then ![s 0, s 1, -s 2] else s

/-- `mutil.unitVector` of `(x, y, 0)` (hexrd/core/matrixutil.py:76-93): not normalised when shorter than the
tolerance. -/
noncomputable def unit2 (x y : ℝ) : ℝ × ℝ :=
  let n := √(x ^ 2 + y ^ 2 + 0 ^ 2)
  let n := if n ≤ tenEpsf then 1 else n
  (x / n, y / n)

/-- The projection of one unit vector (hedm/xrdutil/utils.py:210-224); `none` is a division by zero. -/
noncomputable def projectPoint (m : Method) (s : V) : Option (ℝ × ℝ) :=
  match m with
  | .stereographic => if 1 - s 2 = 0 then none else some (s 0 / (1 - s 2), s 1 / (1 - s 2))
  | .equalArea =>
    let c : V := ![s 0, s 1, s 2 + 1]
    let scl := √(c 0 ^ 2 + c 1 ^ 2 + c 2 ^ 2)
    let u := unit2 (c 0) (c 1)
    some (u.1 * scl, u.2 * scl)

/-- `zproject_sph_angles` (hedm/xrdutil/utils.py:133-231): the projected points and the mask, which is returned only
when `use_mask` is set. -/
noncomputable def zproject (m : Method) (src : Source) (chi : ℝ) (rmat : M) (invertZ useMask : Bool)
    (vs : List V) : List (Option (ℝ × ℝ)) × List Bool :=
  let s := vs.map (spherePoint src chi rmat invertZ)
  let mask := s.map fun p => decide (p 2 ≤ 0)
  let s := if useMask then Detector.select s mask else s
  (s.map (projectPoint m), mask)

/-- The array the caller passed, after the call (hedm/xrdutil/utils.py:191-203): for vectors in the sample frame and
no change of basis, `spts_s` is the caller's array, and its third column is negated in place. -/
def inputAfter (src : Source) (rmat : Option M) (invertZ : Bool) (vs : List V) : List V :=
  match src, rmat, invertZ with
  | .g, none, true => vs.map fun v => ![v 0, v 1, -v 2]
  | _, _, _ => vs

/-! ### Patches -/

/-- The detector read from the configuration (hedm/xrdutil/utils.py:854-863): `size = [row, column]`. -/
noncomputable def rowEdges (p : Detector.Panel) : List ℝ :=
  (List.range (p.rows + 1)).map fun (k : Nat) => ((p.rows : ℝ) - k) * p.psc + -(1 / 2) * (p.rows * p.psr)

/-- hedm/xrdutil/utils.py:864 `col_edges`. -/
noncomputable def colEdges (p : Detector.Panel) : List ℝ :=
  (List.range (p.cols + 1)).map fun (k : Nat) => (k : ℝ) * p.psr + -(1 / 2) * (p.cols * p.psc)

/-- `np.degrees`. -/
noncomputable def degrees (x : ℝ) : ℝ := x * 180 / Real.pi

/-- `np.radians`. -/
noncomputable def radians (x : ℝ) : ℝ := x * Real.pi / 180

/-- The angular part of a patch (hedm/xrdutil/utils.py:893-936): numbers of cells, angles of the vertices and of the
cell centres. -/
structure Patch where
  ntth : Nat
  neta : Nat
  vertices : List (ℝ × ℝ)
  centres : List (ℝ × ℝ)

/-- hedm/xrdutil/utils.py:893-936 for one reflection; `pix` is its angular pixel size, the tolerances are in
degrees. -/
noncomputable def makePatch (angs : ℝ × ℝ) (pix : ℝ × ℝ) (tthTol etaTol : ℝ) (npdiv : Nat) : Patch :=
  let (ntth, tthEdges) := makeToleranceGrid (degrees pix.1) tthTol npdiv false false
  let (neta, etaEdges) := makeToleranceGrid (degrees pix.2) etaTol npdiv false false
  let conn := cellConnectivity neta ntth 1 .ll
  let vertices := etaEdges.flatMap fun e => tthEdges.map fun t => (angs.1 + radians t, angs.2 + radians e)
  let centres := conn.map fun c => cellCentroid (fun k => vertices.getD k (0, 0)) c
  ⟨ntth, neta, vertices, centres⟩

/-- The pixel of an evaluation point (hedm/xrdutil/utils.py:952-953). -/
noncomputable def patchPixel (p : Detector.Panel) (xy : ℝ × ℝ) : Option (Int × Int) := do
  let i ← cellIndices (rowEdges p) xy.2
  let j ← cellIndices (colEdges p) xy.1
  pure (i, j)

end Hexrd.Xrdutil
