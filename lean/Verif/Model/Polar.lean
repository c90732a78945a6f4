import Verif.Model.Detector
import Verif.Model.Cylinder

/-!
Model of `hexrd/core/projections/polar.py`: the polar view of an instrument.

Simplifications: real arithmetic; no distortion functions; dictionaries keyed by detector name are lists in the order
of the dictionary; NaN is `none`; exceptions are an outer `none`.
-/

namespace Hexrd.Polar

open Hexrd.Transforms Hexrd.Detector

/-- `np.degrees`. -/
noncomputable def degrees (x : ℝ) : ℝ := x * 180 / Real.pi

/-- `np.radians`. -/
noncomputable def radians (x : ℝ) : ℝ := x * Real.pi / 180

/-- The angular window (radians) and pixel sizes (degrees) of a view (`polar.py:66-82`). -/
structure View where
  tthMin : ℝ
  tthMax : ℝ
  etaMin : ℝ
  etaMax : ℝ
  tthPix : ℝ
  etaPix : ℝ

namespace View
variable (v : View)

/-- `ntth` (`polar.py:179-182`); a negative count, for which `np.zeros` raises, is zero here. -/
noncomputable def ntth : Nat := (npRound (degrees (v.tthMax - v.tthMin) / v.tthPix)).toNat

/-- `neta` (`polar.py:184-187`). -/
noncomputable def neta : Nat := (npRound (degrees (v.etaMax - v.etaMin) / v.etaPix)).toNat

/-- `tth_vec` (`polar.py:195-199`). -/
noncomputable def tthVec : List ℝ :=
  (List.range v.ntth).map fun (k : Nat) => radians (v.tthPix * k) + v.tthMin + 1 / 2 * radians v.tthPix

/-- `eta_vec` (`polar.py:200-204`). -/
noncomputable def etaVec : List ℝ :=
  (List.range v.neta).map fun (k : Nat) => radians (v.etaPix * k) + v.etaMin + 1 / 2 * radians v.etaPix

/-- `angular_grid` with both arrays flattened, as pairs (two-theta, eta) (`polar.py:193-205, 325-334`). -/
noncomputable def grid : List (ℝ × ℝ) := v.etaVec.flatMap fun e => v.tthVec.map fun t => (t, e)

/-- `extent` (`polar.py:207-217`): left, right, bottom, top; `none` for an empty grid, for which `np.min` raises.
The vectors increase, so their minimum and maximum are the first and the last entry. -/
noncomputable def extent : Option (ℝ × ℝ × ℝ × ℝ) := do
  let heps := radians (1 / 2 * v.etaPix)
  let htps := radians (1 / 2 * v.tthPix)
  let t0 ← v.tthVec.head?
  let t1 ← v.tthVec.getLast?
  let e0 ← v.etaVec.head?
  let e1 ← v.etaVec.getLast?
  pure (t0 - htps, t1 + htps, e1 + heps, e0 - heps)

/-- `tth_to_pixel` (`polar.py:440-444`). -/
noncomputable def tthToPixel (tth : ℝ) : ℝ := degrees (tth - v.tthMin) / v.tthPix

end View

/-- A detector as the polar view uses it: its pixels, its buffer and the function that maps a pair of angles to a point,
or NaN. -/
structure Det where
  panel : Detector.Panel
  buf : Detector.Buffer
  proj : ℝ × ℝ → Option (ℝ × ℝ)

/-- The projection chosen for a planar detector, with omega zero (`polar.py:219-240, 326-338`,
`hed/xrdutil/utils.py:66-104`): the sample position is the instrument's, the azimuth reference is not passed on and
keeps its default, the laboratory x axis. -/
noncomputable def projPlanar (rd : M) (td b : V) (chi : ℝ) (tvec : V) (ang : ℝ × ℝ) : Option (ℝ × ℝ) :=
  gvecToXY (anglesToGvec ang.1 ang.2 0 b ![1, 0, 0] chi 1) rd (sampleRmat chi 0) 1 td tvec 0 b

/-- The projection chosen for a cylindrical detector (`polar.py:219-254, 326-338`): neither the azimuth reference nor
the sample position is passed on. -/
noncomputable def projCylinder (pn : Cylinder.Panel) (b : V) (chi : ℝ) (ang : ℝ × ℝ) : Option (ℝ × ℝ) :=
  let r := Cylinder.projectAngles pn ang.1 ang.2 0 chi b ![1, 0, 0] 0 0 1
  if r.2 then r.1 else none

/-- `on_panel` for a point that may be NaN: comparisons with NaN are false, and NaN rounded to an integer is off the
panel (`polar.py:340`, `detector.py:1067-1095`). -/
noncomputable def onPanelNan (d : Det) (q : Option (ℝ × ℝ)) : Bool :=
  match q with
  | none => false
  | some xy => onPanel d.panel d.buf true xy

/-- One entry of the coordinate mapping (`polar.py:344-352`): the points, the indices of those on the panel, and the
floors from which the multipliers and pixel indices of `bilinear_interp_dict` are computed. -/
structure Mapping where
  xypts : List (Option (ℝ × ℝ))
  onPanelIdx : List Nat
  xyClip : List (ℝ × ℝ)
  iFloor : List Int
  jFloor : List Int

/-- `np.where(on_panel)[0]`. -/
def whereIdx (l : List Bool) : List Nat := (List.range l.length).filter fun k => l.getD k false

/-- `_generate_coordinate_mapping` for one detector (`polar.py:305-355`). -/
noncomputable def genMapping (v : View) (d : Det) : Option Mapping := do
  let xypts := v.grid.map d.proj
  let idx := whereIdx (xypts.map (onPanelNan d))
  let clip := idx.map fun k => (xypts.getD k none).getD (0, 0)
  let iFloor ← cellIndicesL d.panel.rowPixelVec (clip.map (·.2))
  let jFloor ← cellIndicesL d.panel.colPixelVec (clip.map (·.1))
  pure ⟨xypts, idx, clip, iFloor, jFloor⟩

/-- `_interpolate_bilinear_in_place` (`detector.py:2095-2121`): the interpolated values are added to the output at the
given indices. -/
noncomputable def addInPlace (p : Detector.Panel) (m : Mapping) (img : Nat → Nat → ℝ) (out : List ℝ) : List ℝ :=
  (m.onPanelIdx.zip (m.xyClip.zip (m.iFloor.zip m.jFloor))).foldl
    (fun o e => o.set e.1 (o.getD e.1 0 + bilinearAt p img e.2.1 e.2.2.1 e.2.2.2)) out

/-- The four pixels a point is interpolated from are all inside the buffer (`polar.py:368-391`): otherwise one factor
is NaN, and so is the sum, whatever its weight. -/
noncomputable def neighboursOpen (d : Det) (iFloor jFloor : Int) : Bool :=
  let p := d.panel
  let iF := (fixIndex iFloor 0 (p.rows - 1)).toNat
  let jF := (fixIndex jFloor 0 (p.cols - 1)).toNat
  let iC := (fixIndex (iFloor + 1) 0 (p.rows - 1)).toNat
  let jC := (fixIndex (jFloor + 1) 0 (p.cols - 1)).toNat
  bufferAs2d p d.buf iF jF && bufferAs2d p d.buf iF jC && bufferAs2d p d.buf iC jF && bufferAs2d p d.buf iC jC

/-- The body of the loop of `_generate_nan_mask` (`polar.py:370-391`): the flags of the points where `output` is not
NaN are cleared. -/
noncomputable def clearMask (d : Det) (m : Mapping) (mask : List Bool) : List Bool :=
  (m.onPanelIdx.zip (m.iFloor.zip m.jFloor)).foldl
    (fun o e => if neighboursOpen d e.2.1 e.2.2 then o.set e.1 false else o) mask

/-- `_generate_nan_mask` (`polar.py:357-392`). -/
noncomputable def nanMask (v : View) (dms : List (Det × Mapping)) : List Bool :=
  dms.foldl (fun mask dm => clearMask dm.1 dm.2 mask) (List.replicate v.grid.length true)

/-- `_warp_image_from_coordinate_map` with interpolation (`polar.py:394-438`): the flat image and its mask. -/
noncomputable def warpFromMap (v : View) (dms : List (Det × Mapping)) (imgs : List (Nat → Nat → ℝ)) (mask : List Bool) :
    List (ℝ × Bool) :=
  let summed := (dms.zip imgs).foldl (fun o e => addInPlace e.1.1.panel e.1.2 e.2 o) (List.replicate v.grid.length 0)
  summed.zip mask

/-- `warp_image` of a view that does not cache (`polar.py:259-303`). -/
noncomputable def warpImage (v : View) (dets : List Det) (imgs : List (Nat → Nat → ℝ)) : Option (List (ℝ × Bool)) := do
  let ms ← dets.mapM (genMapping v)
  let dms := dets.zip ms
  pure (warpFromMap v dms imgs (nanMask v dms))

/-- A view with `cache_coordinate_map=True`: the mapping and the mask made by the constructor (`polar.py:83-95`). -/
structure Cached where
  view : View
  dms : List (Det × Mapping)
  mask : List Bool

/-- The constructor with `cache_coordinate_map=True` (`polar.py:87-95`). -/
noncomputable def mkCached (v : View) (dets : List Det) : Option Cached := do
  let ms ← dets.mapM (genMapping v)
  let dms := dets.zip ms
  pure ⟨v, dms, nanMask v dms⟩

/-- `warp_image` of a caching view (`polar.py:282-303`). -/
noncomputable def Cached.warpImage (c : Cached) (imgs : List (Nat → Nat → ℝ)) : List (ℝ × Bool) :=
  warpFromMap c.view c.dms imgs c.mask

/-! ### Azimuthal binning -/

/-- Python's `int` of a float: truncation towards zero. -/
noncomputable def pyInt (x : ℝ) : Int := if 0 ≤ x then ⌊x⌋ else ⌈x⌉

/-- `nspec` of `bin_polar_view` (`polar.py:457-460`). -/
noncomputable def nspec (v : View) (interval : ℝ) : Int :=
  pyInt ((degrees v.etaMax - degrees v.etaMin) / interval) - 1

/-- The slice of rows averaged for bin `i` (`polar.py:467-472`). -/
noncomputable def binSlice (v : View) (interval range : ℝ) (i : Nat) : Int × Int :=
  (pyInt (((i + 1) * interval - range) / v.etaPix), pyInt (((i + 1) * interval + range) / v.etaPix))

/-- `np.nanmean` of one column of the rows in the slice (`polar.py:475-477`): `none` for an empty or all-NaN slice. -/
noncomputable def nanmean (l : List (Option ℝ)) : Option ℝ :=
  let xs := l.filterMap id
  if xs.length = 0 then none else some (xs.sum / xs.length)

/-- One entry of `bin_polar_view` (`polar.py:447-479`): column `j` of bin `i` of a polar image with `n` rows. -/
noncomputable def binEntry (v : View) (interval range : ℝ) (n : Nat) (pv : Nat → Nat → Option ℝ) (i j : Nat) : Option ℝ :=
  let s := binSlice v interval range i
  nanmean (((List.range n).filter (inSlice n s.1 s.2)).map fun k => pv k j)

end Hexrd.Polar
