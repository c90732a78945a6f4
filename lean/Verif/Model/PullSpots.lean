import Verif.Model.Angles
import Mathlib.Data.List.Basic

/-!
Model of the extraction of spots from an omega series: `HEDMInstrument.pull_spots`
(hexrd/core/instrument/hedm_instrument.py:1693-2058), the part after the reflections have been predicted and their
patches built (those are modelled in `Simulate.lean` and `Xrdutil.lean`).

Simplifications: real arithmetic; the connected components (`ndimage.label`) are an argument `label`, whose contract is
stated in the specification; the file output is not modelled; the text of warnings is not modelled. The two forms of the
patch values (taken at the nearest pixel, interpolated) are given with the patch.
-/

namespace Hexrd.PullSpots
open Hexrd.Angles

/-- Place of a value in a patch: frame, row (eta), column (2 theta) (hedm_instrument.py:1897-1900: frames are stacked
along the first axis). -/
abbrev Voxel := ℕ × ℕ × ℕ

/-- What the loop over patches has at hand for one predicted reflection (hedm_instrument.py:1872-1900). -/
structure Patch where
  /-- `frame_indices`: the frame of each omega of the window, `none` for `-1` (hedm_instrument.py:1883-1885) -/
  frames : List (Option ℕ)
  /-- `prows` (hedm_instrument.py:1873) -/
  rows : ℕ
  /-- `pcols` (hedm_instrument.py:1873) -/
  cols : ℕ
  /-- `patch_data_raw` (hedm_instrument.py:1897-1900) -/
  raw : Voxel → ℝ
  /-- the values of the bilinear option (hedm_instrument.py:1918-1929) -/
  bilinear : Voxel → ℝ
  /-- `tth_edges[0]` and `delta_ttheta` (hedm_instrument.py:1876-1878) -/
  tth0 : ℝ
  dtth : ℝ
  /-- `eta_edges[0]` and `delta_eta` (hedm_instrument.py:1877-1879) -/
  eta0 : ℝ
  deta : ℝ
  /-- `omega_edges`, in degrees (hedm_instrument.py:1896) -/
  ome0 : ℝ

/-- All places of a patch (hedm_instrument.py:1897-1900). -/
def places (p : Patch) : List Voxel :=
  (List.range p.frames.length).flatMap fun k => (List.range p.rows).flatMap fun i => (List.range p.cols).map fun j => (k, i, j)

open Classical in
/-- The places with a value above the threshold, `patch_data > threshold` (hedm_instrument.py:1901, 1933). -/
noncomputable def above (p : Patch) (data : Voxel → ℝ) (threshold : ℝ) : List Voxel :=
  (places p).filter fun v => threshold < data v

/-- `x.centroid_weighted` of a region (hedm_instrument.py:1940-1942): the mean of a coordinate, weighted with the values. -/
noncomputable def centroid (data : Voxel → ℝ) (region : List Voxel) (coord : Voxel → ℕ) : ℝ :=
  (region.map fun v => data v * (coord v : ℝ)).sum / (region.map data).sum

/-- `np.sum((coms - np.array(patch_data.shape) / 2) ** 2, axis=1)` of a region (hedm_instrument.py:1943-1948). -/
noncomputable def offCentre (p : Patch) (data : Voxel → ℝ) (region : List Voxel) : ℝ :=
  (centroid data region (·.1) - (p.frames.length : ℝ) / 2) ^ 2 + (centroid data region (·.2.1) - (p.rows : ℝ) / 2) ^ 2 +
    (centroid data region (·.2.2) - (p.cols : ℝ) / 2) ^ 2

open Classical in
/-- `np.argmin` over the regions: the first of the smallest (hedm_instrument.py:1943-1948). -/
noncomputable def closest (f : List Voxel → ℝ) : List (List Voxel) → Option (List Voxel)
  | [] => none
  | r :: rs => match closest f rs with
    | none => some r
    | some s => if f r ≤ f s then some r else some s

/-- One entry of the returned list (trimmed output, hedm_instrument.py:2041-2053); `none` is NaN. -/
structure Spot where
  peakId : ℤ
  sumInt : Option ℝ
  maxInt : Option ℝ
  measured : Option (ℝ × ℝ × ℝ)

/-- The running values of the loops: `next_invalid_peak_id`, `patch_has_signal` and the output of the panel
(hedm_instrument.py:1834-1836). -/
structure State where
  next : ℤ
  signal : List Bool
  out : List Spot

/-- The measured angles (hedm_instrument.py:1955-1972). -/
noncomputable def measure (p : Patch) (domega : ℝ) (period : ℝ × ℝ) (data : Voxel → ℝ) (region : List Voxel) : Option (ℝ × ℝ × ℝ) := do
  let om ← mapAngle (some ((p.ome0 + (1 / 2 + centroid data region (·.1)) * domega) * (Real.pi / 180)))
    (some [period.1, period.2]) .radians
  some (p.tth0 + (1 / 2 + centroid data region (·.2.2)) * p.dtth, p.eta0 + (1 / 2 + centroid data region (·.2.1)) * p.deta, om)

open Classical in
/-- One turn of the loop over patches (hedm_instrument.py:1872-2053). -/
noncomputable def patchStep (label : List Voxel → List (List Voxel)) (threshold domega : ℝ) (period : ℝ × ℝ) (bilinear : Bool)
    (s : State) (patchId : ℕ) (p : Patch) : State :=
  if none ∈ p.frames then s
  else
    let signal := s.signal ++ [decide (above p p.raw threshold ≠ [])]
    if above p p.raw threshold = [] then
      { next := s.next - 1, signal := signal, out := s.out ++ [⟨s.next, none, none, none⟩] }
    else
      let data := if bilinear then p.bilinear else p.raw
      match closest (offCentre p data) (label (above p data threshold)) with
      | none => { s with signal := signal }
      | some r =>
        { s with signal := signal, out := s.out ++ [⟨(patchId : ℤ), some (r.map data).sum, (r.map p.raw).max?, measure p domega period data r⟩] }

/-- The loop over the patches of a panel (hedm_instrument.py:1872). -/
noncomputable def patchLoop (label : List Voxel → List (List Voxel)) (threshold domega : ℝ) (period : ℝ × ℝ) (bilinear : Bool) :
    State → ℕ → List Patch → State
  | s, _, [] => s
  | s, k, p :: ps => patchLoop label threshold domega period bilinear
      (patchStep label threshold domega period bilinear s k p) (k + 1) ps

/-- The loop over the panels (hedm_instrument.py:1837): the number for the next spot not found and the list of signals go
on, the output starts afresh for each panel. -/
noncomputable def panelLoop (label : List Voxel → List (List Voxel)) (threshold domega : ℝ) (period : ℝ × ℝ) (bilinear : Bool) :
    ℤ → List Bool → List (List Patch) → List Bool × List (List Spot)
  | _, signal, [] => (signal, [])
  | next, signal, ps :: rest =>
    let s := patchLoop label threshold domega period bilinear ⟨next, signal, []⟩ 0 ps
    let r := panelLoop label threshold domega period bilinear s.next s.signal rest
    (r.1, s.out :: r.2)

/-- `pull_spots` (hedm_instrument.py:1834-2058): the list of signals and the output of each panel. -/
noncomputable def pullSpots (label : List Voxel → List (List Voxel)) (threshold domega : ℝ) (period : ℝ × ℝ) (bilinear : Bool)
    (panels : List (List Patch)) : List Bool × List (List Spot) :=
  panelLoop label threshold domega period bilinear (-100) [] panels

/-- `generate_binary_structure(2, 2)` or `(3, 3)` for the labels (hedm_instrument.py:1811-1814), and the check of
`ndimage.label` that the structure has as many dimensions as the data, which are always stacked to three
(hedm_instrument.py:1897-1900, 1932-1934). -/
def labelAccepted (ndivOme : ℕ) : Bool := (if ndivOme = 1 then 2 else 3) = 3

end Hexrd.PullSpots
