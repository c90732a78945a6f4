import Verif.Model.Simulate
import Verif.Model.Tensors
import Verif.Model.Units

/-!
Model of the Laue simulation (`hexrd/laue/simulation.py`) and of the Laue calibrator's residual
(`hexrd/core/fitting/calibration/laue.py`, below `calibration/laue.py`; the copy in `hexrd/laue/fitting` is the same
but for its imports).

Simplifications: numbers are real numbers, NaN rows are `none`, an exception is `none`, detectors are planar, and
the simulation is the one of a single grain wherever the code loops over grains.
-/

namespace Hexrd.LaueSim

open Hexrd.Transforms Hexrd.Detector Hexrd.Simulate

/-- What the simulation reads from the detector and from its arguments (simulation.py:16-25).  `unwarp` is
`detector.distortion.apply_inverse`, the identity without a distortion; `windows` are the pairs of least and greatest
energy (simulation.py:57-69, one pair when the energies are scalars). -/
structure Scene where
  panel : Panel
  buf : Buffer
  unwarp : ℝ × ℝ → ℝ × ℝ
  rd : M
  td : V
  bvec : V
  rs : M
  ts : V
  beam : V
  bmat : M
  windows : List (ℝ × ℝ)

/-- The reflections that are simulated when the crystal is given by plane data (simulation.py:31-41). -/
noncomputable def towards (s : Scene) (hkls : List V) : List V :=
  hkls.filter fun h => decide (dot (mulV s.bmat h) s.bvec ≤ 0)

/-- A column of `gvec_s_str` (simulation.py:100-105). -/
noncomputable def stretched (s : Scene) (g : Grain) (h : V) : V :=
  mulV (Tensors.vecMVToSymm g.vInv true) (mulV g.rc (mulV s.bmat h))

/-- A column of `ghat_c_str` (simulation.py:106). -/
noncomputable def normal (s : Scene) (g : Grain) (h : V) : V := Tensors.unitVector3 (mulTV g.rc (stretched s g h))

/-- A row of `dpts` (simulation.py:109-118). -/
noncomputable def project (s : Scene) (g : Grain) (h : V) : Option (ℝ × ℝ) :=
  gvecToXY (normal s g h) s.rd s.rs g.rc s.td s.ts g.tc s.beam

/-- A row of the five output arrays (simulation.py:166-170). -/
structure Spot where
  hkl : V
  xy : ℝ × ℝ
  tTh : ℝ
  eta : ℝ
  dsp : ℝ
  energy : ℝ

/-- `validEnergy` for one wavelength (simulation.py:152-160). -/
noncomputable def validEnergy (windows : List (ℝ × ℝ)) (wlen : ℝ) : Bool :=
  windows.any fun w => decide (Units.keVToAngstrom w.2 ≤ wlen) && decide (wlen ≤ Units.keVToAngstrom w.1)

/-- One intersecting ray: the row that it would fill and whether it is a keeper (simulation.py:130-163). -/
noncomputable def measure (s : Scene) (g : Grain) (rb : M) (p : V × (ℝ × ℝ)) : Option (Spot × Bool) := do
  let o ← xyToGvec p.2 s.rd s.rs s.td s.ts g.tc rb
  let xy := s.unwarp p.2
  let v := stretched s g p.1
  let dsp := 1 / √(dot v v)
  let wlen := 2 * dsp * Real.sin (1 / 2 * o.tTh)
  pure (⟨p.1, xy, o.tTh, o.eta, dsp, Units.keVToAngstrom wlen⟩,
    onPanel s.panel s.buf true xy && validEnergy s.windows wlen)

/-- `simulate_laue_pattern_on_panel` for one grain (simulation.py:99-171): the arrays have one row per reflection, and
the rows of the rays that meet the detector plane are written from the first row on, at the positions they have among
these rays. -/
noncomputable def simulateGrain (s : Scene) (g : Grain) (hkls : List V) : Option (List (Option Spot)) :=
  let pts := hkls.filterMap fun h => (project s g h).map fun xy => (h, xy)
  if pts.isEmpty then some (hkls.map fun _ => none)
  else do
    let rb ← beamRmat s.beam etaVec
    let rows ← pts.mapM (measure s g rb)
    pure (rows.map (fun r => if r.2 then some r.1 else none) ++ List.replicate (hkls.length - rows.length) none)

/-- `simulate_laue_pattern_on_panel` for a list of grains (simulation.py:93-171). -/
noncomputable def simulate (s : Scene) (grains : List Grain) (hkls : List V) : Option (List (List (Option Spot))) :=
  grains.mapM fun g => simulateGrain s g hkls

/-! ### The residual of the Laue calibrator -/

/-- The picks of one detector: the reflection and the picked point, `none` when its x is NaN
(calibration/laue.py:419-426, abstract_grain.py:162-164). -/
abbrev Picks := List (V × Option (ℝ × ℝ))

/-- `_evaluate` for one detector (calibration/laue.py:437-446): an empty list of picks makes `xys[:, 0]` raise. -/
def evaluate (p : Picks) : Option (List (V × (ℝ × ℝ))) :=
  if p.isEmpty then none else some (p.filterMap fun q => q.2.map fun xy => (q.1, xy))

/-- NumPy's `calc - meas` for two arrays of rows of two (calibration/laue.py:540): equal lengths, or one of them a single row
that is repeated. -/
def subRows (a b : List (ℝ × ℝ)) : Option (List (ℝ × ℝ)) :=
  if a.length = b.length then some (List.zipWith (fun x y => (x.1 - y.1, x.2 - y.2)) a b)
  else match a, b with
    | [x], ys => some (ys.map fun y => (x.1 - y.1, x.2 - y.2))
    | xs, [y] => some (xs.map fun x => (x.1 - y.1, x.2 - y.2))
    | _, _ => none

/-- The scene in which the objective function simulates a detector (calibration/laue.py:513-520): neither the sample rotation nor
the translation of the sample stage is passed on, so that they are the defaults (simulation.py:77-82), and the energy
window is widened (calibration/laue.py:459). -/
noncomputable def objectiveScene (s : Scene) (cutoffs : ℝ × ℝ) : Scene :=
  { s with rs := 1, ts := 0, windows := [(1 / 2 * cutoffs.1, 3 / 2 * cutoffs.2)] }

/-- `calc_xy[det_key]` (calibration/laue.py:513-525): the simulated points that are not NaN. -/
noncomputable def predicted (s : Scene) (g : Grain) (hkls : List V) : Option (List (ℝ × ℝ)) :=
  (simulateGrain s g hkls).map fun out => out.filterMap fun r => r.map Spot.xy

/-- `residual` of the Laue calibrator (calibration/laue.py:454-468, 490-541) as rows of two, before they are flattened. -/
noncomputable def residual (dets : List (Scene × Picks)) (g : Grain) (cutoffs : ℝ × ℝ) : Option (List (ℝ × ℝ)) := do
  let picks ← dets.mapM fun d => (evaluate d.2).map fun p => (objectiveScene d.1 cutoffs, p)
  let xys ← picks.mapM fun d => predicted d.1 g (d.2.map Prod.fst)
  subRows xys.flatten (picks.map fun d => d.2.map Prod.snd).flatten

end Hexrd.LaueSim
