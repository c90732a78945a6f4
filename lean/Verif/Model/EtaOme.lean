import Verif.Model.Omega
import Verif.Model.Angles
import Mathlib.Data.List.Sort
import Mathlib.Algebra.Order.Archimedean.Real.Basic
import Mathlib.Analysis.SpecialFunctions.Trigonometric.Basic
import Mathlib.Analysis.SpecialFunctions.Log.Basic

/-!
# Model of the eta-omega maps (`hexrd/hedm/instrument/generate_eta_omega_maps.py`,
`hexrd/hedm/findorientations.py`)

Floating-point numbers are real numbers, `none` as a value of a map is NaN.
-/
namespace Hexrd.EtaOme

open Hexrd.Omega

/-- One pixel of `full_map`: the values of the panels that have one are added, and the pixel is NaN if there is
none (generate_eta_omega_maps.py:122-133). -/
noncomputable def combinePanels (vals : List (Option ℝ)) : Option ℝ :=
  let total := vals.foldl (fun acc v => if v.isSome then acc + v.getD 0 else acc) 0
  let count := vals.foldl (fun (n : ℕ) v => if v.isSome then n + 1 else n) 0
  if count = 0 then none else some total

/-- `(ostart, delta, nsteps)` of the bins of a series with several wedges (generate_eta_omega_maps.py:67-92).
`none` stands for the failed assertion or for a series without wedges. The comparison of the steps
(`uniqueVectors` with tolerance 1e-6) is modelled as equality to within the tolerance of the first step. -/
noncomputable def wedgeGrid (ws : List (Wedge ℝ)) : Option (ℝ × ℝ × ℕ) := do
  let w0 ← ws.head?
  let wl ← ws.getLast?
  let deltas := ws.map fun w => (w.ostop - w.ostart) / (w.nsteps : ℝ)
  let delta ← deltas.head?
  if ∀ d ∈ deltas, |d - delta| ≤ 1 / 10 ^ 6 then
    let ostart := w0.ostart
    let ostop := Angles.mapInto wl.ostop ostart (ostart + 360)
    return (ostart, delta, ⌊(ostop - ostart) / delta⌋.toNat)
  else none

/-- The range of bin `j`: `ome_edges_full` (generate_eta_omega_maps.py:93-94), from the start, the end and the
number of bins. -/
noncomputable def binRange (ostart ostop : ℝ) (nsteps j : ℕ) : ℝ × ℝ :=
  (linspace ostart ostop nsteps j, linspace ostart ostop nsteps (j + 1))

/-- `frame_mask` (generate_eta_omega_maps.py:95-102): the bins whose centre is in a frame. -/
noncomputable def frameMask (ws : List (Wedge ℝ)) (ostart ostop : ℝ) (nsteps : ℕ) : List Bool :=
  (List.range nsteps).map fun (j : ℕ) =>
    let r := binRange ostart ostop nsteps j
    (omegaToFrame 360 ((r.1 + r.2) / 2) ws 0 0).isSome

/-- `tmp[frame_mask, :] = full_map` (generate_eta_omega_maps.py:139-143): the rows, in order, at the bins with a frame;
`none` is a row of NaN. -/
def fillRows {α : Type} : List Bool → List α → List (Option α)
  | [], _ => []
  | false :: m, rows => none :: fillRows m rows
  | true :: _, [] => []
  | true :: m, r :: rows => some r :: fillRows m rows

/-- The rows of a map of a series with several wedges (generate_eta_omega_maps.py:68-102, 136-144); `none` is the error of
the assignment when the numbers of bins with frames and of rows differ. -/
noncomputable def expandRows {α : Type} (ws : List (Wedge ℝ)) (rows : List α) : Option (List (Option α)) := do
  let (ostart, _, nsteps) ← wedgeGrid ws
  let wl ← ws.getLast?
  let ostop := Angles.mapInto wl.ostop ostart (ostart + 360)
  let mask := frameMask ws ostart ostop nsteps
  if mask.count true = rows.length then return fillRows mask rows else none

/-- `np.radians` -/
noncomputable def radians (x : ℝ) : ℝ := x * (Real.pi / 180)

/-- `_omegas[j]` (generate_eta_omega_maps.py:148-151): the centre of bin `j`, mapped into the period that
starts with the first edge. -/
noncomputable def omegaCentre (ome : ℕ → ℝ × ℝ) (j : ℕ) : ℝ :=
  Angles.mapInto (radians (((ome j).1 + (ome j).2) / 2)) (radians (ome 0).1) (radians ((ome 0).1 + 360))

/-- `_omeEdges[0]` (generate_eta_omega_maps.py:152-155). -/
noncomputable def omegaEdge0 (ome : ℕ → ℝ × ℝ) : ℝ :=
  Angles.mapInto (radians (ome 0).1) (radians (ome 0).1) (radians ((ome 0).1 + 360))

/-- `_etas[j]` (generate_eta_omega_maps.py:167-168). -/
noncomputable def etaCentre (etaEdge : ℕ → ℝ) (step : ℝ) (j : ℕ) : ℝ := etaEdge j + 1 / 2 * radians step

/-- `ome_c` or `eta_c` (`hexrd/hedm/findorientations.py`:118-119, 140-141) from the first edge, the first two centres and the
coordinate of a spot in pixels. -/
noncomputable def spotAngle (edge0 centre0 centre1 com : ℝ) : ℝ := edge0 + (1 / 2 + com) * (centre1 - centre0)

/-! ## Cleaning and filtering -/

/-- `np.median`; `none` is NaN (empty input). -/
noncomputable def median (l : List ℝ) : Option ℝ :=
  let s := l.insertionSort (· ≤ ·)
  if l.length = 0 then none
  else if l.length % 2 = 1 then s[l.length / 2]?
  else do
    let a ← s[l.length / 2 - 1]?
    let b ← s[l.length / 2]?
    return (a + b) / 2

/-- `clean_map` (`hexrd/hedm/findorientations.py`:74-81), the pixels as a list. -/
noncomputable def cleanMap (m : List (Option ℝ)) : List (Option ℝ) :=
  match median (m.filterMap id) with
  | none => m
  | some med =>
    let a := m.map fun v => v.getD med
    let b := a.map fun v => if v ≤ med then med else v
    match b.min? with
    | none => []
    | some mn => b.map fun v => some (v - mn)

/-- One column (one eta) of `_filter_eta_ome_maps` without the Gauss-Laplace filter (`hexrd/hedm/findorientations.py`:587-594). -/
noncomputable def filterColumn (col : List (Option ℝ)) : List (Option ℝ) :=
  match median (col.filterMap id) with
  | none => col
  | some med => col.map fun v => v.map fun x => x - med

/-- The value of `filter_maps` in the configuration. -/
inductive FilterSpec
  | null
  | bool (b : Bool)
  | num (x : ℝ)

/-- `const.fwhm_to_sigma` (constants.py:62-63). -/
noncomputable def fwhmToSigma : ℝ := 1 / (2 * √(2 * Real.log 2))

/-- `filter_maps_if_requested` (`hexrd/hedm/findorientations.py`:431-445) and the rest of `_filter_eta_ome_maps` (596-603): `logf` is the Gauss-Laplace
filter of a map with a given standard deviation. A map is a list of columns. -/
noncomputable def filterIfRequested (logf : ℝ → List (List (Option ℝ)) → List (List (Option ℝ))) (spec : FilterSpec)
    (cols : List (List (Option ℝ))) : List (List (Option ℝ)) :=
  open Classical in
  match spec with
  | .null => cols
  | .bool false => cols
  | .bool true => cols.map filterColumn
  | .num x => if x = 0 then cols else logf (fwhmToSigma * x) (cols.map filterColumn)

/-- `load_eta_ome_maps` (`hexrd/hedm/findorientations.py`:403-428): `file` is what the file of maps holds (`none` if it cannot be read),
`generated` is the result of `generate_eta_ome_maps`. -/
def loadMaps {M : Type} (filt : M → M) (clean : Bool) (file : Option M) (generated : M) : M :=
  if clean then generated else filt (file.getD generated)

/-! ## The reflections of the maps -/

/-- A list of reflections: numbers, or triples of indices. -/
inductive HklArg
  | ids (l : List ℤ)
  | vecs (l : List (ℤ × ℤ × ℤ))
deriving DecidableEq

/-- `plane_data.getHKLID(list, master=True)` (crystallography.py:1507-1540); `none` is the error for a reflection that the
material does not have. -/
def toIds (lookup : ℤ × ℤ × ℤ → Option ℤ) : HklArg → Option (List ℤ)
  | .ids l => some l
  | .vecs l => l.mapM lookup

/-- `len(hkls) > 0` -/
def HklArg.nonempty : HklArg → Bool
  | .ids l => !l.isEmpty
  | .vecs l => !l.isEmpty

/-- The choice of reflections in `generate_eta_ome_maps` (`hexrd/hedm/findorientations.py`:482-532) for an argument `hkls` that is a
list or absent and a setting `active_hkls` (absent for `'all'`); `active` are the identifiers of the reflections that are
not excluded. `none` is an error. -/
def selectHkls (lookup : ℤ × ℤ × ℤ → Option ℤ) (active : List ℤ) (hkls setting : Option HklArg) : Option (List ℤ) :=
  let given : Option HklArg := match hkls with
    | some h => if h.nonempty then some h else setting
    | none => setting
  match given with
  | none => some active
  | some h => do
    let l ← toIds lookup h
    if l.dedup.length = l.length then
      if l.all fun i => decide (i ∈ active) then return l else none
    else none

end Hexrd.EtaOme
