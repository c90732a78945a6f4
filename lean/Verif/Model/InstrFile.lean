import Verif.Model.Calib
import Mathlib.Data.String.Basic

/-! Model of the instrument as an object that is read from and written to a configuration, and of its beams: `HEDMInstrument` in
/repo/hexrd/core/instrument/hedm_instrument.py and `config_dict` in /repo/hexrd/core/instrument/detector.py. -/

namespace Hexrd.InstrFile

open Hexrd.Transforms

/-! ### Values -/

/-- A source distance: infinite, a Python float, a Python int, or a number of another type such as numpy's int64. -/
inductive Dist
  | inf
  | float (x : ℝ)
  | int (x : ℤ)
  | foreign (x : ℝ)

/-- The value of a distance, `none` for infinity. -/
noncomputable def Dist.value : Dist → Option ℝ
  | .inf => none
  | .float x => some x
  | .int x => some x
  | .foreign x => some x

/-- A dictionary with an energy correction (hedm_instrument.py:911-926); the order of the entries is not looked at, and the axis is
coded by a number. -/
abbrev Correction := List (String × ℝ)

/-- A beam (hedm_instrument.py:589-597). -/
structure Beam where
  energy : ℝ
  vector : V
  distance : Dist
  correction : Option Correction

/-- A distortion object: its name in the registry and its parameters; `none` for classes that keep none
(core/distortion/identity.py:12-15). -/
structure Distortion where
  name : String
  params : Option (List ℝ)

/-- A panel buffer: `None`, the name of a known one, a 1-dimensional array, or a mask with its shape. -/
inductive Buffer
  | none
  | known (s : String)
  | vec (v : List ℝ)
  | mask (rows cols : ℤ) (data : List Bool)

/-- The form of a detector. -/
inductive Kind
  | planar
  | cylindrical (radius : ℝ)

/-- A filter, coating or phosphor: the default or another object. -/
inductive Layer
  | default
  | given (n : ℕ)
  deriving DecidableEq

/-- A detector (detector.py:278-325). -/
structure Panel where
  kind : Kind
  tilt : V
  tvec : V
  rows : ℤ
  cols : ℤ
  size : ℝ × ℝ
  roi : Option ((ℤ × ℤ) × ℤ × ℤ)
  group : Option String
  distortion : Option Distortion
  saturation : Option ℝ
  buffer : Buffer
  filter : Layer
  coating : Layer
  phosphor : Layer
  bvec : V
  dist : Dist
  evec : V

/-- The instrument; dictionaries are lists in the order of insertion. -/
structure Instr where
  id : String
  beams : List (String × Beam)
  active : String
  chi : ℝ
  tvec : V
  eta : V
  panels : List (String × Panel)

/-! ### The configuration -/

/-- One beam in a configuration; `none` for keys that are absent. -/
structure BeamCfg where
  energy : ℝ
  azimuth : ℝ
  polar : ℝ
  distance : Option Dist
  correction : Option Correction

/-- The entry `beam`. -/
inductive BeamsCfg
  | single (b : BeamCfg)
  | multi (l : List (String × BeamCfg))

/-- The entry `buffer` of a detector; lists of lists are left out. -/
inductive BufferCfg
  | none
  | scalar (x : ℝ)
  | list (v : List ℝ)
  | known (s : String)
  | array (v : List ℝ)
  | mask (rows cols : ℤ) (data : List Bool)

/-- The entry of a detector; `none` for keys that are absent, `some none` for a saturation level of `None`. -/
structure PanelCfg where
  kind : Option String
  tilt : V
  translation : V
  rows : ℤ
  cols : ℤ
  size : ℝ × ℝ
  roi : Option (ℤ × ℤ)
  group : Option String
  distortion : Option (String × List ℝ)
  saturation : Option (Option ℝ)
  buffer : BufferCfg
  radius : Option ℝ
  filter : Option ℕ
  coating : Option ℕ
  phosphor : Option ℕ

/-- A configuration. -/
structure Cfg where
  id : Option String
  beam : BeamsCfg
  chi : ℝ
  translation : V
  detectors : List (String × PanelCfg)

/-! ### Reading -/

/-- Assignment to a key of a dictionary. -/
def put {α : Type} (k : String) (v : α) : List (String × α) → List (String × α)
  | [] => [(k, v)]
  | e :: l => if e.1 = k then (k, v) :: l else e :: put k v l

/-- The name and the values of the default beam (hedm_instrument.py:824-834, detector.py:61, core/constants.py:91-92). -/
noncomputable def defaultName : String := "XRS1"

noncomputable def defaultBeam : Beam := ⟨65351 / 1000, ![0, 0, -1], .inf, none⟩

/-- A beam from its entry (hedm_instrument.py:589-597, 601-609). -/
noncomputable def makeBeam (b : BeamCfg) : Beam :=
  ⟨b.energy, Calib.calcBeamVec b.azimuth b.polar, b.distance.getD .inf, b.correction⟩

/-- The beams and the name of the active one (hedm_instrument.py:585-613); `none` for an exception. -/
noncomputable def readBeams (name : Option String) : BeamsCfg → Option (List (String × Beam) × String)
  | .single b => some (put (name.getD defaultName) (makeBeam b) [(defaultName, defaultBeam)], name.getD defaultName)
  | .multi l =>
    if "energy" ∈ l.map Prod.fst ∧ "vector" ∈ l.map Prod.fst then none
    else match name, l with
      | some n, _ => some (l.map fun e => (e.1, makeBeam e.2), n)
      | none, [] => none
      | none, e :: l => some ((e :: l).map fun e => (e.1, makeBeam e.2), e.1)

/-- The buffer (hedm_instrument.py:630-658) for a detector with the given numbers of rows and columns. -/
def readBuffer (rows cols : ℤ) : BufferCfg → Option Buffer
  | .none => some .none
  | .scalar x => some (.vec [x, x])
  | .list v => some (.vec v)
  | .known s => some (.known s)
  | .array v => if v.length = 2 then some (.vec v) else none
  | .mask r c d => if r = rows ∧ c = cols then some (.mask r c d) else none

/-- `get_mapping` (core/distortion/__init__.py:38-59) for the registered classes; `nyi` cannot be instantiated. -/
def getMapping (name : String) (ps : List ℝ) : Option Distortion :=
  if name = "identity" then some ⟨name, none⟩
  else if name = "GE_41RT" ∨ name = "Dexela_2923" then some ⟨name, some ps⟩
  else if name = "Dexela_2923_quad" then if ps.length = 6 then some ⟨name, some ps⟩ else none
  else none

/-- The distortion (hedm_instrument.py:663-673). -/
def readDistortion : Option (String × List ℝ) → Option (Option Distortion)
  | none => some none
  | some (n, ps) => (getMapping n ps).map some

/-- The class (hedm_instrument.py:674-678, 700-702); names in other cases are left out. -/
noncomputable def readKind (kind : Option String) (radius : Option ℝ) : Option Kind :=
  if kind.getD "planar" = "planar" then some .planar
  else if kind.getD "planar" = "cylindrical" then some (.cylindrical (radius.getD (4951 / 100)))
  else none

/-- A filter, coating or phosphor (detector.py:315-325). -/
def readLayer : Option ℕ → Layer
  | none => .default
  | some n => .given n

/-- A detector (hedm_instrument.py:616-704, detector.py:278-325) with the given beam and reference direction. -/
noncomputable def readPanel (b : Beam) (eta : V) (c : PanelCfg) : Option Panel := do
  let buffer ← readBuffer c.rows c.cols c.buffer
  let distortion ← readDistortion c.distortion
  let kind ← readKind c.kind c.radius
  some
    { kind, tilt := c.tilt, tvec := c.translation, rows := c.rows, cols := c.cols, size := c.size
      roi := c.roi.map fun r => ((r.1, r.1 + c.rows), r.2, r.2 + c.cols)
      group := c.group, distortion, saturation := c.saturation.getD (some (2 ^ 16)), buffer
      filter := readLayer c.filter, coating := readLayer c.coating, phosphor := readLayer c.phosphor
      bvec := b.vector, dist := b.distance, evec := eta }

/-- `HEDMInstrument(cfg, active_beam_name=name)` (hedm_instrument.py:535-708). -/
noncomputable def read (name : Option String) (c : Cfg) : Option Instr := do
  let (beams, active) ← readBeams name c.beam
  let panels ← c.detectors.mapM fun e => do
    let b ← beams.lookup active
    let p ← readPanel b ![1, 0, 0] e.2
    some (e.1, p)
  some ⟨c.id.getD "instrument", beams, active, c.chi, c.translation, ![1, 0, 0], panels⟩

/-! ### Writing -/

/-- The style of the output. -/
inductive Style
  | yaml
  | hdf5
  deriving DecidableEq

/-- The entry of a beam (hedm_instrument.py:983-996). -/
noncomputable def writeBeam (b : Beam) : BeamCfg :=
  ⟨b.energy, (Calib.calcBeamAngles b.vector).1, (Calib.calcBeamAngles b.vector).2,
    match b.distance with | .inf => none | d => some d, b.correction⟩

/-- The entry `beam` (hedm_instrument.py:981-1002). -/
noncomputable def writeBeams (l : List (String × Beam)) : BeamsCfg :=
  match l with
  | [(_, b)] => .single (writeBeam b)
  | l => .multi (l.map fun e => (e.1, writeBeam e.2))

/-- The buffer (detector.py:897-924). -/
def writeBuffer (s : Style) : Buffer → Option BufferCfg
  | .none => some .none
  | .known n => some (.known n)
  | .vec v => if v.length = 2 then some (if s = .yaml then .list v else .array v) else none
  | .mask r c d => some (if s = .yaml then .list [0, 0] else .mask r c d)

/-- The distortion (detector.py:884-890). -/
def writeDistortion : Option Distortion → Option (Option (String × List ℝ))
  | none => some none
  | some d => d.params.map fun ps => some (d.name, ps)

/-- `detector_type` (planar_detector.py:22-24, cylindrical_detector.py:32-34). -/
def Kind.name : Kind → String
  | .planar => "planar"
  | .cylindrical _ => "cylindrical"

/-- `extra_config_kwargs` (detector.py:198-200, cylindrical_detector.py:335-339). -/
def Kind.radius : Kind → Option ℝ
  | .planar => none
  | .cylindrical r => some r

/-- `config_dict` (detector.py:801-926), the entry of the detector; `none` for an exception. -/
def writePanel (s : Style) (p : Panel) : Option PanelCfg := do
  let distortion ← writeDistortion p.distortion
  let saturation ← p.saturation
  let buffer ← writeBuffer s p.buffer
  some
    { kind := some p.kind.name
      tilt := p.tilt, translation := p.tvec, rows := p.rows, cols := p.cols, size := p.size
      roi := p.roi.map fun r => (r.1.1, r.2.1)
      group := p.group, distortion, saturation := some (some saturation), buffer
      radius := p.kind.radius
      filter := none, coating := none, phosphor := none }

/-- `write_config` (hedm_instrument.py:971-1023): the dictionary. -/
noncomputable def write (s : Style) (i : Instr) : Option Cfg := do
  let dets ← i.panels.mapM fun e => do
    let p ← writePanel s e.2
    some (e.1, p)
  some ⟨some i.id, writeBeams i.beams, i.chi, i.tvec, dets⟩

/-- A distance that went through a file: YAML has the numbers of Python, HDF5 those of numpy, whose float64 is a Python float. -/
def Dist.stored (s : Style) : Dist → Dist
  | .inf => .inf
  | .float x => .float x
  | .int x => if s = .yaml then .int x else .foreign x
  | .foreign x => if s = .yaml then .float x else .foreign x

/-- Both files have the keys of a dictionary in alphabetical order. -/
def byName {α : Type} (l : List (String × α)) : List (String × α) := l.mergeSort fun a b => decide (a.1 ≤ b.1)

/-- The entry of a beam that went through a file. -/
def storedBeam (s : Style) (b : BeamCfg) : BeamCfg := { b with distance := b.distance.map (Dist.stored s) }

/-- The beams that went through a file. -/
def storedBeams (s : Style) : BeamsCfg → BeamsCfg
  | .single b => .single (storedBeam s b)
  | .multi l => .multi (byName (l.map fun e => (e.1, storedBeam s e.2)))

/-- What is read from the file (hedm_instrument.py:1025-1043, core/utils/hdf5.py:6-89). -/
def stored (s : Style) (c : Cfg) : Cfg := { c with beam := storedBeams s c.beam, detectors := byName c.detectors }

/-- The instrument after `write_config` with a file: the dictionaries are taken apart as they are written to HDF5
(core/utils/hdf5.py:25-29), among them the corrections of the instrument (hedm_instrument.py:995-996). -/
def afterWrite (s : Style) (i : Instr) : Instr :=
  if s = .hdf5 then { i with beams := i.beams.map fun e => (e.1, { e.2 with correction := e.2.correction.map fun _ => [] }) } else i

/-! ### Beams of an instrument in use -/

/-- `np.finfo(float).eps` and its root (core/constants.py:66-68). -/
noncomputable def eps : ℝ := 1 / 2 ^ 52

noncomputable def sqrtEps : ℝ := 1 / 2 ^ 26

open Classical in
/-- `_update_panel_beams` (hedm_instrument.py:869-874) with the setters of the panels (detector.py:504-520); `false` for an exception,
with what was done before it. -/
noncomputable def updatePanels (b : Beam) : List (String × Panel) → List (String × Panel) × Bool
  | [] => ([], true)
  | (n, p) :: l =>
    if dot b.vector b.vector < 1 - sqrtEps then ((n, p) :: l, false)
    else match b.distance with
      | .foreign _ => ((n, { p with bvec := b.vector }) :: l, false)
      | d => ((n, { p with bvec := b.vector, dist := d }) :: (updatePanels b l).1, (updatePanels b l).2)

/-- Change the active beam and take it over. -/
noncomputable def changeBeam (f : Beam → Beam) (i : Instr) : Instr × Bool :=
  match i.beams.lookup i.active with
  | none => (i, false)
  | some b =>
    ({ i with beams := put i.active (f b) i.beams, panels := (updatePanels (f b) i.panels).1 }, (updatePanels (f b) i.panels).2)

/-- The setters (hedm_instrument.py:807-810, 850-858, 880-897, 903-907, 929-940). -/
inductive Op
  | energy (x : ℝ)
  | active (n : String)
  | angles (azim pola : ℝ)
  | vector (v : V)
  | distance (d : Dist)
  | correction (c : Option Correction)

/-- `active_beam_name` (hedm_instrument.py:850-858). -/
noncomputable def setActive (n : String) (i : Instr) : Instr × Bool :=
  match i.beams.lookup n with
  | none => (i, false)
  | some b => ({ i with active := n, panels := (updatePanels b i.panels).1 }, (updatePanels b i.panels).2)

open Classical in
/-- One setter; `false` for an exception. -/
noncomputable def run (i : Instr) : Op → Instr × Bool
  | .energy x => changeBeam (fun b => { b with energy := x }) i
  | .active n => setActive n i
  | .angles a p => changeBeam (fun b => { b with vector := Calib.calcBeamVec a p }) i
  | .vector v => if |√(dot v v) - 1| > eps then (i, false) else changeBeam (fun b => { b with vector := v }) i
  | .distance d => changeBeam (fun b => { b with distance := d }) i
  | .correction c =>
    if (∃ l, c = some l ∧ ¬ (l.map Prod.fst).Perm ["axis", "intercept", "slope"]) then (i, false)
    else match i.beams.lookup i.active with
      | none => (i, false)
      | some b => ({ i with beams := put i.active { b with correction := c } i.beams }, true)

/-- Setters one after the other until one raises. -/
noncomputable def runAll : List Op → Instr → Instr × Bool
  | [], i => (i, true)
  | o :: l, i => if (run i o).2 then runAll l (run i o).1 else ((run i o).1, false)

/-- `switch_xray_source` (hedm_instrument.py:2829-2841) around a list of setters. -/
noncomputable def switch (source : Option String) (body : List Op) (i : Instr) : Instr × Bool :=
  match source with
  | none => runAll body i
  | some n =>
    if (setActive n i).2 then
      let r := runAll body (setActive n i).1
      ((setActive i.active r.1).1, r.2 && (setActive i.active r.1).2)
    else ((setActive n i).1, false)

end Hexrd.InstrFile
