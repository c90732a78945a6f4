import Verif.Model.InstrFile

/-! What a file keeps of an instrument (C158). -/

namespace Hexrd.InstrFile.Spec

open Hexrd.Transforms

/-- What a file keeps of a beam: everything, the distance as a number. -/
structure SameBeam (b b' : Beam) : Prop where
  energy : b'.energy = b.energy
  vector : b'.vector = b.vector
  distance : b'.distance.value = b.distance.value
  correction : b'.correction = b.correction

/-- What a file keeps of a detector: of the region of interest where it starts, of the buffer everything but a mask in YAML. -/
structure SamePanel (s : Style) (p q : Panel) : Prop where
  kind : q.kind = p.kind
  tilt : q.tilt = p.tilt
  tvec : q.tvec = p.tvec
  rows : q.rows = p.rows
  cols : q.cols = p.cols
  size : q.size = p.size
  roi : q.roi.map (fun r => (r.1.1, r.2.1)) = p.roi.map fun r => (r.1.1, r.2.1)
  group : q.group = p.group
  distortion : q.distortion = p.distortion
  saturation : q.saturation = p.saturation
  buffer : (s = .hdf5 ∨ ∀ r c d, p.buffer ≠ .mask r c d) → q.buffer = p.buffer
  mask : ∀ r c d, s = .yaml → p.buffer = .mask r c d → q.buffer = .vec [0, 0]

/-- Detectors that can be written: with a saturation level, without the identity as distortion, with a buffer of the right size. -/
structure WritablePanel (p : Panel) : Prop where
  saturation : p.saturation ≠ none
  distortion : ∀ d, p.distortion = some d →
    (d.name = "GE_41RT" ∨ d.name = "Dexela_2923" ∨ d.name = "Dexela_2923_quad") ∧
      ∃ ps, d.params = some ps ∧ (d.name = "Dexela_2923_quad" → ps.length = 6)
  vec : ∀ v, p.buffer = .vec v → v.length = 2
  mask : ∀ r c d, p.buffer = .mask r c d → r = p.rows ∧ c = p.cols

/-- Instruments that can be written. -/
structure Writable (i : Instr) : Prop where
  beams : i.beams ≠ []
  reserved : i.beams.length = 1 ∨ ¬ ("energy" ∈ i.beams.map Prod.fst ∧ "vector" ∈ i.beams.map Prod.fst)
  unit : ∀ e ∈ i.beams, dot e.2.vector e.2.vector = 1
  panels : ∀ e ∈ i.panels, WritablePanel e.2

/-- Two dictionaries with related values, the second in alphabetical order. -/
def SortedCopy {α β : Type} (r : α → β → Prop) (a : List (String × α)) (b : List (String × β)) : Prop :=
  ∃ l, l.Perm a ∧ l.Pairwise (fun x y => x.1 ≤ y.1) ∧ List.Forall₂ (fun x y => y.1 = x.1 ∧ r x.2 y.2) l b

/-- Every detector has the direction and distance of the source of the active beam. -/
def Follow (i : Instr) : Prop :=
  ∃ b, i.beams.lookup i.active = some b ∧ ∀ e ∈ i.panels, e.2.bvec = b.vector ∧ e.2.dist = b.distance

/-- A number of Python. -/
def Native : Dist → Prop
  | .foreign _ => False
  | _ => True

/-- All beams have a direction of about unit length and a distance that is a number of Python. -/
def Sound (i : Instr) : Prop := ∀ e ∈ i.beams, 1 - sqrtEps ≤ dot e.2.vector e.2.vector ∧ Native e.2.distance

end Hexrd.InstrFile.Spec
