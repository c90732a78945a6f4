import Verif.Model.PullSpots
import Mathlib.Logic.Relation

/-!
What a spot in a patch is, independently of how it is found.
-/

namespace Hexrd.PullSpots

/-- Two places touch if each of their numbers differ by at most one. -/
def Touch (u v : Voxel) : Prop :=
  (u.1 ≤ v.1 + 1 ∧ v.1 ≤ u.1 + 1) ∧ (u.2.1 ≤ v.2.1 + 1 ∧ v.2.1 ≤ u.2.1 + 1) ∧ (u.2.2 ≤ v.2.2 + 1 ∧ v.2.2 ≤ u.2.2 + 1)

/-- The place belongs to the patch and its value is above the threshold. -/
def Lit (p : Patch) (data : Voxel → ℝ) (threshold : ℝ) (v : Voxel) : Prop :=
  (v.1 < p.frames.length ∧ v.2.1 < p.rows ∧ v.2.2 < p.cols) ∧ threshold < data v

/-- Linked by a path of touching members. -/
def Linked (S : Voxel → Prop) : Voxel → Voxel → Prop := Relation.ReflTransGen fun u v => S u ∧ S v ∧ Touch u v

/-- A spot: a connected set of lit places to which no further lit place can be joined. -/
structure IsSpot (S : Voxel → Prop) (r : List Voxel) : Prop where
  nonempty : r ≠ []
  once : r.Nodup
  lit : ∀ v ∈ r, S v
  connected : ∀ u ∈ r, ∀ v ∈ r, Linked S u v
  full : ∀ u ∈ r, ∀ v, S v → Touch u v → v ∈ r

/-- The contract of `ndimage.label` with the full structure: it lists the spots, each lit place being in one. -/
def Labels (label : List Voxel → List (List Voxel)) : Prop :=
  ∀ S : List Voxel, (∀ r ∈ label S, IsSpot (· ∈ S) r) ∧ ∀ v ∈ S, ∃ r ∈ label S, v ∈ r

/-- `m` is the mean of `f` over the places, weighted with their values. -/
def IsMean (data : Voxel → ℝ) (r : List Voxel) (f : Voxel → ℝ) (m : ℝ) : Prop :=
  0 < (r.map data).sum ∧ m * (r.map data).sum = (r.map fun v => data v * f v).sum

/-- The 2 theta, eta and omega (in radians) of the middle of a place in the patch. -/
noncomputable def tthOf (p : Patch) (v : Voxel) : ℝ := p.tth0 + (v.2.2 + 1 / 2) * p.dtth
noncomputable def etaOf (p : Patch) (v : Voxel) : ℝ := p.eta0 + (v.2.1 + 1 / 2) * p.deta
noncomputable def omeOf (p : Patch) (domega : ℝ) (v : Voxel) : ℝ := (p.ome0 + (v.1 + 1 / 2) * domega) * (Real.pi / 180)

end Hexrd.PullSpots
