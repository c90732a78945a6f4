import Verif.Model.Pinhole

/-! Straight rays. Only the data types are those of the model. -/

namespace Hexrd.Pinhole.Spec

def add (a b : Vec) : Vec := ⟨a.x + b.x, a.y + b.y, a.z + b.z⟩
def sub (a b : Vec) : Vec := ⟨a.x - b.x, a.y - b.y, a.z - b.z⟩
def smul (k : ℝ) (a : Vec) : Vec := ⟨k * a.x, k * a.y, k * a.z⟩
def inner (a b : Vec) : ℝ := a.x * b.x + a.y * b.y + a.z * b.z
noncomputable def length (a : Vec) : ℝ := Real.sqrt (inner a a)

/-- The angle between two vectors. -/
noncomputable def angle (a b : Vec) : ℝ := Real.arccos (inner a b / (length a * length b))

/-- The scattering angle at `p` of a ray from `s` that is scattered to `q`. -/
noncomputable def scattering (s p q : Vec) : ℝ := angle (sub p s) (sub q p)

/-- The point is within a circle about the axis. -/
def InDisc (radius : ℝ) (p : Vec) : Prop := p.x ^ 2 + p.y ^ 2 ≤ radius ^ 2

/-- Some straight ray with the direction `d` passes through both openings of the pinhole. -/
def GoesThrough (radius thickness : ℝ) (d : Vec) : Prop :=
  ∃ (p : Vec) (t : ℝ), InDisc radius p ∧ InDisc radius (add p (smul t d)) ∧ |(add p (smul t d)).z - p.z| = thickness

/-- The point at distance `r` from the centre of the pinhole, with zenith angle `a` from the axis that points to the detector and
azimuth `f`. -/
noncomputable def polar (r a f : ℝ) : Vec := ⟨r * (Real.sin a * Real.cos f), r * (Real.sin a * Real.sin f), r * Real.cos a⟩

/-- The source: its zenith angle is from the other end of the axis. -/
noncomputable def source (c : Camera) : Vec := polar c.rx (Real.pi - c.alpha) c.phix

/-- The detector point. -/
noncomputable def detector (c : Camera) : Vec := polar c.rd c.beta c.phid

/-- The place of an element on the wall. -/
noncomputable def place (c : Camera) (e : Element) : Vec := ⟨c.d / 2 * Real.cos e.phi, c.d / 2 * Real.sin e.phi, e.z⟩

/-- Going from `p` in the direction `u` one stays strictly inside the bore until the height `top`. -/
def Clear (radius : ℝ) (p u : Vec) (top : ℝ) : Prop :=
  ∀ t > 0, (add p (smul t u)).z ≤ top → (add p (smul t u)).x ^ 2 + (add p (smul t u)).y ^ 2 < radius ^ 2

/-- The same down to the height `bottom`. -/
def ClearDown (radius : ℝ) (p u : Vec) (bottom : ℝ) : Prop :=
  ∀ t > 0, bottom ≤ (add p (smul t u)).z → (add p (smul t u)).x ^ 2 + (add p (smul t u)).y ^ 2 < radius ^ 2

/-- A camera with the source on one side and the detector on the other, neither on the axis. -/
structure Valid (c : Camera) : Prop where
  h : 0 < c.h
  d : 0 < c.d
  mu : 0 < c.mu
  rx : 0 < c.rx
  rd : 0 < c.rd
  a0 : 0 < c.alpha
  a1 : c.alpha < Real.pi / 2
  b0 : 0 < c.beta
  b1 : c.beta < Real.pi / 2
  x : c.h / 2 < c.rx * Real.cos c.alpha
  y : c.h / 2 < c.rd * Real.cos c.beta

/-- A place of the grid: between the faces, or on the face for an edge. -/
def OnWall (c : Camera) (e : Element) : Prop :=
  match e.kind with
  | .surface => -c.h / 2 < e.z ∧ e.z < c.h / 2
  | .xEdge => e.z = -c.h / 2
  | .dEdge => e.z = c.h / 2

/-- The length across the axis. -/
noncomputable def across (v : Vec) : ℝ := Real.sqrt (v.x ^ 2 + v.y ^ 2)

/-- The frame of the pinhole in the laboratory for the reference direction `s x`, with `s` 1 or -1: the axis is `-z`. -/
def frame (s : ℝ) (p : Vec) : Vec := ⟨s * p.x, -s * p.y, -p.z⟩

end Hexrd.Pinhole.Spec
