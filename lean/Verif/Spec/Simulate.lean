import Verif.Spec.Transforms

/-!
Specification of a simulated rotation series, independent of the model: kinematic diffraction by a strained crystal
that is turned through the beam, and the point where the scattered ray meets a flat detector.
-/

namespace Hexrd.Simulate.Spec

open Matrix Hexrd.Transforms.Spec

/-- The reciprocal lattice vector of a reflection of a strained grain, in the sample frame: `rc` orients the
crystal, `bmat` turns indices into unstrained reciprocal lattice vectors, and the strain is given by the six
components of the inverse left stretch tensor. -/
noncomputable def scattering (vInv : Fin 6 → ℝ) (rc bmat : Matrix (Fin 3) (Fin 3) ℝ) (hkl : Fin 3 → ℝ) : Fin 3 → ℝ :=
  tensorOf vInv *ᵥ (rc *ᵥ (bmat *ᵥ hkl))

/-- The rotation of the sample stage tilted by `chi` and turned by `ome`. -/
noncomputable def stage (chi ome : ℝ) : Matrix (Fin 3) (Fin 3) ℝ := rotX chi * rotY ome

/-- The scattered wave: unit beam `b` plus wavelength times the turned reciprocal lattice vector. -/
noncomputable def scattered (b s : Fin 3 → ℝ) (lam chi ome : ℝ) : Fin 3 → ℝ := b + lam • (stage chi ome *ᵥ s)

/-- A diffraction spot.  At the stage angle `ome` the reflection diffracts; `tth` and `eta` are the polar and the
azimuthal angle of the scattered ray in the beam frame `frame`; and the ray that leaves the grain, at `tc` on the
stage at `ts`, meets the detector at `xy`. -/
structure Spot (rd : Matrix (Fin 3) (Fin 3) ℝ) (td : Fin 3 → ℝ) (frame : Matrix (Fin 3) (Fin 3) ℝ)
    (b ts tc s : Fin 3 → ℝ) (lam chi tth eta ome : ℝ) (xy : ℝ × ℝ) : Prop where
  diffracts : Diffracts (stage chi ome) b s lam
  direction : scattered b s lam chi ome =
    frame *ᵥ ![Real.sin tth * Real.cos eta, Real.sin tth * Real.sin eta, -Real.cos tth]
  hits : Hits rd td (ts + stage chi ome *ᵥ tc) (scattered b s lam chi ome) xy

/-- The angle lies in one of the ranges, within `tol`; a range runs counter-clockwise from its first to its second
number when these increase, and clockwise when they decrease. -/
def InDirected (tol : ℝ) (ranges : List (ℝ × ℝ)) (ang : ℝ) : Prop :=
  ∃ r ∈ ranges, Between tol (decide (r.1 ≤ r.2)) r.1 r.2 ang

/-- The angle lies in one of the ranges, within `tol`, all of them taken counter-clockwise. -/
def InCcw (tol : ℝ) (ranges : List (ℝ × ℝ)) (ang : ℝ) : Prop := ∃ r ∈ ranges, Between tol true r.1 r.2 ang

/-- The wavelength in Å of photons of energy `e` in keV, and back. -/
def SamePhoton (c e lam : ℝ) : Prop := e * lam = c

end Hexrd.Simulate.Spec
