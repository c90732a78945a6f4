import Verif.Model.NfKernels

/-!
# When the near-field version of the projection should agree with the general one

The spot is on the detector's plane where the diffracted ray meets it. `normal` is the normal of the detector, `gap` is how far its plane
is from the point where the ray starts, along the normal.
-/
namespace Hexrd.NfKernels.Spec
open Hexrd.Transforms

/-- The normal of the detector. -/
def normal (rd : M) : V := fun i => rd i 2

/-- Distance of the plane of the detector from the grain, along the normal. -/
def gap (rd rs : M) (td ts tc : V) : ℝ := dot (normal rd) fun i => td i - (ts i + mulV rs tc i)

/-- The direction of the diffracted ray for the unit scattering vector `v` in the laboratory and the beam along `-z`: the beam minus
twice its component along `v`. -/
def ray (v : V) : V := ![2 * v 2 * v 0, 2 * v 2 * v 1, 2 * v 2 * v 2 - 1]

/-- The scattering vector of `g` in the laboratory. -/
def lab (rs rc : M) (g : V) : V := mulV rs (mulV rc g)

end Hexrd.NfKernels.Spec
