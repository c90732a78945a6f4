import Verif.Model.Omega
/-! # Specification for omega lookup -/
namespace Hexrd.Omega
variable {K : Type} [Field K] [LinearOrder K]

/-- The `j`-th of the `nsteps` equal half-open sub-ranges of wedge `w` contains `x`. -/
def InStep (w : Wedge K) (j : Nat) (x : K) : Prop :=
  w.ostart + (j : K) * ((w.ostop - w.ostart) / (w.nsteps : K)) ≤ x ∧
  x < w.ostart + ((j : K) + 1) * ((w.ostop - w.ostart) / (w.nsteps : K))

/-- Wedge `w` contains the angle `om` modulo `tau`. -/
def Contains (tau : K) (w : Wedge K) (om : K) : Prop :=
  ∃ m : Int, w.ostart ≤ om - tau * m ∧ om - tau * m < w.ostop

end Hexrd.Omega
