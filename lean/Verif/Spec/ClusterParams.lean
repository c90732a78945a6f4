import Verif.Model.ClusterParams

/-! # Specification for C180 -/
namespace Hexrd.ClusterParams.Spec

/-- All reflections of a grain, on all detectors. -/
def all (panels : List Panel) (i : ℕ) : List ℕ := panels.flatMap fun p => p.getD i []

/-- Those of the families of the seeds. -/
def seeded (seeds : List ℕ) (panels : List Panel) (i : ℕ) : List ℕ := (all panels i).filter fun r => decide (r ∈ seeds)

end Hexrd.ClusterParams.Spec
