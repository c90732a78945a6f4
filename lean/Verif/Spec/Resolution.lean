import Verif.Model.Resolution
import Verif.Spec.EtaOme

/-! # The extreme values of the pixels of all detectors -/
namespace Hexrd.Resolution.Spec

/-- `m` is the smallest of the values on all detectors. -/
def IsLeast (panels : List (List ℝ)) (m : ℝ) : Prop := (∃ p ∈ panels, m ∈ p) ∧ ∀ p ∈ panels, ∀ x ∈ p, m ≤ x

/-- `m` is the largest of the values on all detectors. -/
def IsGreatest (panels : List (List ℝ)) (m : ℝ) : Prop := (∃ p ∈ panels, m ∈ p) ∧ ∀ p ∈ panels, ∀ x ∈ p, x ≤ m

/-- There are detectors, and all of them have pixels. -/
def Proper {α : Type} (panels : List (List α)) : Prop := panels ≠ [] ∧ ∀ p ∈ panels, p ≠ []

end Hexrd.Resolution.Spec
