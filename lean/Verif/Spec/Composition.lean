import Verif.Model.Composition

/-!
# Specification: chemical composition
-/

namespace Hexrd.Composition.Spec

/-- A mean over the atoms of a formula. -/
noncomputable def mean {ε : Type} (g : ε → ℝ) (f : List (ε × ℝ)) : ℝ := (f.map fun e => e.2 * g e.1).sum / (f.map Prod.snd).sum

/-- The coherent scattering factor as tabulated (Waasmaier and Kirfel): Gaussians in sin(theta)/lambda = q / (4 pi). -/
noncomputable def waasmaier (amp rate : Fin 5 → ℝ) (const q : ℝ) : ℝ := const + ∑ j, amp j * Real.exp (-rate j * (q / (4 * Real.pi)) ^ 2)

/-- A composition: abundances that are not negative, not all zero. -/
def Ok {ε : Type} (f : List (ε × ℝ)) : Prop := (∀ e ∈ f, 0 ≤ e.2) ∧ 0 < (f.map Prod.snd).sum

end Hexrd.Composition.Spec
