import Verif.Model.FitGrains

/-!
What the refinement of grains should do, in terms of the spots of a search.
-/

namespace Hexrd.FitGrains

variable {κ P T : Type}

/-- The number of predicted reflections of a search. -/
def predicted (results : List (κ × List Refl)) : ℕ := (results.flatMap Prod.snd).length

/-- The number of reflections found: those with a number that is not negative. -/
def foundCount (results : List (κ × List Refl)) : ℕ := (results.flatMap Prod.snd).countP fun r => decide (0 ≤ r.id)

/-- A spot can be used if it was found and is not saturated. -/
def Usable (saturation : Option ℝ) (r : Refl) : Prop := 0 ≤ r.id ∧ ∀ level, saturation = some level → r.maxInt < level

open Classical in
/-- The usable spots of a search, panel by panel. -/
noncomputable def usableSpots (saturation : κ → Option ℝ) (results : List (κ × List Refl)) : List (κ × List Refl) :=
  results.map fun kr => (kr.1, kr.2.filter fun r => decide (Usable (saturation kr.1) r))

/-- Rounds of search and fit: with each tolerance in turn the spots are searched with the present parameters, more than
twelve are found, and the parameters are fitted to the usable ones. -/
inductive Rounds (e : Env κ P T) : P → List T → P → Prop
  | done (p : P) : Rounds e p [] p
  | next {p q : P} {t : T} {ts : List T} : 12 < foundCount (e.pull p t) →
      Rounds e (e.fit p (usableSpots e.saturation (e.pull p t))) ts q → Rounds e p (t :: ts) q

end Hexrd.FitGrains
