import Verif.Model.FrameMemo

/-! # Specification for C175 -/
namespace Hexrd.FrameMemo.Spec

variable {P R H C : Type} [DecidableEq P]

/-- What a file holds after a history of events, with its time: what was last saved, unless it was removed since. -/
def fileAfter (p : P) : List (Event P R H C) → Option (C × ℕ) :=
  List.foldl (fun f e => match e with
    | .save q t c => if q = p then some (c, t) else f
    | .remove q => if q = p then none else f
    | _ => f) none

/-- The clock is positive, and a file that is saved again has another time or another size than at every earlier save. -/
def Ticks (size : C → ℕ) (es : List (Event P R H C)) : Prop :=
  ∀ a p t c b, es = a ++ .save p t c :: b → 0 < t ∧ ∀ t' c', Event.save p t' c' ∈ a → t' ≠ t ∨ size c' ≠ size c

/-- No event of this reader. -/
def Quiet (r : R) (es : List (Event P R H C)) : Prop := ∀ e ∈ es, (∀ p h, e ≠ .stat r p h) ∧ e ≠ .load r

end Hexrd.FrameMemo.Spec
