import Verif.Model.Aliases

/-! What the old names of modules should stand for (C161). -/

namespace Hexrd.Aliases.Spec

/-- The new paths that the table gives for an old one, in order. -/
def newPaths (lines : List (File × File)) (old : File) : List File := (lines.filter fun l => l.1 = old).map Prod.snd

/-- The members of a list, each where it first appears. -/
def firsts {α : Type} [DecidableEq α] : List α → List α
  | [] => []
  | a :: l => a :: (firsts l).filter (· ≠ a)

/-- The old paths of the modules at or below a name, in the order of the table. -/
def below (lines : List (File × File)) (name : List Name) : List File :=
  (firsts (lines.map Prod.fst)).filter fun f => relevant f && (toModule f).any fun o => decide (name <+: o)

/-- A path lies in a directory `core`, or is called that. -/
def InCore (f : File) : Prop := "core" ∈ parts f

/-- The path to be chosen: the first one in `core`; the first one if none is. -/
def Chosen (l : List File) (f : File) : Prop :=
  (∃ pre post, l = pre ++ f :: post ∧ InCore f ∧ ∀ g ∈ pre, ¬ InCore g) ∨ ((∀ g ∈ l, ¬ InCore g) ∧ ∃ post, l = f :: post)

/-- What a name means in a list of modules: the value in the first one that has it. -/
def firstOf {V : Type} (l : List (List (Name × V))) (k : Name) : Option V := l.findSome? fun ns => get ns k

/-- The names a module takes from another one: all but those by which Python tells modules apart. -/
def visible {V : Type} (ns : List (Name × V)) : List (Name × V) :=
  ns.filter fun e => ¬ (e.1 = "__name__" ∨ e.1 = "__file__" ∨ e.1 = "__package__" ∨ e.1 = "__path__" ∨ e.1 = "__loader__" ∨ e.1 = "__spec__")

end Hexrd.Aliases.Spec
