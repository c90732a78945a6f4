import Verif.Model.Profiler

/-! # What a dotted name of the profiler's file refers to -/
namespace Hexrd.Profiler.Spec

/-- `o` is reached from `m` by the attributes `l`. -/
inductive Reaches {O : Type} (w : World O) : O → List String → O → Prop
  | here (m : O) : Reaches w m [] m
  | step {m m' o : O} {a : String} {l : List String} (h : w.attr m a = some m') (r : Reaches w m' l o) : Reaches w m (a :: l) o

/-- The first `k` of the parts of the path are a module, as are all shorter prefixes, and one part more is not. -/
def Longest {O : Type} (w : World O) (path : List String) (k : ℕ) (m : O) : Prop :=
  1 ≤ k ∧ k ≤ path.length ∧ (∀ j, 1 ≤ j → j ≤ k → (w.imp (path.take j)).isSome) ∧ w.imp (path.take k) = some m ∧
    (k < path.length → w.imp (path.take (k + 1)) = none)

/-- The function `fn` on the path `path` is an attribute of `o`. -/
def Names {O : Type} (w : World O) (path : List String) (fn : String) (o : O) : Prop :=
  ∃ k m, Longest w path k m ∧ Reaches w m (path.drop k) o ∧ (w.attr o fn).isSome

end Hexrd.Profiler.Spec
