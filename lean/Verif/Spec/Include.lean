import Verif.Model.Include
/-!
# What it means for a document with arrays to be kept
-/
namespace Hexrd.Include.Spec
open Hexrd.Include

variable {A : Type}

/-- In the document there is the array `a` at the path `p` of keys. -/
inductive HasAt : Items A → List Key → A → Prop
  | here (k : Key) (a : A) (rest : Items A) : HasAt (.arr k a rest) [k] a
  | afterLeaf (k : Key) (v : Nat) (rest : Items A) (p : List Key) (a : A) :
      HasAt rest p a → HasAt (.leaf k v rest) p a
  | afterArr (k : Key) (b : A) (rest : Items A) (p : List Key) (a : A) : HasAt rest p a → HasAt (.arr k b rest) p a
  | inside (k : Key) (l : Bool) (d rest : Items A) (p : List Key) (a : A) :
      HasAt d p a → HasAt (.sub k l d rest) (k :: p) a
  | afterSub (k : Key) (l : Bool) (d rest : Items A) (p : List Key) (a : A) :
      HasAt rest p a → HasAt (.sub k l d rest) p a

/-- The keys of a container itself. -/
def keys : Items A → List Key
  | .nil => []
  | .leaf k _ rest => k :: keys rest
  | .arr k _ rest => k :: keys rest
  | .sub k _ _ rest => k :: keys rest

/-- No container has a key twice, as in any dictionary. -/
def Distinct : Items A → Prop
  | .nil => True
  | .leaf k _ rest => k ∉ keys rest ∧ Distinct rest
  | .arr k _ rest => k ∉ keys rest ∧ Distinct rest
  | .sub k _ d rest => k ∉ keys rest ∧ Distinct d ∧ Distinct rest

/-- Every key has a character, and none has a dot in it. -/
def Plain : Items A → Prop
  | .nil => True
  | .leaf k _ rest => (k ≠ [] ∧ '.' ∉ k) ∧ Plain rest
  | .arr k _ rest => (k ≠ [] ∧ '.' ∉ k) ∧ Plain rest
  | .sub k _ d rest => (k ≠ [] ∧ '.' ∉ k) ∧ Plain d ∧ Plain rest

/-- Two documents are alike but for the descriptions of their arrays, each array `a` of the first being `f a` in the
second. -/
inductive Same {B : Type} (f : A → B) : Items A → Items B → Prop
  | nil : Same f .nil .nil
  | leaf (k : Key) (v : Nat) (r : Items A) (r' : Items B) : Same f r r' → Same f (.leaf k v r) (.leaf k v r')
  | arr (k : Key) (a : A) (r : Items A) (r' : Items B) : Same f r r' → Same f (.arr k a r) (.arr k (f a) r')
  | sub (k : Key) (l : Bool) (d r : Items A) (d' r' : Items B) : Same f d d' → Same f r r' →
      Same f (.sub k l d r) (.sub k l d' r')

end Hexrd.Include.Spec
