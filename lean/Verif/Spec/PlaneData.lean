import Verif.Model.PlaneData
import Mathlib.Data.List.Chain
import Mathlib.Data.List.Forall2

/-!
# Specification of merged two-theta ranges
-/
namespace Hexrd.PlaneData
variable {K : Type} [LinearOrder K]

/-- Specification: rings `r` and `s` (next to each other) overlap. -/
def overlap (r s : Ring K) : Prop := s.lo ≤ r.hi

/-- The rings of a run that are not culled: a ring is culled if culling is asked for and
the next ring of the run has the same two-theta. -/
def kept (near : K → K → Bool) (cull : Bool) : List (Nat × Ring K) → List (Nat × Ring K)
  | [] => []
  | [x] => [x]
  | x :: y :: rest => if cull && near x.2.tth y.2.tth then kept near cull (y :: rest)
      else x :: kept near cull (y :: rest)

/-- What is reported for a run: the numbers of the rings that are not culled and the
interval from the first ring's lower to the last ring's upper limit. -/
def IsReport (near : K → K → Bool) (cull : Bool) (s : List (Nat × Ring K)) (o : List Nat × K × K) : Prop :=
  ∃ first last, s.head? = some first ∧ s.getLast? = some last ∧
    o = ((kept near cull s).map Prod.fst, first.2.lo, last.2.hi)

/-- Specification of the groups: the numbered rings are cut into non-empty runs; rings
next to each other in a run overlap, rings next to each other across a cut do not; each
run is reported. -/
structure IsGrouping (near : K → K → Bool) (cull : Bool) (rs : List (Nat × Ring K))
    (out : List (List Nat × K × K)) (segs : List (List (Nat × Ring K))) : Prop where
  cover : segs.flatten = rs
  nonempty : ∀ s ∈ segs, s ≠ []
  runs : ∀ s ∈ segs, s.IsChain fun x y => overlap x.2 y.2
  cuts : segs.IsChain fun s t => ∀ x ∈ s.getLast?, ∀ y ∈ t.head?, ¬ overlap x.2 y.2
  report : List.Forall₂ (IsReport near cull) segs out

/-- The rings numbered from `i`. -/
def number (i : Nat) : List (Ring K) → List (Nat × Ring K)
  | [] => []
  | r :: rs => (i, r) :: number (i + 1) rs

end Hexrd.PlaneData
