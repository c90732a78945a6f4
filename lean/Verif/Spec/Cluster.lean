import Verif.Model.Cluster

/-!
# Labelled groups
-/
namespace Hexrd.Cluster.Spec

/-- The entries of `q` whose label is `l`, in order. -/
def group {Q : Type} (labels : List Int) (q : List Q) (l : Int) : List Q :=
  (List.range q.length).filterMap fun p => if labels[p]? = some l then q[p]? else none

/-- Labels as DBSCAN gives them: one for each of `n` points, `-1` for noise, and `k` clusters numbered from 0, none empty. -/
structure DbscanLabels (k n : ℕ) (labels : List Int) : Prop where
  length : labels.length = n
  range : ∀ l ∈ labels, l = -1 ∨ (0 ≤ l ∧ l < k)
  used : ∀ i < k, (i : Int) ∈ labels

/-- Labels as `fclusterdata` gives them: one for each of `n` points, `k` clusters numbered from 1, none empty. -/
structure FclusterLabels (k n : ℕ) (labels : List Int) : Prop where
  length : labels.length = n
  range : ∀ l ∈ labels, 1 ≤ l ∧ l ≤ k
  used : ∀ i < k, (i : Int) + 1 ∈ labels

end Hexrd.Cluster.Spec
