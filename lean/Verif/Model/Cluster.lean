import Mathlib.Data.Real.Basic
import Mathlib.Data.List.Nodup

/-!
# Model of the clustering of orientations (`run_cluster`, `hexrd/hedm/findorientations.py`)

Completeness values are real numbers. The clustering algorithms (DBSCAN of scikit-learn, `fclusterdata` of scipy) and the
average of a cluster (`quatAverageCluster`) are arguments.
-/
namespace Hexrd.Cluster

/-- The algorithms; `other` is any other name. -/
inductive Algorithm
  | dbscan | ortDbscan | sphDbscan | fclusterdata | other
deriving DecidableEq, Repr

/-- The orientations whose completeness is above the threshold: `qfib[:, np.array(compl) > min_compl]` (findorientations.py:233, 245). -/
noncomputable def above {Q : Type} (minCompl : ℝ) (compl : List ℝ) (qfib : List Q) : List Q :=
  ((compl.zip qfib).filter fun p => decide (p.1 > minCompl)).map Prod.snd

/-- The labels of DBSCAN made 1-based, with noise still marked by -1 (findorientations.py:310-313). -/
def relabel (labels : List Int) : List Int :=
  labels.map fun l => if l = -1 then -1 else l + 1

/-- `nblobs` (findorientations.py:327-330). -/
def nblobs (cl : List Int) : ℕ :=
  if cl.any (fun l => l == -1) then cl.dedup.length - 1 else cl.dedup.length

/-- The members of cluster `i + 1` : `q[:, cl == i + 1]` (findorientations.py:336). -/
def members {Q : Type} (cl : List Int) (q : List Q) (i : ℕ) : List Q :=
  ((cl.zip q).filter fun p => decide (p.1 = (i : Int) + 1)).map Prod.snd

/-- The averages of the clusters (findorientations.py:333-336). -/
def averages {Q : Type} (avg : List Q → Q) (cl : List Int) (q : List Q) (n : ℕ) : List Q :=
  (List.range n).map fun i => avg (members cl q i)

/-- The algorithm that is run (findorientations.py:249-252, 264-266): more than 25000 orientations are not given to the slow
ones, and without scikit-learn `dbscan` is replaced. -/
def chosen (haveSklearn : Bool) (alg : Algorithm) (num : ℕ) : Algorithm :=
  let alg := if 25000 < num ∧ (alg = .sphDbscan ∨ alg = .fclusterdata) then .ortDbscan else alg
  if alg = .dbscan ∧ haveSklearn = false then .fclusterdata else alg

/-- The first clustering (findorientations.py:268-324); `none` is an error: an unknown algorithm, or one that needs scikit-learn
without it. -/
def firstLabels {Q : Type} (haveSklearn : Bool) (dbs : Algorithm → List Q → List Int) (fcl : List Q → List Int) (alg : Algorithm)
    (q : List Q) : Option (List Int) :=
  match alg with
  | .fclusterdata => some (fcl q)
  | .other => none
  | a => if haveSklearn then some (relabel (dbs a q)) else none

/-- `run_cluster` (findorientations.py:206-370): the orientations and the labels that it returns. `none` is an error (also if `compl`
and `qfib` do not have the same length). -/
noncomputable def runCluster {Q : Type} (haveSklearn : Bool) (dbs : Algorithm → List Q → List Int) (fcl : List Q → List Int)
    (avg : List Q → Q) (alg : Algorithm) (minCompl : ℝ) (compl : List ℝ) (qfib : List Q) : Option (List Q × List Int) :=
  let num := compl.countP fun c => decide (c > minCompl)
  if num = 0 then some ([], [])
  else if compl.length ≠ qfib.length then none
  else if num = 1 then some (above minCompl compl qfib, [1])
  else do
    let q := above minCompl compl qfib
    let alg' := chosen haveSklearn alg q.length
    let cl ← firstLabels haveSklearn dbs fcl alg' q
    let n := nblobs cl
    let qbar := averages avg cl q n
    if (alg' = .dbscan ∨ alg' = .ortDbscan) ∧ 1 < n then
      let cl2 := fcl qbar
      let n2 := cl2.dedup.length
      if n2 < n then return (averages avg cl2 qbar n2, cl2) else return (qbar, cl2)
    else return (qbar, cl)

end Hexrd.Cluster
