import Mathlib.Data.Real.Basic
import Mathlib.Algebra.Order.Floor.Ring
import Mathlib.Data.Real.Archimedean

/-!
# Model of the parameters of the clustering (`hexrd/hedm/findorientations.py`, `create_clustering_parameters`)

The simulated grains are random and the simulation is modelled elsewhere: here are the lists of reflections it gives, for each detector and
each grain. Reals stand for floating point numbers.
-/
namespace Hexrd.ClusterParams

/-- The reflections of one detector: for every grain the numbers of the families of planes (hedm/findorientations.py:666-667). -/
abbrev Panel := List (List ℕ)

/-- `len(refl_ids)` added up over the detectors for the grain `i` (hedm/findorientations.py:664-668). -/
def reflections (panels : List Panel) (i : ℕ) : ℕ := panels.foldl (fun n p => n + (p.getD i []).length) 0

/-- The second sum, over the families of the seeds (hedm/findorientations.py:665-671). -/
def seedReflections (seeds : List ℕ) (panels : List Panel) (i : ℕ) : ℕ :=
  panels.foldl (fun n p => n + (seeds.map fun s => (p.getD i []).countP fun r => r == s).sum) 0

/-- The families of the seeds: `active_hkls[fiber_seeds]` (hedm/findorientations.py:635-641); `none` is an index out of range. Negative indices are
not modelled. -/
def seedIds (active fiber : List ℕ) : Option (List ℕ) := fiber.mapM fun i => active[i]?

/-- `min` of a list (hedm/findorientations.py:673); `none` is the exception for no grains. -/
def least : List ℕ → Option ℕ
  | [] => none
  | a :: l => some (l.foldl min a)

/-- `min_samples` (hedm/findorientations.py:673) for the counts of all grains. -/
noncomputable def minSamples (completeness : ℝ) (counts : List ℕ) : Option ℤ :=
  (least counts).map fun m : ℕ => max ⌊0.5 * completeness * (m : ℝ)⌋ 2

/-- `np.round` (hedm/findorientations.py:674): halves go to the even number. -/
noncomputable def roundEven (x : ℝ) : ℤ :=
  if x - ⌊x⌋ < 1 / 2 then ⌊x⌋ else if 1 / 2 < x - ⌊x⌋ then ⌊x⌋ + 1 else if ⌊x⌋ % 2 = 0 then ⌊x⌋ else ⌊x⌋ + 1

/-- `mean_rpg` (hedm/findorientations.py:674). -/
noncomputable def meanRpg (counts : List ℕ) : ℤ := roundEven ((counts.sum : ℝ) / counts.length)

/-- `create_clustering_parameters` (hedm/findorientations.py:606-676) for `n` grains, 100 in the code. -/
noncomputable def parameters (n : ℕ) (completeness : ℝ) (active fiber : List ℕ) (panels : List Panel) : Option (ℤ × ℤ) := do
  let seeds ← seedIds active fiber
  let m ← minSamples completeness ((List.range n).map (seedReflections seeds panels))
  return (m, meanRpg ((List.range n).map (reflections panels)))

end Hexrd.ClusterParams
