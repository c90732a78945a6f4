import Verif.Model.Angles
import Mathlib.Data.List.Basic

/-!
Model of the refinement of grains: hexrd/hedm/fitgrains.py and hexrd/hedm/fitting/grains.py.

Simplifications: real arithmetic; the search for spots (`pull_spots`), the least squares solver and the diffraction
geometry are arguments of the functions; log messages and files written on the way are not modelled.
-/

namespace Hexrd.FitGrains
open Hexrd.Angles

/-! ### Valid reflections -/

/-- The fields of a spot that are used: `peak_id`, `max_int`, `meas_xy` and the measured omega
(hedm/fitgrains.py:242-252, 259-261, 349). The value of a missing intensity (NaN) is not used. -/
structure Refl where
  id : ℤ
  maxInt : ℝ
  x : ℝ
  y : ℝ
  ome : ℝ

variable {κ P : Type}

/-- `valid_refl_ids` (hedm/fitgrains.py:263). -/
def found (r : Refl) : Bool := 0 ≤ r.id

open Classical in
/-- `idx` without overlaps (hedm/fitgrains.py:266-272). -/
noncomputable def usable (saturation : Option ℝ) (r : Refl) : Bool :=
  found r && match saturation with
    | none => true
    | some level => decide (r.maxInt < level)

/-- `determine_valid_reflections` (hedm/fitgrains.py:218-313). `tables` is the content of the overlap file of a panel, if there
is one (lines 276-290): its tables of pairs. The loop over them refers to `grain_id`, which is not defined there, and the
NameError is not among the errors caught (line 292). `none` is an error: that one, or no reflection at all (lines 305-311). -/
noncomputable def determineValid (saturation : κ → Option ℝ) (tables : κ → Option (List (List (ℕ × ℕ))))
    (results : List (κ × List Refl)) : Option (List (κ × List Refl) × ℕ × ℝ) :=
  if results.any fun kr => !((tables kr.1).getD []).isEmpty then none
  else
    let total := (results.map fun kr => kr.2.length).sum
    let valid := (results.map fun kr => kr.2.countP found).sum
    if total = 0 then none
    else some (results.map fun kr => (kr.1, kr.2.filter (usable (saturation kr.1))), valid, (valid : ℝ) / total)

open Classical in
/-- One line of `idx_new` (hedm/fitgrains.py:351-364): the measured spot against the calculated place `c`. -/
noncomputable def close (pixel : ℝ × ℝ) (tolXY tolOme step : ℝ) (r : Refl) (c : ℝ × ℝ × ℝ) : Bool :=
  decide (|r.x - c.1| ≤ tolXY * pixel.1) && decide (|r.y - c.2.1| ≤ tolXY * pixel.2) &&
    decide (((angularDifference r.ome c.2.2 .radians).getD 0) * (180 / Real.pi) ≤ tolOme * step)

/-- `refine_valid_reflections` (hedm/fitgrains.py:316-371): the places `calcd` are in the order of the spots; `pixel` gives the
sizes of a panel's pixels by column and row, `step` the omega step of the first frame. -/
noncomputable def refineValid (pixel : κ → ℝ × ℝ) (tolXY tolOme step : ℝ) (calcd : κ → List (ℝ × ℝ × ℝ))
    (culled : List (κ × List Refl)) : List (κ × List Refl) × ℕ :=
  let kept := (culled.filter fun kr => !kr.2.isEmpty).map fun kr =>
    (kr.1, ((kr.2.zip (calcd kr.1)).filter fun rc => close (pixel kr.1) tolXY tolOme step rc.1 rc.2).map Prod.fst)
  (kept, (kept.map fun kr => kr.2.length).sum)

/-! ### The refinement of one grain -/

/-- The parts of the refinement that are not modelled: the search with given grain parameters and tolerances, the solver,
the value of chi squared and the calculated places (hedm/fitgrains.py:113-129, 147-153, 156-167, 172-183). -/
structure Env (κ P T : Type) where
  pull : P → T → List (κ × List Refl)
  fit : P → List (κ × List Refl) → P
  chi : P → List (κ × List Refl) → ℝ
  calcd : P → List (κ × List Refl) → κ → List (ℝ × ℝ × ℝ)
  saturation : κ → Option ℝ
  tables : κ → Option (List (List (ℕ × ℕ)))
  pixel : κ → ℝ × ℝ
  step : ℝ

/-- What is returned for a grain (hedm/fitgrains.py:142, 212); `none` as `chisq` is infinity. -/
structure Fit (P : Type) where
  completeness : ℝ
  chisq : Option ℝ
  params : P

/-- The part after the loop (hedm/fitgrains.py:169-212). -/
noncomputable def refitStep {T : Type} (e : Env κ P T) (refit : Option (ℝ × ℝ)) (p : P) (culled : List (κ × List Refl)) (compl chisq : ℝ) : Fit P :=
  match refit with
  | none => ⟨compl, some chisq, p⟩
  | some tol =>
    let r := refineValid e.pixel tol.1 tol.2 e.step (e.calcd p culled) culled
    if 12 < r.2 then
      let p' := e.fit p r.1
      ⟨compl, some (e.chi p' r.1), p'⟩
    else ⟨compl, some chisq, p⟩

/-- `fit_grain_FF_reduced` from the loop over tolerances on (hedm/fitgrains.py:112-215); `last` is what the previous turn
left behind, `none` if there was none (the names are then unbound, an error). -/
noncomputable def fitLoop {T : Type} (e : Env κ P T) (refit : Option (ℝ × ℝ)) :
    List T → P → Option (List (κ × List Refl) × ℝ × ℝ) → Option (Fit P)
  | [], p, last => last.map fun l => refitStep e refit p l.1 l.2.1 l.2.2
  | t :: ts, p, _ => (determineValid e.saturation e.tables (e.pull p t)).bind fun d =>
    if d.2.1 ≤ 12 then some ⟨d.2.2, none, p⟩
    else
      let p' := e.fit p d.1
      fitLoop e refit ts p' (some (d.1, d.2.2, e.chi p' d.1))

/-- `fit_grain_FF_reduced` (hedm/fitgrains.py:62-215) for given parameters of the grain. -/
noncomputable def fitGrain {T : Type} (e : Env κ P T) (refit : Option (ℝ × ℝ)) (tols : List T) (p : P) : Option (Fit P) :=
  fitLoop e refit tols p none

/-! ### All grains -/

/-- One task on the table of the process (hedm/fitgrains.py:109-110, fitting/grains.py:135-139): the row is looked up by
the number of the grain, and as the parameters are a view of the row they are overwritten with the fitted ones. `run`
is the fit: what is returned and the new parameters. `none` is an IndexError. -/
def task {R : Type} (run : ℕ → P → R × P) (table : List (ℕ × P)) (id : ℕ) : Option (R × List (ℕ × P)) :=
  (table[id]?).map fun row => ((run id row.2).1, table.set id (row.1, (run id row.2).2))

/-- A process carries out its tasks in order, on its own table (hedm/fitgrains.py:33-51, 451-455, 474). -/
def process {R : Type} (run : ℕ → P → R × P) : List (ℕ × P) → List ℕ → Option (List R × List (ℕ × P))
  | table, [] => some ([], table)
  | table, id :: ids => do
    let r ← task run table id
    let rest ← process run r.2 ids
    some (r.1 :: rest.1, rest.2)

/-- `fit_grains` in one process (hedm/fitgrains.py:448-456): the results, and the table as it is left. -/
def fitSerial {R : Type} (run : ℕ → P → R × P) (table : List (ℕ × P)) : Option (List R × List (ℕ × P)) :=
  process run table (table.map Prod.fst)

/-- `fit_grains` on a pool (hedm/fitgrains.py:457-494): `schedule` lists for each process the places in the list of grains
that it works on, in order; the results are put in the order of the grains; each process has a copy of the table. -/
def fitPool {R : Type} (run : ℕ → P → R × P) (table : List (ℕ × P)) (schedule : List (List ℕ)) : Option (List R × List (ℕ × P)) := do
  let ids := table.map Prod.fst
  let parts ← schedule.mapM fun places => do
    let tasks ← places.mapM fun i => ids[i]?
    let r ← process run table tasks
    some (places.zip r.1)
  let results ← (List.range ids.length).mapM fun i => parts.flatten.lookup i
  some (results, table)

/-- `fit_grains` with `ids_to_refine` (hedm/fitgrains.py:421-422), in one process. -/
def fitSubset {R : Type} (run : ℕ → P → R × P) (table : List (ℕ × P)) (idsToRefine : List ℕ) : Option (List R) := do
  let sub ← idsToRefine.mapM fun i => table[i]?
  let r ← fitSerial run sub
  some r.1

/-! ### The objective function -/

open Classical in
/-- `matchOmegas` for one reflection (fitting/grains.py:400-442), given the two solutions; `argsort` of two values keeps
the first in front unless the second is smaller. -/
noncomputable def matchOmega (period : Option (ℝ × ℝ)) (meas o0 o1 : ℝ) : Option ℝ := do
  let m ← match period with | none => some meas | some p => mapAngle (some meas) (some [p.1, p.2]) .radians
  let c0 ← match period with | none => some o0 | some p => mapAngle (some o0) (some [p.1, p.2]) .radians
  let c1 ← match period with | none => some o1 | some p => mapAngle (some o1) (some [p.1, p.2]) .radians
  let d0 ← angularDifference m c0 .radians
  let d1 ← angularDifference m c1 .radians
  some (if d1 < d0 then c1 else c0)

/-- The residual of one reflection (fitting/grains.py:366-368): calculated and measured x, y and omega. -/
noncomputable def residual (calcd meas : ℝ × ℝ × ℝ) : ℝ × ℝ × ℝ :=
  (calcd.1 - meas.1, calcd.2.1 - meas.2.1, (angularDifference calcd.2.2 meas.2.2 .radians).getD 0)

open Classical in
/-- The value for `return_value_flag == 2` (fitting/grains.py:372-380), with `nfit` parameters. -/
noncomputable def chiSquared (nfit : ℕ) (pairs : List ((ℝ × ℝ × ℝ) × (ℝ × ℝ × ℝ))) : ℝ :=
  let denom : ℝ := 3 * pairs.length - nfit - 1
  (if denom ≠ 0 then 1 / denom else 1) *
    (pairs.map fun cm => (residual cm.1 cm.2).1 ^ 2 + (residual cm.1 cm.2).2.1 ^ 2 + (residual cm.1 cm.2).2.2 ^ 2).sum

end Hexrd.FitGrains
