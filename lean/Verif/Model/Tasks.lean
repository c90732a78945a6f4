/-!
# Model of `hexrd/core/utils/concurrent.py`
-/
namespace Hexrd.Tasks

/-- Loop state of `distribute_tasks` (concurrent.py:8-12): the list built so
far, the number of tasks assigned, the remaining remainder and whether the
`break` at line 15 was taken. -/
structure St where
  result : List (Nat × Nat)
  assigned : Nat
  rem : Nat
  broke : Bool

/-- One iteration of the `for i in range(max_workers)` loop
(concurrent.py:13-28).  `result[-1][1]` is read with a default of 0; on every
reachable state with `i > 0` the list is non-empty. -/
def step (n tpw : Nat) (s : St) (i : Nat) : St :=
  if s.broke then s
  else if s.assigned = n then { s with broke := true }
  else
    let tasks := if s.rem ≠ 0 then tpw + 1 else tpw
    let rem := if s.rem ≠ 0 then s.rem - 1 else s.rem
    let previous := if i = 0 then 0 else (s.result.getLast?.map Prod.snd).getD 0
    { result := s.result ++ [(previous, previous + tasks)]
      assigned := s.assigned + tasks
      rem := rem
      broke := false }

/-- `distribute_tasks(num_tasks, max_workers)` (concurrent.py:4-30).
`none` is the `ZeroDivisionError` of line 11 for zero workers. Negative
arguments are not modelled. -/
def distributeTasks (numTasks maxWorkers : Nat) : Option (List (Nat × Nat)) :=
  if maxWorkers = 0 then none
  else
    some ((List.range maxWorkers).foldl
      (step numTasks (numTasks / maxWorkers))
      { result := [], assigned := 0, rem := numTasks % maxWorkers, broke := false }).result

end Hexrd.Tasks
