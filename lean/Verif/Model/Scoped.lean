import Mathlib.Data.Int.Notation

/-!
# Model of settings that hold for the duration of a call (`hexrd/core/utils/decorators.py`, `hexrd/core/utils/logger.py`)

Programs are trees of the effects that matter: work that uses the threads there are, printing, exceptions, calls of functions decorated
with a limit of threads, and blocks whose output goes to a logger.
-/
namespace Hexrd.Scoped

/-- The programs. `limit` is a call of a function decorated with `limit_numba_threads` (decorators.py:126-139), `logged` is a block in
`redirect_stdout_to_logger` (logger.py:7-30), `attempt` is `try: ... except: pass`, `setThreads` is `numba.set_num_threads`. -/
inductive Prog where
  | work
  | print (t : List Char)
  | raise
  | setThreads (n : ℤ)
  | seq (p q : Prog)
  | attempt (p : Prog)
  | limit (max : ℤ) (p : Prog)
  | logged (p : Prog)

/-- The number of threads, the numbers that were used by the work done so far, what was printed to the present standard output, and the
records of the logger (decorators.py:129-135, logger.py:24-30). -/
structure State where
  threads : ℤ
  used : List ℤ
  out : List Char
  records : List (List Char)
  deriving DecidableEq

/-- `numba.set_num_threads` (called in decorators.py:131, 135): `none` is ValueError. -/
def setNum (total n : ℤ) (s : State) : Option State := if 1 ≤ n ∧ n ≤ total then some { s with threads := n } else none

/-- What a program does, and whether it ends without an exception; `total` is the number of threads there are at most.
`limit`: decorators.py:128-135. `logged`: logger.py:24-30, where what was captured is logged only after the block ended normally. -/
def run (total : ℤ) : Prog → State → State × Bool
  | .work, s => ({ s with used := s.used ++ [s.threads] }, true)
  | .print t, s => ({ s with out := s.out ++ t }, true)
  | .raise, s => (s, false)
  | .setThreads n, s => match setNum total n s with
    | some s' => (s', true)
    | none => (s, false)
  | .seq p q, s => match run total p s with
    | (s', true) => run total q s'
    | (s', false) => (s', false)
  | .attempt p, s => ((run total p s).1, true)
  | .limit m p, s => match setNum total (min s.threads m) s with
    | none => (s, false)
    | some s' =>
      let r := run total p s'
      match setNum total s.threads r.1 with
      | some s'' => (s'', r.2)
      | none => (r.1, false)
  | .logged p, s =>
    let r := run total p { s with out := [] }
    if r.2 then ({ r.1 with out := s.out, records := r.1.records ++ [r.1.out] }, true)
    else ({ r.1 with out := s.out }, false)

end Hexrd.Scoped
