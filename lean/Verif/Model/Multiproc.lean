/-!
# Model of `hexrd/core/utils/multiprocess_generic.py`

The parent and the worker processes take steps in any order.  `q_in` holds at most one item (line 36); items of
`q_out` are received in any order, since the processes write to it independently.
-/
namespace Hexrd.Multiproc

/-- What happens when a worker runs the function on an argument (lines 27-29): a result `r` that line 29 can print,
a result that makes line 29 raise after it was put (`res[2]` fails), or an exception in the function. -/
inductive Outcome (R : Type) | ok (r : R) | badLog (r : R) | raises
deriving DecidableEq

/-- A worker: in `q_in.get()`, running the function on the argument with this position, left the loop (line 25), or
ended by an exception. -/
inductive Worker | idle | busy (i : Nat) | exited | crashed
deriving DecidableEq

/-- State of the run.  `puts`: how many items the parent has put (lines 54-55), `inq`: the item in `q_in` (`none` inside
is the end marker), `received`: positions taken from `q_out` so far, newest first. -/
structure St (R : Type) where
  puts : Nat
  inq : Option (Option Nat)
  workers : List Worker
  outq : List (Nat × R)
  received : List Nat
  results : List (Option R)

/-- multiprocess_generic.py:33-58 at the start: `n` arguments, `w` workers, all results empty lists. -/
def init (R : Type) (n w : Nat) : St R :=
  ⟨0, none, List.replicate w .idle, [], [], List.replicate n none⟩

/-- The `k`-th item put (lines 54-55). -/
def item (n k : Nat) : Option Nat := if k < n then some k else none

/-- A worker after getting an item (lines 23-25). -/
def gets : Option Nat → Worker
  | some i => .busy i
  | none => .exited

/-- A worker after running the function (lines 27-29), and what it put into `q_out`. -/
def finishes {R : Type} (i : Nat) : Outcome R → Worker × List (Nat × R)
  | .ok r => (.idle, [(i, r)])
  | .badLog r => (.crashed, [(i, r)])
  | .raises => (.crashed, [])

/-- One step of the parent or of a worker; `f i` is the outcome of the function on argument `i`. -/
inductive Step {R : Type} (n w : Nat) (f : Nat → Outcome R) : St R → St R → Prop
  /-- lines 54-55: a put waits until `q_in` is empty -/
  | put (s : St R) (h : s.puts < n + w) (he : s.inq = none) :
      Step n w f s { s with puts := s.puts + 1, inq := some (item n s.puts) }
  /-- lines 23-25 -/
  | take (s : St R) (k : Nat) (x : Option Nat) (hk : s.workers[k]? = some .idle) (hx : s.inq = some x) :
      Step n w f s { s with inq := none, workers := s.workers.set k (gets x) }
  /-- lines 27-29 -/
  | finish (s : St R) (k i : Nat) (hk : s.workers[k]? = some (.busy i)) :
      Step n w f s { s with workers := s.workers.set k (finishes i (f i)).1, outq := s.outq ++ (finishes i (f i)).2 }
  /-- lines 59-61, after all puts -/
  | get (s : St R) (l l' : List (Nat × R)) (i : Nat) (r : R) (h : s.puts = n + w) (hr : s.received.length < n)
      (hq : s.outq = l ++ (i, r) :: l') :
      Step n w f s { s with outq := l ++ l', received := i :: s.received, results := s.results.set i (some r) }

/-- lines 64-67: all results received and every process joined, so the function returns `s.results`. -/
def Returned {R : Type} (n w : Nat) (s : St R) : Prop :=
  s.puts = n + w ∧ s.received.length = n ∧ ∀ x ∈ s.workers, x = .exited ∨ x = .crashed

/-- Any number of steps. -/
inductive Run {R : Type} (n w : Nat) (f : Nat → Outcome R) : St R → Prop
  | start : Run n w f (init R n w)
  | step {s s' : St R} (h : Run n w f s) (st : Step n w f s s') : Run n w f s'

/-- multiprocess_generic.py:31,44-46: the outcome of the function on each argument. `func` is called on the argument and
the keyword arguments only: `pass_args` does not contain the further positional arguments `args` of the call. -/
def outcome {V A K R : Type} (func : V → List A → K → Outcome R) (var : List V) (_args : List A) (kwargs : K) (i : Nat) :
    Outcome R :=
  match var[i]? with
  | some v => func v [] kwargs
  | none => .raises

end Hexrd.Multiproc
