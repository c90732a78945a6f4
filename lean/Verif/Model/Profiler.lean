import Mathlib.Data.Nat.Notation

/-!
# Model of the profiler's instrumentation of functions (`hexrd/core/utils/profiler.py`)

Modules and objects are of a type `O`; importing and looking up attributes are functions that are given. Colours and the profiler `nvtx`
are left out; files are lists of dotted names, already split at the dots.
-/
namespace Hexrd.Profiler

/-- What there is to import and to look up (profiler.py:55, 66, 69). `none` are ImportError and AttributeError. -/
structure World (O : Type) where
  imp : List String → Option O
  attr : O → String → Option O

/-- The loop of imports (profiler.py:52-58): from the prefix of `i` parts on, `left` more of them are tried; the last module that was
imported and its number of parts are kept. -/
def imports {O : Type} (w : World O) (parts : List String) : ℕ → ℕ → Option (O × ℕ) → Option (O × ℕ)
  | 0, _, acc => acc
  | left + 1, i, acc =>
    match w.imp (parts.take i) with
    | some m => imports w parts left (i + 1) (some (m, i))
    | none => acc

/-- Following attributes (profiler.py:64-66). -/
def follow {O : Type} (w : World O) : O → List String → Option O
  | o, [] => some o
  | o, a :: l => (w.attr o a).bind fun o' => follow w o' l

/-- What happens to one entry (profiler.py:70-73). -/
inductive Outcome (O : Type) where
  | replaced (owner : O) (name : String)
  | warned
  | raised
  deriving DecidableEq

/-- `instrument_function` (profiler.py:28-73) for `parts`, of which the last is the name of the function. If nothing was imported, the
module is an unbound variable, an exception that is not caught here. -/
def instrument {O : Type} (w : World O) (parts : List String) : Outcome O :=
  let path := parts.dropLast
  let fn := parts.getLastD ""
  match imports w parts path.length 1 none with
  | none => .raised
  | some (m, pos) =>
    match follow w m (path.drop pos) with
    | none => .warned
    | some o => match w.attr o fn with
      | none => .warned
      | some _ => .replaced o fn

/-- `parse_file` (profiler.py:76-96) for the entries of a file: an exception ends it. What was done is listed in order. -/
def parseFile {O : Type} (w : World O) : List (List String) → List (Outcome O)
  | [] => []
  | e :: l => match instrument w e with
    | .raised => [.raised]
    | r => r :: parseFile w l

/-- `instrument_all` (profiler.py:99-101). -/
def instrumentAll {O : Type} (w : World O) (files : List (List (List String))) : List (List (Outcome O)) := files.map (parseFile w)

end Hexrd.Profiler
