import Mathlib.Data.Real.Basic

/-!
# Model of the comparison of results with a reference (`hexrd/hedm/grainmap/nfutil.py`)

An array is a list of rows. Reals stand for floating point numbers.
-/
namespace Hexrd.CheckRun

/-- What `handle_result` logs last (nfutil.py:236-266). -/
inductive Verdict
  | ignored | fail | partialPass | fullPass | error
  deriving DecidableEq

/-- The names of results that count here (nfutil.py:236, 250). -/
inductive Key
  | experiment | imageStack | confidence | other (name : String)
  deriving DecidableEq

/-- A two-dimensional array with its shape. -/
structure Arr where
  rows : ℕ
  cols : ℕ
  at' : ℕ → ℕ → ℝ

/-- `.T` (nfutil.py:251-252). -/
def transpose (a : Arr) : Arr := ⟨a.cols, a.rows, fun i j => a.at' j i⟩

/-- `np.isclose` of two numbers with its default tolerances (nfutil.py:255); the second is the reference. -/
noncomputable def close (x ref : ℝ) : Bool := decide (|x - ref| ≤ 1e-8 + 1e-5 * |ref|)

/-- `np.allclose(value[:n], reference[:n])` (nfutil.py:255): `none` is the exception for different shapes. Broadcasting a single column is
not modelled. -/
noncomputable def allclose (n : ℕ) (value reference : Arr) : Option Bool :=
  if value.cols = reference.cols then
    some ((List.range n).all fun i => (List.range value.cols).all fun j => close (value.at' i j) (reference.at' i j))
  else none

/-- The comparison of two arrays that are oriented alike (nfutil.py:254-266). -/
noncomputable def compare (value reference : Arr) : Verdict :=
  let n := min reference.rows value.rows
  match allclose n value reference with
  | none => .error
  | some passed => if !passed then .fail else if n < value.rows then .partialPass else .fullPass

/-- `CheckingResultHandler.handle_result` (nfutil.py:235-270). A missing reference is `None`, for which `len` raises, and the exception is
logged. -/
noncomputable def handle (refs : Key → Option Arr) (key : Key) (value : Arr) : Verdict :=
  match key, refs key with
  | .experiment, _ => .ignored
  | .imageStack, _ => .ignored
  | _, none => .error
  | .confidence, some r => compare (transpose value) (transpose r)
  | .other _, some r => compare value r

end Hexrd.CheckRun
