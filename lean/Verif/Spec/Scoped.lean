import Verif.Model.Scoped

/-! # What is expected of settings that hold for the duration of a call -/
namespace Hexrd.Scoped.Spec

/-- A program that does not set the number of threads itself. -/
def NoSet : Prog → Prop
  | .work | .print _ | .raise => True
  | .setThreads _ => False
  | .seq p q => NoSet p ∧ NoSet q
  | .attempt p | .limit _ p | .logged p => NoSet p

/-- A program without decorated functions and redirections. -/
def Plain : Prog → Prop
  | .work | .print _ | .raise => True
  | .setThreads _ | .limit _ _ | .logged _ => False
  | .seq p q => Plain p ∧ Plain q
  | .attempt p => Plain p

/-- What a plain program prints, and whether it ends without an exception. -/
def prints : Prog → List Char × Bool
  | .print t => (t, true)
  | .raise => ([], false)
  | .seq p q => if (prints p).2 then ((prints p).1 ++ (prints q).1, (prints q).2) else ((prints p).1, false)
  | .attempt p => ((prints p).1, true)
  | _ => ([], true)

/-- The number of threads is one that can be set. -/
def Valid (total : ℤ) (s : State) : Prop := 1 ≤ s.threads ∧ s.threads ≤ total

end Hexrd.Scoped.Spec
