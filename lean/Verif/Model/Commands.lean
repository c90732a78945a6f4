import Mathlib.Data.List.Basic
import Mathlib.Data.Real.Basic

/-! Model of the commands /repo/hexrd/hedm/cli/fit_grains.py and /repo/hexrd/hedm/cli/find_orientations.py: which files are read, which
are written and what the refinement starts from. The search, the refinement and the formats of the files are parameters; logging,
profiling and the files per panel are not modelled. -/

namespace Hexrd.Commands

/-- A place in the file system. -/
abbrev Path := ℕ

/-- A section of the configuration file (hedm/config/findorientations.py:51-66; hedm/config/fitgrains.py:51-52, 68-77): where the accepted
orientations and the grains are, and the estimate. -/
structure Cfg where
  (accepted grains : Path)
  estimate : Option Path

structure Args where
  (force clean : Bool)
  ids : Option (List ℤ)

/-- Quaternions or a table of grains. -/
inductive File (Q R : Type)
  | quats (l : List Q)
  | table (t : List R)

abbrev FS (Q R : Type) := Path → Option (File Q R)

/-- Writing a file. -/
def FS.write {Q R : Type} (fs : FS Q R) (p : Path) (f : File Q R) : FS Q R := fun q => if q = p then some f else fs q

/-- The search, the table made from orientations and the refinement. -/
structure Lib (Q R : Type) where
  find : Cfg → List Q
  rows : List Q → List R
  fit : Cfg → List R → Option (List ℤ) → List R

inductive Outcome
  | done | quit | raised
  deriving DecidableEq

/-- `FitGrainsConfig.estimate` (hedm/config/fitgrains.py:68-77): a file that is missing counts as no estimate. -/
def estimate {Q R : Type} (fs : FS Q R) (c : Cfg) : Option Path := c.estimate.bind fun p => if (fs p).isSome then some p else none

/-- Whether the accepted orientations are needed (cli/fit_grains.py:243-253, 328-346). -/
def needed {Q R : Type} (a : Args) (fs : FS Q R) (c : Cfg) : Bool :=
  a.clean || (a.force && (estimate fs c).isNone) || ((fs c.grains).isNone && (estimate fs c).isNone)

/-- The orientations for all sections, from the first one (cli/fit_grains.py:251-267); reading a table as quaternions is not modelled and
gives an error. The result is `none` on an error, and `some none` if they are not needed. -/
def orientations {Q R : Type} (lib : Lib Q R) (a : Args) (fs : FS Q R) (c : Cfg) : Option (Option (List Q)) :=
  if needed a fs c then
    match fs c.accepted with
    | some (.quats l) => some (some l)
    | some (.table _) => none
    | none => some (some (lib.find c))
  else some none

/-- One section (cli/fit_grains.py:271-412). -/
def section' {Q R : Type} (lib : Lib Q R) (a : Args) (qbar : Option (List Q)) (fs : FS Q R) (c : Cfg) : FS Q R × Outcome :=
  if (fs c.grains).isSome && !(a.force || a.clean) then (fs, .quit)
  else
    let finish (fs : FS Q R) (src : Path) : FS Q R × Outcome :=
      match fs src with
      | some (.table t) => (fs.write c.grains (.table (lib.fit c t a.ids)), .done)
      | _ => (fs, .raised)
    if needed a fs c then
      match qbar with
      | none => (fs, .raised)
      | some l => finish (fs.write c.grains (.table (lib.rows l))) c.grains
    else
      match estimate fs c with
      | some e => finish fs e
      | none => finish fs c.grains

/-- The loop over the sections. -/
def sections {Q R : Type} (lib : Lib Q R) (a : Args) (qbar : Option (List Q)) : FS Q R → List Cfg → FS Q R × Outcome
  | fs, [] => (fs, .done)
  | fs, c :: cs =>
    match section' lib a qbar fs c with
    | (fs', .done) => sections lib a qbar fs' cs
    | r => r

/-- `execute` of fit-grains (cli/fit_grains.py:215-418); no section at all raises. -/
def fitGrains {Q R : Type} (lib : Lib Q R) (a : Args) (fs : FS Q R) (cs : List Cfg) : FS Q R × Outcome :=
  match cs with
  | [] => (fs, .raised)
  | c :: _ =>
    match orientations lib a fs c with
    | none => (fs, .raised)
    | some qbar => sections lib a qbar fs cs

/-- `execute` of find-orientations with `write_results` (cli/find_orientations.py:65-80, 83-160): the first section only. -/
def findOrientations {Q R : Type} (lib : Lib Q R) (a : Args) (fs : FS Q R) (cs : List Cfg) : FS Q R × Outcome :=
  match cs with
  | [] => (fs, .raised)
  | c :: _ =>
    if (fs c.accepted).isSome && !(a.force || a.clean) then (fs, .quit)
    else ((fs.write c.accepted (.quats (lib.find c))).write c.grains (.table (lib.rows (lib.find c))), .done)

/-- A row of the table of grains: id, completeness, chi squared, orientation, position, inverse stretch and logarithm of the stretch
(cli/fit_grains.py:24-34, 71-81). -/
structure Grain where
  id : ℤ
  (completeness chisq : ℝ)
  (params : List ℝ)
  (lnV : List ℝ)

/-- `GrainData.select` (cli/fit_grains.py:124-151). -/
noncomputable def select (minComp : ℝ) (maxChi : Option ℝ) (gs : List Grain) : List Grain :=
  open Classical in gs.filter fun g => decide (g.completeness ≥ minComp) && (match maxChi with | some m => decide (g.chisq ≤ m) | none => true)

/-- `write_grains_out` (cli/fit_grains.py:83-90; instrument/hedm_instrument.py:2327-2355): the logarithm is computed again, and the
completeness and chi squared are printed with six digits. The numbers of 17 digits are exact. -/
def written (lnOf : List ℝ → List ℝ) (f6 e6 : ℝ → ℝ) (gs : List Grain) : List Grain :=
  gs.map fun g => ⟨g.id, f6 g.completeness, e6 g.chisq, g.params, lnOf (g.params.drop 6)⟩

/-- `from_grains_out` (cli/fit_grains.py:66-81): a file with one row is read as a vector, and indexing it as a matrix raises; and so for
an empty file. -/
def fromGrainsOut : List Grain → Option (List Grain)
  | [] => none
  | [_] => none
  | l => some l

end Hexrd.Commands
