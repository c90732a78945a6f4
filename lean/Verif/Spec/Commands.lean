import Verif.Model.Commands

/-! What a refinement starts from. Only the data types are those of the model. -/

namespace Hexrd.Commands.Spec

/-- The estimate of a section is a file that exists. -/
def HasEstimate {Q R : Type} (fs : FS Q R) (c : Cfg) (e : Path) (t : List R) : Prop := c.estimate = some e ∧ fs e = some (.table t)

/-- There is no estimate that can be read. -/
def NoEstimate {Q R : Type} (fs : FS Q R) (c : Cfg) : Prop := ∀ e, c.estimate = some e → fs e = none

/-- The orientations of a section: the accepted ones if there is a file of them, else those of a search. -/
def Orientations {Q R : Type} (lib : Lib Q R) (fs : FS Q R) (c : Cfg) (l : List Q) : Prop :=
  fs c.accepted = some (.quats l) ∨ (fs c.accepted = none ∧ l = lib.find c)

/-- What the refinement of a section starts from: with `clean`, or without an estimate, the orientations; else the estimate. -/
def StartsFrom {Q R : Type} (lib : Lib Q R) (a : Args) (fs : FS Q R) (c : Cfg) (t : List R) : Prop :=
  ((a.clean = true ∨ NoEstimate fs c) ∧ ∃ l, Orientations lib fs c l ∧ t = lib.rows l) ∨
    (a.clean = false ∧ ∃ e, HasEstimate fs c e t)

end Hexrd.Commands.Spec
