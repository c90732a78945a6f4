import Verif.Model.OutFiles

/-! # Specification for C181 -/
namespace Hexrd.OutFiles.Spec

/-- Two configurations with the same working directory and the same placement of files. -/
def Together (c d : Cfg) : Prop := c.working = d.working ∧ c.newPlacement = d.newPlacement

end Hexrd.OutFiles.Spec
