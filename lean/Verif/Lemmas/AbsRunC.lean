import Verif.Lemmas.AbsTable

/-! Kernel evaluation of the check of the reflection conditions for the second settings. -/
namespace Hexrd.SpaceGroup

set_option maxRecDepth 100000 in
theorem absRunC : ((List.range' 0 24).all checkAbsAlt) = true := by decide +kernel

end Hexrd.SpaceGroup
