import Verif.Lemmas.AbsTable

/-! Kernel evaluation of the check of the reflection conditions, space groups 143 to 230. -/
namespace Hexrd.SpaceGroup

set_option maxRecDepth 100000 in
theorem absRunB : ((List.range' 143 88).all checkAbs) = true := by decide +kernel

end Hexrd.SpaceGroup
