import Verif.Lemmas.AbsTable

/-! Kernel evaluation of the check of the reflection conditions, space groups 1 to 142. -/
namespace Hexrd.SpaceGroup

set_option maxRecDepth 100000 in
theorem absRunA : ((List.range' 1 142).all checkAbs) = true := by decide +kernel

end Hexrd.SpaceGroup
