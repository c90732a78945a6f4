import Verif.Lemmas.SGTable

/-! Kernel evaluation of the check for the second settings 0 to 23. -/
namespace Hexrd.SpaceGroup

set_option maxRecDepth 100000 in
theorem runC : ((List.range' 0 24).all checkAlt) = true := by decide +kernel

end Hexrd.SpaceGroup
