import Verif.Lemmas.SGTable

/-! Kernel evaluation of the check for the space groups 1 to 142. -/
namespace Hexrd.SpaceGroup

set_option maxRecDepth 100000 in
theorem runA : ((List.range' 1 142).all checkAt) = true := by decide +kernel

end Hexrd.SpaceGroup
