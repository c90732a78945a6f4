import Verif.Lemmas.SGTable

/-! Kernel evaluation of the check for the space groups 143 to 237. -/
namespace Hexrd.SpaceGroup

set_option maxRecDepth 100000 in
theorem runB : ((List.range' 143 95).all checkAt) = true := by decide +kernel

end Hexrd.SpaceGroup
