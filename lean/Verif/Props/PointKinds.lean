import Verif.Spec.PointKinds
import Verif.Spec.SGTables
import Verif.Props.PointGroups

/-! C136: which operators the point groups have. -/

namespace Hexrd.Ipf

open Hexrd.SpaceGroup

/-- The number of operators with the determinant and the trace. -/
def countKind (l : List Mat) (k : Int × Int) : Nat := (l.filter fun m => Spec.det m == k.1 && Spec.trace m == k.2).length

/-- Where the check is run. -/
def kindsChecked (g : PG) : Bool := (generatePG g).any fun l => Spec.kinds.map (countKind l) == Spec.PGKinds g

set_option maxRecDepth 100000 in
theorem kinds_checked (g : PG) (hg : g ∉ short) : kindsChecked g = true := by
  cases g
  case d4 => exact absurd hg (by decide)
  case d2d => exact absurd hg (by decide)
  case d3 => exact absurd hg (by decide)
  case c3v => exact absurd hg (by decide)
  all_goals decide +kernel

/-- C136: for 28 of the 32 point groups the operators are as many rotations and rotoinversions of each order as the group has. -/
theorem generated_kinds_partial (g : PG) (hg : g ∉ short) :
    ∃ l, generatePG g = some l ∧ ∀ (i : ℕ) (k : Int × Int), Spec.kinds[i]? = some k → (Spec.PGKinds g)[i]? = some (countKind l k) := by
  have h := kinds_checked g hg
  unfold kindsChecked at h
  cases e : generatePG g with
  | none => rw [e] at h; cases h
  | some l =>
    rw [e, Option.any_some, beq_iff_eq] at h
    refine ⟨l, rfl, fun i k hk => ?_⟩
    rw [← h, List.getElem?_map, hk]
    rfl

/-- The table agrees with the orders of the groups. -/
theorem kinds_order (g : PG) : (Spec.PGKinds g).sum = Spec.PGOrder g := by cases g <;> rfl

end Hexrd.Ipf
