import Verif.Spec.Ipf
import Verif.Lemmas.SGClosure
import Verif.Lemmas.SGGroup
import Verif.Spec.SpaceGroup
import Verif.Lemmas.SGCheck

/-!
C136: the operators generated for a point group.
-/
namespace Hexrd.Ipf

open Hexrd.SpaceGroup

/-- The groups for which the loop stops too early. -/
def short : List PG := [.d4, .d2d, .d3, .c3v]

/-- The list contains the unit, is closed under products by the generators on the left, and contains their inverses. -/
def checkGroup (gens l : List Mat) (n : Nat) : Bool :=
  l.contains Mat.one && (gens.all fun x => l.all fun y => l.contains (x.mul y))
    && (gens.all fun x => l.any fun y => (x.mul y == Mat.one) && (y.mul x == Mat.one)) && l.length == n

theorem isGroup_of_check {gens l : List Mat} {n : Nat} (hg : ∀ m ∈ l, Spec.Generated Mat.mul gens m)  (hd : l.Nodup) (h : checkGroup gens l n = true) : Spec.IsGroup Mat.mul Mat.one l ∧ l.length = n := by
  unfold checkGroup at h
  simp only [Bool.and_eq_true, List.all_eq_true, List.any_eq_true, List.contains_iff_mem, beq_iff_eq] at h
  obtain ⟨⟨⟨h1, h2⟩, h3⟩, h5⟩ := h
  have hc : ∀ x, Spec.Generated Mat.mul gens x → ∀ y ∈ l, x.mul y ∈ l := by
    intro x hx
    induction hx with
    | gen g hg => exact h2 g hg
    | mul a b _ _ ia ib => intro y hy; rw [Mat.mul_assoc]; exact ia _ (ib _ hy)
  have hi : ∀ x, Spec.Generated Mat.mul gens x → ∃ y ∈ l, x.mul y = Mat.one ∧ y.mul x = Mat.one := by
    intro x hx
    induction hx with
    | gen g hg => exact h3 g hg
    | mul a b _ _ ia ib =>
      obtain ⟨a', ha, e1, e2⟩ := ia
      obtain ⟨b', hb, e3, e4⟩ := ib
      refine ⟨b'.mul a', hc _ (hg _ hb) _ ha, ?_, ?_⟩
      · rw [Mat.mul_assoc, ← Mat.mul_assoc b, e3, Mat.one_mul, e1]
      · rw [Mat.mul_assoc, ← Mat.mul_assoc a', e2, Mat.one_mul, e4]
  exact ⟨⟨hd, h1, fun x _ => Mat.one_mul x, fun x _ => Mat.mul_one x, fun x hx => hc x (hg x hx),
    fun x _ y _ z _ => Mat.mul_assoc x y z, fun x hx => hi x (hg x hx)⟩, h5⟩

/-- Where the check is run. -/
def checked (g : PG) : Bool := (pgGenerators (glPG g)).any fun gens => (generatePG g).any fun l => checkGroup gens l (Spec.PGOrder g)

set_option maxRecDepth 100000 in
theorem checked_oh : checked .oh = true := by decide +kernel

set_option maxRecDepth 100000 in
theorem checked_d6h : checked .d6h = true := by decide +kernel

set_option maxRecDepth 100000 in
theorem checked_d4h : checked .d4h = true := by decide +kernel

set_option maxRecDepth 100000 in
theorem checked_cubic (g : PG) (h : g ∈ [PG.t, .th, .o, .td]) : checked g = true := by
  revert h; cases g <;> first | exact fun h => absurd h (by decide) | (intro _; decide +kernel)

set_option maxRecDepth 100000 in
theorem all_checked (g : PG) (hg : g ∉ short) : checked g = true := by
  cases g
  case oh => exact checked_oh
  case d6h => exact checked_d6h
  case d4h => exact checked_d4h
  case t => exact checked_cubic _ (by decide)
  case th => exact checked_cubic _ (by decide)
  case o => exact checked_cubic _ (by decide)
  case td => exact checked_cubic _ (by decide)
  case d4 => exact absurd hg (by decide)
  case d2d => exact absurd hg (by decide)
  case d3 => exact absurd hg (by decide)
  case c3v => exact absurd hg (by decide)
  all_goals decide +kernel

/-- C136: the operators are products of the generators of the table, and contain them, without repetition. -/
theorem generated_products (g : PG) : ∃ gens l, pgGenerators (glPG g) = some gens ∧ generatePG g = some l ∧
    l.Nodup ∧ (∀ m ∈ gens, m ∈ l) ∧ ∀ m ∈ l, Spec.Generated Mat.mul gens m := by
  have hg : ∃ gens, pgGenerators (glPG g) = some gens ∧ gens.length < 48 ∧ gens.Nodup := by
    have key : ((pgGenerators (glPG g)).any fun gens => decide (gens.length < 48 ∧ gens.Nodup)) = true := by
      cases g <;> decide +kernel
    cases h : pgGenerators (glPG g) with
    | none => rw [h] at key; cases key
    | some l => rw [h] at key; exact ⟨l, rfl, by simpa using key⟩
  obtain ⟨gens, e, hl, hn⟩ := hg
  obtain ⟨h1, h2, h3, -⟩ := outer_spec Mat.mul 48 (Spec.Generated Mat.mul gens) (fun x y hx hy => .mul x y hx hy) 49 0 gens hl
    (by omega) hn (fun x hx => .gen x hx)
  exact ⟨gens, _, e, by unfold generatePG; rw [e]; rfl, h2, fun m hm => h1.subset hm, h3⟩

/-- C136: for 28 of the 32 point groups the operators form a group of the right order. -/
theorem generated_group_partial (g : PG) (hg : g ∉ short) :
    ∃ l, generatePG g = some l ∧ Spec.IsGroup Mat.mul Mat.one l ∧ l.length = Spec.PGOrder g := by
  obtain ⟨gens, l, e1, e2, hd, hm, hgen⟩ := generated_products g
  have h := all_checked g hg
  unfold checked at h
  rw [e1, e2] at h
  obtain ⟨h1, h2⟩ := isGroup_of_check hgen hd h
  exact ⟨l, e2, h1, h2⟩

set_option maxRecDepth 100000 in
/-- C136, disagreement: for the groups 422, -42m, 32 and 3m the product of two operators is missing. -/
theorem generated_group_fails (g : PG) (hg : g ∈ short) :
    ∃ l, generatePG g = some l ∧ l.length + 1 = Spec.PGOrder g ∧ ∃ x ∈ l, ∃ y ∈ l, x.mul y ∉ l := by
  have key : ((generatePG g).any fun l => decide (l.length + 1 = Spec.PGOrder g) &&
      l.any fun x => l.any fun y => !l.contains (x.mul y)) = true := by
    cases g <;> first | exact absurd hg (by decide) | decide +kernel
  cases h : generatePG g with
  | none => rw [h] at key; cases key
  | some l =>
    rw [h] at key
    simp only [Option.any_some, Bool.and_eq_true, decide_eq_true_eq, List.any_eq_true, Bool.not_eq_true',
      Bool.eq_false_iff, ne_eq, List.contains_iff_mem] at key
    exact ⟨l, rfl, key.1, key.2⟩

end Hexrd.Ipf
