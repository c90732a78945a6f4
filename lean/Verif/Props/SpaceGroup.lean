import Verif.Lemmas.SpaceGroup
import Mathlib.Data.Rat.Floor
import Mathlib.Tactic.FieldSimp
import Mathlib.Tactic.Ring
import Mathlib.Tactic.LinearCombination
import Mathlib.Tactic.NormNum

/-!
# Properties of the generated symmetry operators (C18)

`generateSGSym sg setting` models `GenerateSGSym` for the space-group numbers 1 to 237 the
code knows (231 to 237 are rhombohedral descriptions) in every origin setting.
-/
namespace Hexrd.SpaceGroup

/-- A point of the crystal in fractional coordinates. -/
structure Point where
  x : Rat
  y : Rat
  z : Rat

/-- What an operator does to a point: `R x + t`, with `t` given in 1/24 of the cell edges. -/
def Op.apply (p : Op) (v : Point) : Point where
  x := p.r.a * v.x + p.r.b * v.y + p.r.c * v.z + p.t.x / 24
  y := p.r.d * v.x + p.r.e * v.y + p.r.f * v.z + p.t.y / 24
  z := p.r.g * v.x + p.r.h * v.y + p.r.i * v.z + p.t.z / 24

/-- Two points differ by a lattice translation of the cell. -/
def SamePoint (v w : Point) : Prop :=
  ∃ a b c : Int, v.x = w.x + a ∧ v.y = w.y + b ∧ v.z = w.z + c

/-- C18: the product under which the operators are closed is composition of symmetry
operations, up to lattice translations. -/
theorem comp_is_composition (p q : Op) (v : Point) : SamePoint ((p.comp q).apply v) (p.apply (q.apply v)) := by
  have key : ∀ t : Int, ((t % 24 : Int) : Rat) / 24 = t / 24 + ((-(t / 24) : Int) : Rat) := by
    intro t
    have h : t % 24 + 24 * (t / 24) = t := Int.emod_add_mul_ediv t 24
    have h' : ((t % 24 : Int) : Rat) + 24 * ((t / 24 : Int) : Rat) = (t : Rat) := by exact_mod_cast h
    push_cast
    linear_combination h' / 24
  refine ⟨-((p.mul q).t.x / 24), -((p.mul q).t.y / 24), -((p.mul q).t.z / 24), ?_, ?_, ?_⟩
  · simp only [Op.comp, Op.frac, Op.apply, key]
    simp only [Op.mul, Mat.mul, Mat.act, Vec.add]
    push_cast
    ring
  · simp only [Op.comp, Op.frac, Op.apply, key]
    simp only [Op.mul, Mat.mul, Mat.act, Vec.add]
    push_cast
    ring
  · simp only [Op.comp, Op.frac, Op.apply, key]
    simp only [Op.mul, Mat.mul, Mat.act, Vec.add]
    push_cast
    ring

/-- C18: for every space group and setting the generation succeeds and yields a group of
operators, each listed once, with as many operators as the point group has rotations times
the lattice points of the cell; every rotation is unimodular. -/
theorem operators_form_group (sg setting : Nat) (h1 : 1 ≤ sg) (h2 : sg ≤ 237) :
    ∃ S, generateSGSym sg setting = some S ∧ Spec.IsGroup Op.comp Op.one S.ops ∧
      S.ops.length = Spec.order sg ∧ ∀ p ∈ S.ops, p.r.det = 1 ∨ p.r.det = -1 := by
  obtain ⟨S, _, _, e, _, hg, _, _, hd, hl, _⟩ := main sg setting h1 h2
  refine ⟨S, e, hg, hl, ?_⟩
  intro p hp
  have := hd p hp
  have hf : (p.r.det - 1) * (p.r.det + 1) = 0 := by linear_combination this
  rcases Int.mul_eq_zero.1 hf with h | h
  · exact Or.inl (by omega)
  · exact Or.inr (by omega)

/-- C18: the operators are exactly the products of the generators read from the table: all
generators are operators, and the list is the smallest set closed under composition that
contains them. -/
theorem operators_generated (sg setting : Nat) (h1 : 1 ≤ sg) (h2 : sg ≤ 237) :
    ∃ S s gs c0, generateSGSym sg setting = some S ∧ symGL[sg - 1]? = some s ∧
      makeGenerators s setting = some (gs, c0) ∧
      ∀ p, p ∈ S.ops ↔ Spec.Generated Op.comp gs p := by
  obtain ⟨S, gs, c0, e, hm, hg, hgen, hin, _⟩ := main sg setting h1 h2
  cases hs : symGL[sg - 1]? with
  | none => rw [hs] at hm; cases hm
  | some s =>
    rw [hs] at hm
    refine ⟨S, s, gs, c0, e, rfl, hm, fun p => ⟨hgen p, ?_⟩⟩
    intro h
    induction h with
    | gen g hg => exact hin g hg
    | mul x y _ _ hx hy => exact hg.mul_mem x hx y hy

/-- C18, point group: it is a group of rotations of the tabulated order, consisting of
exactly the rotation parts of the operators. -/
theorem pointGroup_forms_group (sg setting : Nat) (h1 : 1 ≤ sg) (h2 : sg ≤ 237) :
    ∃ S, generateSGSym sg setting = some S ∧ Spec.IsGroup Mat.mul Mat.one S.pg ∧
      S.pg.length = Spec.pointGroupOrder sg ∧ ∀ m, m ∈ S.pg ↔ ∃ p ∈ S.ops, p.r = m := by
  obtain ⟨S, _, _, e, _, hg, _, _, _, _, hp, hpl, _⟩ := main sg setting h1 h2
  refine ⟨S, e, ?_, hpl, ?_⟩
  · rw [hp]; exact pointGroup_isGroup _ hg
  · rw [hp]; exact (pointGroup_spec S.ops).2.1

/-- C18, Laue group: it is a group, consisting of the rotations of the point group and
their products with the inversion; the flag `centrosymmetric` says whether the point group
contains the inversion. -/
theorem laueGroup_forms_group (sg setting : Nat) (h1 : 1 ≤ sg) (h2 : sg ≤ 237) :
    ∃ S, generateSGSym sg setting = some S ∧ Spec.IsGroup Mat.mul Mat.one S.laue ∧
      (∀ m, m ∈ S.laue ↔ m ∈ S.pg ∨ m.neg ∈ S.pg) ∧ (S.centro = true ↔ Mat.minusOne ∈ S.pg) := by
  obtain ⟨S, _, _, e, _, hg, _, _, _, _, hp, hpl, hl, hsz, hc⟩ := main sg setting h1 h2
  have hpg : Spec.IsGroup Mat.mul Mat.one S.pg := by rw [hp]; exact pointGroup_isGroup _ hg
  obtain ⟨q1, q2⟩ := laueGroup_spec S.pg hpg hsz
  rw [← hl] at q1 q2
  refine ⟨S, e, ⟨q1, (q2 _).2 (Or.inl hpg.one_mem), fun x _ => Mat.one_mul x, fun x _ => Mat.mul_one x, ?_,
    fun x _ y _ z _ => Mat.mul_assoc x y z, ?_⟩, q2, hc⟩
  · intro x hx y hy
    rw [q2] at hx hy ⊢
    rcases hx with hx | hx <;> rcases hy with hy | hy
    · exact Or.inl (hpg.mul_mem _ hx _ hy)
    · exact Or.inr (by rw [← Mat.mul_neg]; exact hpg.mul_mem _ hx _ hy)
    · exact Or.inr (by rw [← Mat.neg_mul]; exact hpg.mul_mem _ hx _ hy)
    · refine Or.inl ?_
      have := hpg.mul_mem _ hx _ hy
      rwa [Mat.neg_mul, Mat.mul_neg, Mat.neg_neg] at this
  · intro x hx
    rw [q2] at hx
    rcases hx with hx | hx
    · obtain ⟨y, hy, e1, e2⟩ := hpg.inv_mem x hx
      exact ⟨y, (q2 _).2 (Or.inl hy), e1, e2⟩
    · obtain ⟨y, hy, e1, e2⟩ := hpg.inv_mem _ hx
      refine ⟨y.neg, (q2 _).2 (Or.inr (by rw [Mat.neg_neg]; exact hy)), ?_, ?_⟩
      · rw [Mat.mul_neg, ← Mat.neg_mul]; exact e1
      · rw [Mat.neg_mul, ← Mat.mul_neg]; exact e2

/-- C18: a number outside 1 to 237 is refused. -/
theorem other_numbers_refused (sg setting : Nat) (h : sg = 0 ∨ 237 < sg) : generateSGSym sg setting = none := by
  rcases h with rfl | h
  · rfl
  · have : symGL[sg - 1]? = none := List.getElem?_eq_none (by
      have : symGL.length = 237 := by decide +kernel
      omega)
    rw [generateSGSym]
    split
    · rfl
    · rw [this]; rfl

/-- Concrete case: Fd-3m (number 227) has 192 operators, its point group 48 rotations, and
in the first setting the generators do not include the inversion at the origin. -/
example : Spec.order 227 = 192 ∧ Spec.pointGroupOrder 227 = 48 ∧
    ∃ S, generateSGSym 227 0 = some S ∧ S.ops.length = 192 ∧ S.centro = true := by
  refine ⟨by decide, by decide, ?_⟩
  obtain ⟨S, gs, c0, e, hm, hg, _, hin, _, hl, hp, _, _, _, hc⟩ := main 227 0 (by decide) (by decide)
  refine ⟨S, e, hl, hc.2 ?_⟩
  rw [hp]
  refine ((pointGroup_spec _).2.1 _).2 ⟨⟨Mat.minusOne, ⟨6, 6, 6⟩⟩, hin _ ?_, rfl⟩
  have : (symGL[226]?).bind (fun s => makeGenerators s 0) = some (gs, c0) := hm
  have h2 : ((symGL[226]?).bind (fun s => makeGenerators s 0)).map
      (fun p => decide (⟨Mat.minusOne, ⟨6, 6, 6⟩⟩ ∈ p.1)) = some true := by decide +kernel
  rw [this] at h2
  simpa using h2

end Hexrd.SpaceGroup
