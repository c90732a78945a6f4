import Verif.Model.SpaceGroup

/-! Generic facts on the generation loops `inner` and `outer`. -/
namespace Hexrd.SpaceGroup
variable {α : Type} [DecidableEq α]

theorem isnew_iff (g : α) (l : List α) : isnew g l = true ↔ g ∉ l := by
  unfold isnew
  rw [List.all_eq_true]
  constructor
  · intro h hg
    have := h g hg
    simp at this
  · intro h x hx
    have : g ≠ x := fun e => h (e ▸ hx)
    simp [this]

theorem isnew_false_iff (g : α) (l : List α) : isnew g l = false ↔ g ∈ l := by
  rw [← Bool.not_eq_true, isnew_iff, Classical.not_not]

/-- Nothing happens once the list is closed. -/
theorem inner_closed (mul : α → α → α) (bound : Nat) (l : List α) (g1 : α)
    (hcl : ∀ y ∈ l, mul g1 y ∈ l) (fuel k2 : Nat) :
    inner mul bound g1 fuel k2 l = (l, false) := by
  induction fuel generalizing k2 with
  | zero => rfl
  | succ n ih =>
    unfold inner
    cases h : l[k2]? with
    | none => rfl
    | some g2 =>
      have hm : isnew (mul g1 g2) l = false :=
        (isnew_false_iff _ _).2 (hcl g2 (List.mem_of_getElem? h))
      simp only [hm]
      exact ih (k2 + 1)

theorem outer_closed (mul : α → α → α) (bound : Nat) (l : List α)
    (hcl : ∀ x ∈ l, ∀ y ∈ l, mul x y ∈ l) (fuel k1 : Nat) :
    outer mul bound fuel k1 l = l := by
  induction fuel generalizing k1 with
  | zero => rfl
  | succ n ih =>
    unfold outer
    cases h : l[k1]? with
    | none => rfl
    | some g1 =>
      simp only [inner_closed mul bound l g1 (hcl g1 (List.mem_of_getElem? h))]
      exact ih (k1 + 1)

/-- What `inner` does to a list. -/
theorem inner_spec (mul : α → α → α) (bound : Nat) (g1 : α) (P : α → Prop)
    (hP : ∀ x y, P x → P y → P (mul x y)) (hg1 : P g1) (fuel k2 : Nat) (l : List α)
    (hl : l.length < bound) (hf : bound ≤ fuel + k2) (hn : l.Nodup) (hall : ∀ x ∈ l, P x) :
    l <+: (inner mul bound g1 fuel k2 l).1 ∧ (inner mul bound g1 fuel k2 l).1.Nodup ∧
    (∀ x ∈ (inner mul bound g1 fuel k2 l).1, P x) ∧
    ((inner mul bound g1 fuel k2 l).2 = true → (inner mul bound g1 fuel k2 l).1.length = bound) ∧
    ((inner mul bound g1 fuel k2 l).2 = false →
      (inner mul bound g1 fuel k2 l).1.length < bound ∧
      ∀ j g2, k2 ≤ j → l[j]? = some g2 → mul g1 g2 ∈ (inner mul bound g1 fuel k2 l).1) := by
  induction fuel generalizing k2 l with
  | zero =>
    simp only [inner]
    refine ⟨List.prefix_refl _, hn, hall, by simp, fun _ => ⟨hl, ?_⟩⟩
    intro j g2 hj hg
    have := (List.getElem?_eq_some_iff.1 hg).1
    omega
  | succ n ih =>
    unfold inner
    cases h : l[k2]? with
    | none =>
      simp only
      refine ⟨List.prefix_refl _, hn, hall, by simp, fun _ => ⟨hl, ?_⟩⟩
      intro j g2 hj hg
      have h1 := (List.getElem?_eq_some_iff.1 hg).1
      have h2 := List.getElem?_eq_none_iff.1 h
      omega
    | some g2 =>
      simp only
      by_cases hnew : isnew (mul g1 g2) l = true
      · rw [if_pos hnew]
        have hn' : (l ++ [mul g1 g2]).Nodup := by
          rw [List.nodup_append]
          refine ⟨hn, by simp, ?_⟩
          intro a ha b hb
          rw [List.mem_singleton] at hb
          subst hb
          intro e
          exact (isnew_iff _ _).1 hnew (e ▸ ha)
        have hall' : ∀ x ∈ l ++ [mul g1 g2], P x := by
          intro x hx
          rw [List.mem_append, List.mem_singleton] at hx
          rcases hx with hx | rfl
          · exact hall x hx
          · exact hP _ _ hg1 (hall _ (List.mem_of_getElem? h))
        by_cases hb : (l ++ [mul g1 g2]).length ≥ bound
        · rw [if_pos hb]
          refine ⟨List.prefix_append _ _, hn', hall', ?_, by simp⟩
          intro _
          simp only [List.length_append, List.length_singleton] at hb ⊢
          omega
        · rw [if_neg hb]
          obtain ⟨h1, h2, h3, h4, h5⟩ := ih (k2 + 1) (l ++ [mul g1 g2]) (by omega) (by omega) hn' hall'
          refine ⟨(List.prefix_append _ _).trans h1, h2, h3, h4, ?_⟩
          intro hs
          refine ⟨(h5 hs).1, ?_⟩
          intro j g hj hg
          by_cases hjk : j = k2
          · subst hjk
            rw [h] at hg
            cases hg
            exact h1.subset (by simp)
          · refine (h5 hs).2 j g (by omega) ?_
            rw [List.getElem?_append_left (List.getElem?_eq_some_iff.1 hg).1]
            exact hg
      · rw [if_neg hnew]
        have hmem : mul g1 g2 ∈ l := by
          rw [isnew_iff, Classical.not_not] at hnew
          exact hnew
        obtain ⟨h1, h2, h3, h4, h5⟩ := ih (k2 + 1) l hl (by omega) hn hall
        refine ⟨h1, h2, h3, h4, ?_⟩
        intro hs
        refine ⟨(h5 hs).1, ?_⟩
        intro j g hj hg
        by_cases hjk : j = k2
        · subst hjk
          rw [h] at hg
          cases hg
          exact h1.subset hmem
        · exact (h5 hs).2 j g (by omega) hg

/-- What `outer` does to a list: it only appends, stays inside every set closed under
the product, and, unless the bound stops it, contains the products of the initial
entries taken in order. -/
theorem outer_spec (mul : α → α → α) (bound : Nat) (P : α → Prop)
    (hP : ∀ x y, P x → P y → P (mul x y)) (fuel k1 : Nat) (l : List α)
    (hl : l.length < bound) (hf : bound ≤ fuel + k1) (hn : l.Nodup) (hall : ∀ x ∈ l, P x) :
    l <+: outer mul bound fuel k1 l ∧ (outer mul bound fuel k1 l).Nodup ∧
    (∀ x ∈ outer mul bound fuel k1 l, P x) ∧
    ((outer mul bound fuel k1 l).length = bound ∨
      ∀ i j g1 g2, k1 ≤ i → i ≤ j → l[i]? = some g1 → l[j]? = some g2 →
        mul g1 g2 ∈ outer mul bound fuel k1 l) := by
  induction fuel generalizing k1 l with
  | zero =>
    simp only [outer]
    refine ⟨List.prefix_refl _, hn, hall, Or.inr ?_⟩
    intro i j g1 g2 hi hj hg
    have := (List.getElem?_eq_some_iff.1 hg).1
    omega
  | succ n ih =>
    unfold outer
    cases h : l[k1]? with
    | none =>
      simp only
      refine ⟨List.prefix_refl _, hn, hall, Or.inr ?_⟩
      intro i j g1 g2 hi hj hg
      have h1 := (List.getElem?_eq_some_iff.1 hg).1
      have h2 := List.getElem?_eq_none_iff.1 h
      omega
    | some g1 =>
      have hs := inner_spec mul bound g1 P hP (hall _ (List.mem_of_getElem? h)) (bound + 1) k1 l hl
        (by omega) hn hall
      rcases e : inner mul bound g1 (bound + 1) k1 l with ⟨l', b⟩
      rw [e] at hs
      obtain ⟨h1, h2, h3, h4, h5⟩ := hs
      cases b with
      | true =>
        simp only [e]
        exact ⟨h1, h2, h3, Or.inl (h4 rfl)⟩
      | false =>
        simp only [e]
        obtain ⟨q1, q2, q3, q4⟩ := ih (k1 + 1) l' (h5 rfl).1 (by omega) h2 h3
        refine ⟨h1.trans q1, q2, q3, ?_⟩
        rcases q4 with q4 | q4
        · exact Or.inl q4
        · refine Or.inr ?_
          intro i j g g2 hi hij hg hg2
          by_cases hik : i = k1
          · subst hik
            rw [h] at hg
            cases hg
            exact q1.subset ((h5 rfl).2 j g2 hij hg2)
          · have hpre : ∀ (k : Nat) x, l[k]? = some x → l'[k]? = some x := by
              intro k x hk
              obtain ⟨t, rfl⟩ := h1
              rw [List.getElem?_append_left (List.getElem?_eq_some_iff.1 hk).1]
              exact hk
            exact q4 i j g g2 (by omega) hij (hpre _ _ hg) (hpre _ _ hg2)

end Hexrd.SpaceGroup
