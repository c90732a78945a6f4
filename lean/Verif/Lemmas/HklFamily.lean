import Verif.Lemmas.HklEnum
import Verif.Lemmas.CellOps
import Verif.Spec.Hkls

/-! Families of equivalent reflections. -/
namespace Hexrd.Hkls

open Hexrd.SpaceGroup Hexrd.UnitCell

theorem act_mul (m n : Mat) (v : Vec) : (m.mul n).act v = m.act (n.act v) := by
  simp only [Mat.act, Mat.mul, Vec.mk.injEq]
  refine ⟨by ring, by ring, by ring⟩

theorem act_one (v : Vec) : Mat.one.act v = v := by
  obtain ⟨x, y, z⟩ := v
  simp [Mat.one, Mat.act]

/-- The operators contain the identity first, and products and inverses. -/
structure Closed (sym : List Mat) : Prop where
  head : sym.head? = some Mat.one
  mul : ∀ m ∈ sym, ∀ n ∈ sym, m.mul n ∈ sym
  inv : ∀ m ∈ sym, ∃ n ∈ sym, m.mul n = Mat.one ∧ n.mul m = Mat.one

theorem Closed.one_mem {sym : List Mat} (h : Closed sym) : Mat.one ∈ sym := by
  have := h.head
  cases sym with
  | nil => cases this
  | cons a l => simp only [List.head?_cons, Option.some.injEq] at this; simp [this]

theorem equiv_refl {sym : List Mat} (h : Closed sym) (v : Vec) : Spec.Equivalent sym v v := ⟨_, h.one_mem, act_one v⟩

theorem equiv_symm {sym : List Mat} (h : Closed sym) {u v : Vec} (e : Spec.Equivalent sym u v) :
    Spec.Equivalent sym v u := by
  obtain ⟨s, hs, rfl⟩ := e
  obtain ⟨n, hn, _, h2⟩ := h.inv s hs
  exact ⟨n, hn, by rw [← act_mul, h2, act_one]⟩

theorem equiv_trans {sym : List Mat} (h : Closed sym) {u v w : Vec} (e : Spec.Equivalent sym u v)
    (e' : Spec.Equivalent sym v w) : Spec.Equivalent sym u w := by
  obtain ⟨s, hs, rfl⟩ := e
  obtain ⟨t, ht, rfl⟩ := e'
  exact ⟨t.mul s, h.mul t ht s hs, act_mul t s u⟩

/-! ### The star -/

theorem star_aux (v : Vec) : ∀ (l : List Mat) (acc : List Vec), acc.Nodup →
    let r := l.foldl (fun vsym s => if s.act v ∈ vsym then vsym else vsym ++ [s.act v]) acc
    acc <+: r ∧ r.Nodup ∧ ∀ w, w ∈ r ↔ w ∈ acc ∨ ∃ s ∈ l, s.act v = w := by
  intro l
  induction l with
  | nil => intro acc h; exact ⟨List.prefix_refl _, h, by simp⟩
  | cons s l ih =>
    intro acc h
    simp only [List.foldl_cons]
    by_cases hm : s.act v ∈ acc
    · rw [if_pos hm]
      obtain ⟨i1, i2, i3⟩ := ih acc h
      refine ⟨i1, i2, fun w => ?_⟩
      rw [i3]
      simp only [List.mem_cons, exists_eq_or_imp]
      constructor
      · rintro (h | h)
        · exact Or.inl h
        · exact Or.inr (Or.inr h)
      · rintro (h | rfl | h)
        · exact Or.inl h
        · exact Or.inl hm
        · exact Or.inr h
    · rw [if_neg hm]
      obtain ⟨i1, i2, i3⟩ := ih (acc ++ [s.act v]) (by
        rw [List.nodup_append]
        refine ⟨h, by simp, ?_⟩
        intro a ha b hb e
        rw [List.mem_singleton] at hb
        exact hm (hb ▸ e ▸ ha))
      refine ⟨(List.prefix_append _ _).trans i1, i2, fun w => ?_⟩
      rw [i3]
      simp only [List.mem_append, List.mem_cons, List.not_mem_nil, or_false, exists_eq_or_imp, or_assoc, eq_comm (a := w)]

theorem star_spec {sym : List Mat} (h : Closed sym) (v : Vec) :
    (calcStar sym v).Nodup ∧ (calcStar sym v).head? = some v ∧ ∀ w, w ∈ calcStar sym v ↔ Spec.Equivalent sym v w := by
  obtain ⟨i1, i2, i3⟩ := star_aux v sym.tail [v] (by simp)
  refine ⟨i2, ?_, ?_⟩
  · obtain ⟨t, ht⟩ := i1
    rw [calcStar, ← ht]; rfl
  · intro w
    rw [calcStar, i3]
    have hh := h.head
    cases sym with
    | nil => cases hh
    | cons a l =>
      simp only [List.head?_cons, Option.some.injEq] at hh
      subst hh
      simp only [List.mem_cons, List.not_mem_nil, or_false, List.tail_cons, Spec.Equivalent, exists_eq_or_imp, act_one, eq_comm (a := w)]

theorem star_tail {sym : List Mat} (h : Closed sym) (v w : Vec) :
    w ∈ (calcStar sym v).tail ↔ Spec.Equivalent sym v w ∧ w ≠ v := by
  obtain ⟨h1, h2, h3⟩ := star_spec h v
  rw [← h3]
  cases hc : calcStar sym v with
  | nil => rw [hc] at h2; cases h2
  | cons a l =>
    rw [hc] at h1 h2
    simp only [List.head?_cons, Option.some.injEq] at h2
    subst h2
    rw [List.nodup_cons] at h1
    simp only [List.tail_cons, List.mem_cons]
    constructor
    · intro hw; exact ⟨Or.inr hw, fun e => h1.1 (e ▸ hw)⟩
    · rintro ⟨rfl | hw, hne⟩
      · exact absurd rfl hne
      · exact hw

/-! ### The mask -/

/-- A row is cleared exactly if a different equivalent row was kept, and every row has a kept equivalent. -/
theorem clear_aux {sym : List Mat} (h : Closed sym) : ∀ (l done : List Vec) (cleared : List Vec),
    (done ++ l).Nodup →
    (∀ w, w ∈ cleared ↔ ∃ g ∈ done, g ∉ cleared ∧ Spec.Equivalent sym g w ∧ w ≠ g) →
    (∀ g ∈ done, ∃ r ∈ done, r ∉ cleared ∧ Spec.Equivalent sym g r) →
    let c := l.foldl (fun cleared g => if g ∈ cleared then cleared else cleared ++ (calcStar sym g).tail) cleared
    (∀ w, w ∈ c ↔ ∃ g ∈ done ++ l, g ∉ c ∧ Spec.Equivalent sym g w ∧ w ≠ g) ∧
    (∀ g ∈ done ++ l, ∃ r ∈ done ++ l, r ∉ c ∧ Spec.Equivalent sym g r) := by
  intro l
  induction l with
  | nil => intro done cleared _ h1 h2; simpa using ⟨h1, h2⟩
  | cons g l ih =>
    intro done cleared hn h1 h2
    simp only [List.foldl_cons]
    have happ : done ++ g :: l = (done ++ [g]) ++ l := by simp
    rw [happ] at hn ⊢
    by_cases hg : g ∈ cleared
    · rw [if_pos hg]
      refine ih (done ++ [g]) cleared hn ?_ ?_
      · intro w
        rw [h1 w]
        constructor
        · rintro ⟨x, hx, hr⟩; exact ⟨x, List.mem_append_left _ hx, hr⟩
        · rintro ⟨x, hx, hr⟩
          rcases List.mem_append.1 hx with hx | hx
          · exact ⟨x, hx, hr⟩
          · rw [List.mem_singleton] at hx
            exact absurd (hx ▸ hg) hr.1
      · intro x hx
        rcases List.mem_append.1 hx with hx | hx
        · obtain ⟨r, hr, h3⟩ := h2 x hx
          exact ⟨r, List.mem_append_left _ hr, h3⟩
        · rw [List.mem_singleton] at hx
          subst hx
          obtain ⟨y, hy, hyc, hyx, _⟩ := (h1 x).1 hg
          exact ⟨y, List.mem_append_left _ hy, hyc, equiv_symm h hyx⟩
    · rw [if_neg hg]
      have hnd : g ∉ done := by
        rw [List.append_assoc] at hn
        intro hd
        exact (List.nodup_append.1 hn).2.2 g hd g (by simp) rfl
      -- no uncleared row before is equivalent to g
      have hno : ∀ x ∈ done, x ∉ cleared → ¬ Spec.Equivalent sym x g := by
        intro x hx hxc hxg
        exact hg ((h1 g).2 ⟨x, hx, hxc, hxg, fun e => hnd (e ▸ hx)⟩)
      refine ih (done ++ [g]) _ hn ?_ ?_
      · intro w
        simp only [List.mem_append, List.mem_singleton, star_tail h]
        constructor
        · rintro (hw | ⟨hw, hne⟩)
          · obtain ⟨x, hx, hxc, hxw, hne⟩ := (h1 w).1 hw
            refine ⟨x, Or.inl hx, ?_, hxw, hne⟩
            rintro (hc | ⟨hc, _⟩)
            · exact hxc hc
            · exact hno x hx hxc (equiv_symm h hc)
          · refine ⟨g, Or.inr rfl, ?_, hw, hne⟩
            rintro (hc | ⟨_, hc⟩)
            · exact hg hc
            · exact hc rfl
        · rintro ⟨x, hx | rfl, hxc, hxw, hne⟩
          · exact Or.inl ((h1 w).2 ⟨x, hx, fun hc => hxc (Or.inl hc), hxw, hne⟩)
          · exact Or.inr ⟨hxw, hne⟩
      · intro x hx
        simp only [List.mem_append, List.mem_singleton, star_tail h] at hx ⊢
        rcases hx with hx | rfl
        · obtain ⟨r, hr, hrc, hxr⟩ := h2 x hx
          refine ⟨r, Or.inl hr, ?_, hxr⟩
          rintro (hc | ⟨hc, _⟩)
          · exact hrc hc
          · exact hno r hr hrc (equiv_symm h hc)
        · refine ⟨x, Or.inr rfl, ?_, equiv_refl h x⟩
          rintro (hc | ⟨_, hc⟩)
          · exact hg hc
          · exact hc rfl

theorem clear_spec {sym : List Mat} (h : Closed sym) (l : List Vec) (hn : l.Nodup) :
    (∀ w, w ∈ clearLoop sym l ↔ ∃ g ∈ l, g ∉ clearLoop sym l ∧ Spec.Equivalent sym g w ∧ w ≠ g) ∧
    (∀ g ∈ l, ∃ r ∈ l, r ∉ clearLoop sym l ∧ Spec.Equivalent sym g r) := by
  have := clear_aux h l [] [] (by simpa using hn) (by simp) (by simp)
  simpa [clearLoop] using this

/-! ### The representative -/

theorem mostPos_aux : ∀ (l : List Vec) (b : Vec),
    let r := l.foldl (fun best v => if vsum best < vsum v then v else best) b
    (r = b ∨ r ∈ l) ∧ vsum b ≤ vsum r ∧ ∀ v ∈ l, vsum v ≤ vsum r := by
  intro l
  induction l with
  | nil => intro b; simp
  | cons a l ih =>
    intro b
    simp only [List.foldl_cons]
    by_cases hlt : vsum b < vsum a
    · rw [if_pos hlt]
      obtain ⟨i1, i2, i3⟩ := ih a
      refine ⟨Or.inr ?_, by omega, ?_⟩
      · rcases i1 with i1 | i1
        · rw [i1]; exact List.mem_cons_self
        · exact List.mem_cons_of_mem _ i1
      · intro v hv
        rcases List.mem_cons.1 hv with rfl | hv
        · exact i2
        · exact i3 v hv
    · rw [if_neg hlt]
      obtain ⟨i1, i2, i3⟩ := ih b
      refine ⟨?_, i2, ?_⟩
      · rcases i1 with i1 | i1
        · exact Or.inl i1
        · exact Or.inr (List.mem_cons_of_mem _ i1)
      · intro v hv
        rcases List.mem_cons.1 hv with rfl | hv
        · omega
        · exact i3 v hv

theorem mostPositive_spec {sym : List Mat} (h : Closed sym) (g : Vec) :
    Spec.Equivalent sym g (mostPositive sym g) ∧
    ∀ v, Spec.Equivalent sym g v → vsum v ≤ vsum (mostPositive sym g) := by
  obtain ⟨i1, i2, i3⟩ := mostPos_aux (calcStar sym g) g
  obtain ⟨_, _, hs⟩ := star_spec h g
  refine ⟨?_, fun v hv => i3 v ((hs v).2 hv)⟩
  rcases i1 with i1 | i1
  · rw [mostPositive, i1]; exact equiv_refl h g
  · exact (hs _).1 i1

/-! ### The reciprocal operators -/

theorem transpose_mul (m n : Mat) : (m.mul n).transpose = n.transpose.mul m.transpose := by
  simp only [Mat.transpose, Mat.mul, Mat.mk.injEq]
  refine ⟨?_, ?_, ?_, ?_, ?_, ?_, ?_, ?_, ?_⟩ <;> ring

theorem mat_assoc (a b c : Mat) : (a.mul b).mul c = a.mul (b.mul c) := Mat.mul_assoc a b c

theorem forall2_mem {α β : Type} {R : α → β → Prop} : ∀ {l : List α} {l' : List β}, List.Forall₂ R l l' →
    (∀ r ∈ l', ∃ g ∈ l, R g r) ∧ (∀ g ∈ l, ∃ r ∈ l', R g r) := by
  intro l l' h
  induction h with
  | nil => simp
  | cons hab _ ih =>
    constructor
    · intro r hr
      rcases List.mem_cons.1 hr with rfl | hr
      · exact ⟨_, List.mem_cons_self, hab⟩
      · obtain ⟨g, hg, hh⟩ := ih.1 r hr
        exact ⟨g, List.mem_cons_of_mem _ hg, hh⟩
    · intro g hg
      rcases List.mem_cons.1 hg with rfl | hg
      · exact ⟨_, List.mem_cons_self, hab⟩
      · obtain ⟨r, hr, hh⟩ := ih.2 g hg
        exact ⟨r, List.mem_cons_of_mem _ hr, hh⟩

/-- Two inverses of the same matrix agree. -/
theorem inv_unique {g a b : Mat} (h1 : a.mul g = Mat.one) (h2 : g.mul b = Mat.one) : a = b := by
  calc a = a.mul Mat.one := (Mat.mul_one a).symm
    _ = a.mul (g.mul b) := by rw [h2]
    _ = (a.mul g).mul b := (Mat.mul_assoc a g b).symm
    _ = b := by rw [h1, Mat.one_mul]

theorem nodup_of_forall₂ : ∀ {G G' : List Mat}, G.Nodup →
    List.Forall₂ (fun g r => r.transpose.mul g = Mat.one ∧ g.mul r.transpose = Mat.one) G G' → G'.Nodup := by
  intro G G' hn hf
  induction hf with
  | nil => exact List.nodup_nil
  | cons hab htl ih =>
    rw [List.nodup_cons] at hn ⊢
    refine ⟨fun hm => ?_, ih hn.2⟩
    obtain ⟨g, hg, h1, _⟩ := (forall2_mem htl).1 _ hm
    exact hn.1 (inv_unique hab.2 h1 ▸ hg)

theorem recip_closed (G G' : List Mat) (hG : Spec.IsGroup Mat.mul Mat.one G) (hh : G'.head? = some Mat.one)
    (hf : List.Forall₂ (fun g r => r.transpose.mul g = Mat.one ∧ g.mul r.transpose = Mat.one) G G') : Closed G' := by
  obtain ⟨m1, m2⟩ := forall2_mem hf
  have mem : ∀ (r g : Mat), g ∈ G → r.transpose.mul g = Mat.one → r ∈ G' := by
    intro r g hg hr
    obtain ⟨r', hr', h1, h2⟩ := m2 g hg
    have : r.transpose = r'.transpose := inv_unique hr h2
    have := congrArg Mat.transpose this
    rw [Mat.transpose_transpose, Mat.transpose_transpose] at this
    exact this ▸ hr'
  refine ⟨hh, ?_, ?_⟩
  · intro a ha b hb
    obtain ⟨g, hg, g1, g2⟩ := m1 a ha
    obtain ⟨k, hk, k1, k2⟩ := m1 b hb
    refine mem _ (g.mul k) (hG.mul_mem g hg k hk) ?_
    rw [transpose_mul, Mat.mul_assoc, ← Mat.mul_assoc a.transpose, g1, Mat.one_mul, k1]
  · intro a ha
    obtain ⟨g, hg, g1, g2⟩ := m1 a ha
    obtain ⟨g', hg', e1, e2⟩ := hG.inv_mem g hg
    have t1 : (Mat.one).transpose = Mat.one := by decide
    refine ⟨g.transpose, mem _ g' hg' (by rw [Mat.transpose_transpose]; exact e1), ?_, ?_⟩
    · have := congrArg Mat.transpose g2
      rwa [transpose_mul, Mat.transpose_transpose, t1] at this
    · have := congrArg Mat.transpose g1
      rwa [transpose_mul, Mat.transpose_transpose, t1] at this

end Hexrd.Hkls
