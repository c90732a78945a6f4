import Verif.Spec.Variants
import Mathlib.LinearAlgebra.Matrix.NonsingularInverse
import Mathlib.Data.List.Perm.Basic
import Mathlib.Data.List.Nodup
import Mathlib.Algebra.BigOperators.Group.List.Basic
import Mathlib.Algebra.BigOperators.Fin
import Mathlib.Tactic.FinCases
import Mathlib.Tactic.Linarith
import Mathlib.Tactic.Ring
import Mathlib.Tactic.NormNum
import Mathlib.Tactic.LinearCombination

/-!
C111: the variants of a phase transformation.
-/

namespace Hexrd.Variants
open Matrix

theorem close_self (a : M3) : Close a a := by
  simp only [Close, sub_self, abs_zero, Finset.sum_const_zero]; norm_num

theorem orth_comm {a : M3} (h : a * aᵀ = 1) : aᵀ * a = 1 := mul_eq_one_comm.1 h

/-- The matrix of the loop for one symmetry of the parent. -/
theorem loop_matrix (r1 r2 sa : M3) : r2 * (sa * r1)ᵀ = (r1 * r2ᵀ)ᵀ * saᵀ := by
  rw [transpose_mul, transpose_mul, transpose_transpose, Matrix.mul_assoc]

/-- Two symmetries of the parent lead to the same variant. -/
def E (T : M3) (sym2 : List M3) (a b : M3) : Prop := ∃ s ∈ sym2, s * (Tᵀ * aᵀ) = Tᵀ * bᵀ

theorem isNew_iff {T : M3} {sym1 sym2 : List M3} (hsep : Separated T sym1 sym2) {b : M3} (hb : b ∈ sym1) {reps : List M3}
    (hr : ∀ a ∈ reps, a ∈ sym1) : isNew (Tᵀ * bᵀ) (reps.map fun a => Tᵀ * aᵀ) sym2 = true ↔ ∀ a ∈ reps, ¬ E T sym2 a b := by
  simp only [isNew, Bool.not_eq_true', ← Bool.not_eq_true, List.any_eq_true, decide_eq_true_eq, List.mem_map, E, not_exists, not_and]
  constructor
  · intro h a ha s hs he
    exact h _ ⟨a, ha, rfl⟩ s hs (he ▸ close_self _)
  · rintro h _ ⟨a, ha, rfl⟩ s hs hc
    exact h a ha s hs (hsep.2 a (hr a ha) b hb s hs hc)

theorem loop_spec (r1 r2 : M3) (sym1 sym2 : List M3) (h2 : IsPointGroup sym2)
    (hsep : Separated (r1 * r2ᵀ) sym1 sym2) (L : List M3) : ∀ reps : List M3, (∀ a ∈ reps, a ∈ sym1) → (∀ a ∈ L, a ∈ sym1) →
      reps.Pairwise (fun a b => ¬ E (r1 * r2ᵀ) sym2 a b) →
      ∃ reps' : List M3, orLoop r1 r2 sym2 (reps.map fun a => (r1 * r2ᵀ)ᵀ * aᵀ) L = reps'.map (fun a => (r1 * r2ᵀ)ᵀ * aᵀ) ∧
        (∀ a ∈ reps', a ∈ sym1) ∧ reps'.Pairwise (fun a b => ¬ E (r1 * r2ᵀ) sym2 a b) ∧ (∀ a ∈ reps, a ∈ reps') ∧
        ∀ a ∈ L, ∃ r ∈ reps', E (r1 * r2ᵀ) sym2 r a := by
  set T := r1 * r2ᵀ with hT
  induction L with
  | nil => intro reps hr _ hp; exact ⟨reps, rfl, hr, hp, fun a h => h, by simp⟩
  | cons b rest ih =>
    intro reps hr hL hp
    have hb := hL b List.mem_cons_self
    have hrest : ∀ a ∈ rest, a ∈ sym1 := fun a ha => hL a (List.mem_cons_of_mem _ ha)
    simp only [orLoop, loop_matrix, ← hT]
    by_cases hn : isNew (Tᵀ * bᵀ) (reps.map fun a => Tᵀ * aᵀ) sym2 = true
    · rw [if_pos hn]
      have hall := (isNew_iff hsep hb hr).1 hn
      have e : (reps.map fun a => Tᵀ * aᵀ) ++ [Tᵀ * bᵀ] = (reps ++ [b]).map fun a => Tᵀ * aᵀ := by simp
      rw [e]
      obtain ⟨reps', e1, e2, e3, e4, e5⟩ := ih (reps ++ [b]) (by
        intro a ha
        rcases List.mem_append.1 ha with h | h
        · exact hr a h
        · rw [List.mem_singleton.1 h]; exact hb) hrest (by
        rw [List.pairwise_append]
        refine ⟨hp, by simp, fun a ha c hc => ?_⟩
        rw [List.mem_singleton.1 hc]; exact hall a ha)
      refine ⟨reps', e1, e2, e3, fun a ha => e4 a (List.mem_append_left _ ha), ?_⟩
      intro a ha
      rcases List.mem_cons.1 ha with rfl | h
      · exact ⟨a, e4 a (by simp), 1, h2.one, by rw [Matrix.one_mul]⟩
      · exact e5 a h
    · rw [if_neg hn]
      have hex : ∃ a ∈ reps, E T sym2 a b := by
        by_contra hc
        push Not at hc
        exact hn ((isNew_iff hsep hb hr).2 hc)
      obtain ⟨reps', e1, e2, e3, e4, e5⟩ := ih reps hr hrest hp
      refine ⟨reps', e1, e2, e3, e4, ?_⟩
      intro a ha
      rcases List.mem_cons.1 ha with rfl | h
      · obtain ⟨r, hr, he⟩ := hex
        exact ⟨r, e4 r hr, he⟩
      · exact e5 a h

theorem E_iff (T : M3) (sym2 : List M3) (h2 : IsPointGroup sym2) (a b : M3) : E T sym2 a b ↔ SameVariant sym2 (a * T) (b * T) := by
  constructor
  · rintro ⟨s, hs, h⟩
    refine ⟨sᵀ, h2.inv s hs, ?_⟩
    have := congrArg transpose h
    simp only [transpose_mul, transpose_transpose] at this
    exact this.symm
  · rintro ⟨s, hs, h⟩
    refine ⟨sᵀ, h2.inv s hs, ?_⟩
    have := congrArg transpose h
    simp only [transpose_mul] at this
    rw [Matrix.mul_assoc] at *
    exact this.symm

theorem same_symm {sym2 : List M3} (h2 : IsPointGroup sym2) {v w : M3} (h : SameVariant sym2 v w) : SameVariant sym2 w v := by
  obtain ⟨s, hs, rfl⟩ := h
  exact ⟨sᵀ, h2.inv s hs, by rw [Matrix.mul_assoc, h2.orth s hs, Matrix.mul_one]⟩

theorem same_trans {sym2 : List M3} (h2 : IsPointGroup sym2) {u v w : M3} (h : SameVariant sym2 u v) (h' : SameVariant sym2 v w) :
    SameVariant sym2 u w := by
  obtain ⟨s, hs, rfl⟩ := h
  obtain ⟨t, ht, rfl⟩ := h'
  exact ⟨s * t, h2.mul s hs t ht, by rw [Matrix.mul_assoc]⟩

/-- C111: the variants are the orientations `a T` of the child, `a` a symmetry of the parent; no two of them are the same, and every
symmetry of the parent leads to one of them. -/
theorem variants_spec (r1 r2 : M3) (sym1 sym2 : List M3) (h2 : IsPointGroup sym2) (hsep : Separated (r1 * r2ᵀ) sym1 sym2) :
    (∀ v ∈ getOR r1 r2 sym1 sym2, ∃ a ∈ sym1, v = a * (r1 * r2ᵀ)) ∧
      (getOR r1 r2 sym1 sym2).Pairwise (fun v w => ¬ SameVariant sym2 v w) ∧
      ∀ a ∈ sym1, ∃ v ∈ getOR r1 r2 sym1 sym2, SameVariant sym2 v (a * (r1 * r2ᵀ)) := by
  obtain ⟨reps, e1, e2, e3, -, e5⟩ := loop_spec r1 r2 sym1 sym2 h2 hsep sym1 [] (by simp) (fun a h => h) List.Pairwise.nil
  have e : getOR r1 r2 sym1 sym2 = reps.map fun a => a * (r1 * r2ᵀ) := by
    unfold getOR
    rw [List.map_nil] at e1
    rw [e1, List.map_map]
    refine List.map_congr_left fun a _ => ?_
    simp only [Function.comp, transpose_mul, transpose_transpose]
  rw [e]
  refine ⟨?_, ?_, ?_⟩
  · intro v hv
    obtain ⟨a, ha, rfl⟩ := List.mem_map.1 hv
    exact ⟨a, e2 a ha, rfl⟩
  · rw [List.pairwise_map]
    exact e3.imp fun {a b} h => by rwa [E_iff _ _ h2] at h
  · intro a ha
    obtain ⟨r, hr, he⟩ := e5 a ha
    exact ⟨r * (r1 * r2ᵀ), List.mem_map_of_mem hr, (E_iff _ _ h2 _ _).1 he⟩

theorem sum_partition {α β : Type} (reps : List β) (L : List α) (Q : β → α → Bool)
    (h : ∀ a ∈ L, (reps.filter fun r => Q r a).length = 1) : (reps.map fun r => (L.filter (Q r)).length).sum = L.length := by
  induction L with
  | nil => simp
  | cons a L ih =>
    have h1 := h a List.mem_cons_self
    have h2 := ih fun b hb => h b (List.mem_cons_of_mem _ hb)
    have key : ∀ reps : List β, (reps.map fun r => ((a :: L).filter (Q r)).length).sum =
        (reps.map fun r => (L.filter (Q r)).length).sum + (reps.filter fun r => Q r a).length := by
      intro reps
      induction reps with
      | nil => simp
      | cons r reps ih =>
        rw [List.map_cons, List.sum_cons, List.map_cons, List.sum_cons, ih]
        by_cases hq : Q r a = true
        · rw [List.filter_cons_of_pos hq, List.filter_cons_of_pos (p := fun r => Q r a) hq, List.length_cons, List.length_cons]; omega
        · rw [List.filter_cons_of_neg hq, List.filter_cons_of_neg (p := fun r => Q r a) hq]; omega
    rw [key, h2, h1, List.length_cons]

theorem count_eq_one {β : Type} (reps : List β) (P : β → Bool) (R : β → β → Prop) (hp : reps.Pairwise R)
    (hx : ∃ r ∈ reps, P r = true) (hR : ∀ r s, P r = true → P s = true → ¬ R r s) : (reps.filter P).length = 1 := by
  have h1 : (reps.filter P).Pairwise R := hp.sublist List.filter_sublist
  obtain ⟨r, hr, hPr⟩ := hx
  have hm : r ∈ reps.filter P := List.mem_filter.2 ⟨hr, hPr⟩
  match hl : reps.filter P with
  | [] => rw [hl] at hm; cases hm
  | [x] => rfl
  | x :: y :: t =>
    rw [hl] at h1
    have hx := (List.mem_filter.1 (hl ▸ List.mem_cons_self : x ∈ reps.filter P)).2
    have hy := (List.mem_filter.1 (hl ▸ (List.mem_cons_of_mem _ List.mem_cons_self) : y ∈ reps.filter P)).2
    exact absurd (List.rel_of_pairwise_cons h1 List.mem_cons_self) (hR x y hx hy)

open Classical in
/-- The counter is the number of symmetries common to both phases. -/
theorem ctr_eq (r1 r2 : M3) (sym1 sym2 : List M3) (h1 : IsPointGroup sym1) (hsep : Separated (r1 * r2ᵀ) sym1 sym2) :
    ctr r1 r2 sym1 sym2 = (sym2.filter fun s => (r1 * r2ᵀ) * (s * (r1 * r2ᵀ)ᵀ) ∈ sym1).length := by
  set T := r1 * r2ᵀ with hT
  unfold ctr
  simp only [← hT]
  have key : ∀ L : List M3, (∀ s ∈ L, s ∈ sym2) →
      (L.map fun s2 => (sym1.filter fun s1 => decide (Close (T * (s2 * Tᵀ)) s1)).length).sum =
        (L.filter fun s => T * (s * Tᵀ) ∈ sym1).length := by
    intro L
    induction L with
    | nil => intro _; rfl
    | cons s L ih =>
      intro hL
      have hs := hL s List.mem_cons_self
      rw [List.map_cons, List.sum_cons, ih fun t ht => hL t (List.mem_cons_of_mem _ ht)]
      have e : (sym1.filter fun s1 => decide (Close (T * (s * Tᵀ)) s1)) = sym1.filter fun s1 => decide (s1 = T * (s * Tᵀ)) := by
        refine List.filter_congr fun s1 hs1 => ?_
        rw [decide_eq_decide]
        exact ⟨fun h => (hsep.1 s1 hs1 s hs h).symm, fun h => h ▸ close_self _⟩
      rw [e]
      by_cases hm : T * (s * Tᵀ) ∈ sym1
      · rw [List.filter_cons_of_pos (by simpa using hm), List.length_cons]
        have : (sym1.filter fun s1 => decide (s1 = T * (s * Tᵀ))).length = 1 := by
          refine count_eq_one sym1 _ (· ≠ ·) h1.nodup ⟨_, hm, by simp⟩ ?_
          intro a b ha hb hne
          simp only [decide_eq_true_eq] at ha hb
          exact hne (ha.trans hb.symm)
        rw [this]; ring
      · rw [List.filter_cons_of_neg (by simpa using hm)]
        have : (sym1.filter fun s1 => decide (s1 = T * (s * Tᵀ))) = [] := by
          rw [List.filter_eq_nil_iff]
          intro a ha h
          simp only [decide_eq_true_eq] at h
          exact hm (h ▸ ha)
        rw [this]; simp
  exact key sym2 fun s h => h

open Classical in
theorem class_size (T : M3) (sym1 sym2 : List M3) (h1 : IsPointGroup sym1) (h2 : IsPointGroup sym2) (hT : T * Tᵀ = 1) (a : M3) (ha : a ∈ sym1) :
    (sym1.filter fun b => SameVariant sym2 (a * T) (b * T)).length = (sym2.filter fun s => T * (s * Tᵀ) ∈ sym1).length := by
  have hT' := orth_comm hT
  have hp : ((sym2.filter fun s => T * (s * Tᵀ) ∈ sym1).map fun s => a * (T * (s * Tᵀ))).Perm
      (sym1.filter fun b => SameVariant sym2 (a * T) (b * T)) := by
    refine (List.perm_ext_iff_of_nodup ?_ (h1.nodup.filter _)).2 ?_
    · refine List.Nodup.map_on ?_ (h2.nodup.filter _)
      intro s hs t ht he
      have e1 := congrArg (fun x => Tᵀ * (aᵀ * x) * T) he
      have e2 : ∀ x : M3, Tᵀ * (aᵀ * (a * (T * (x * Tᵀ)))) * T = x := by
        intro x
        rw [← Matrix.mul_assoc aᵀ, orth_comm (h1.orth a ha), Matrix.one_mul, ← Matrix.mul_assoc Tᵀ, hT', Matrix.one_mul,
          Matrix.mul_assoc, hT', Matrix.mul_one]
      simp only [e2] at e1
      exact e1
    · intro b
      simp only [List.mem_map, List.mem_filter, decide_eq_true_eq]
      constructor
      · rintro ⟨s, ⟨hs, hm⟩, rfl⟩
        refine ⟨h1.mul a ha _ hm, s, hs, ?_⟩
        rw [Matrix.mul_assoc a, Matrix.mul_assoc T, Matrix.mul_assoc s, hT', Matrix.mul_one, Matrix.mul_assoc]
      · rintro ⟨hb, s, hs, he⟩
        have hb' : b = a * (T * (s * Tᵀ)) := by
          have := congrArg (fun x => x * Tᵀ) he
          simp only [Matrix.mul_assoc, hT, Matrix.mul_one] at this
          exact this
        refine ⟨s, ⟨hs, ?_⟩, hb'.symm⟩
        have : aᵀ * b = T * (s * Tᵀ) := by
          rw [hb', ← Matrix.mul_assoc, orth_comm (h1.orth a ha), Matrix.one_mul]
        rw [← this]
        exact h1.mul _ (h1.inv a ha) _ hb
  rw [← hp.length_eq, List.length_map]

/-- C111: the number of variants is the expected number, the order of the parent group over the order of the common subgroup. -/
theorem variants_count (r1 r2 : M3) (sym1 sym2 : List M3) (h1 : IsPointGroup sym1) (h2 : IsPointGroup sym2)
    (hT : r1 * r2ᵀ * (r1 * r2ᵀ)ᵀ = 1) (hsep : Separated (r1 * r2ᵀ) sym1 sym2) :
    (getOR r1 r2 sym1 sym2).length * ctr r1 r2 sym1 sym2 = sym1.length ∧ 0 < ctr r1 r2 sym1 sym2 ∧
      (getOR r1 r2 sym1 sym2).length = expectedNumVariants r1 r2 sym1 sym2 := by
  classical
  obtain ⟨v1, v2, v3⟩ := variants_spec r1 r2 sym1 sym2 h2 hsep
  have hc := ctr_eq r1 r2 sym1 sym2 h1 hsep
  have hpos : 0 < ctr r1 r2 sym1 sym2 := by
    rw [hc, List.length_pos_iff_exists_mem]
    refine ⟨1, List.mem_filter.2 ⟨h2.one, ?_⟩⟩
    rw [Matrix.one_mul, hT]
    simpa using h1.one
  have hsum := sum_partition (getOR r1 r2 sym1 sym2) sym1 (fun v b => decide (SameVariant sym2 v (b * (r1 * r2ᵀ)))) (by
    intro a ha
    refine count_eq_one _ _ _ v2 ?_ ?_
    · obtain ⟨v, hv, hs⟩ := v3 a ha
      exact ⟨v, hv, by simpa using hs⟩
    · intro v w hv hw hn
      simp only [decide_eq_true_eq] at hv hw
      exact hn (same_trans h2 hv (same_symm h2 hw)))
  have hconst : ((getOR r1 r2 sym1 sym2).map fun v => (sym1.filter fun b => decide (SameVariant sym2 v (b * (r1 * r2ᵀ)))).length) =
      (getOR r1 r2 sym1 sym2).map fun _ => ctr r1 r2 sym1 sym2 := by
    refine List.map_congr_left fun v hv => ?_
    obtain ⟨a, ha, rfl⟩ := v1 v hv
    rw [hc, class_size (r1 * r2ᵀ) sym1 sym2 h1 h2 hT a ha]
  have hmul : (getOR r1 r2 sym1 sym2).length * ctr r1 r2 sym1 sym2 = sym1.length := by
    rw [← hsum, hconst, List.map_const', List.sum_replicate, smul_eq_mul]
  refine ⟨hmul, hpos, ?_⟩
  unfold expectedNumVariants
  rw [← hmul, Nat.mul_div_cancel _ hpos]

/-- C111: the frame of a plane and a direction is orthogonal exactly if the direction lies in the plane. -/
theorem rmats_orthogonal (p d : Fin 3 → ℝ) (hp : p ⬝ᵥ p = 1) (hd : d ⬝ᵥ d = 1) :
    (getRmats p d)ᵀ * getRmats p d = 1 ↔ p ⬝ᵥ d = 0 := by
  have e : (getRmats p d)ᵀ * getRmats p d = !![d ⬝ᵥ d, 0, p ⬝ᵥ d; 0, (p ⬝ᵥ p) * (d ⬝ᵥ d) - (p ⬝ᵥ d) ^ 2, 0; p ⬝ᵥ d, 0, p ⬝ᵥ p] := by
    ext i j
    fin_cases i <;> fin_cases j <;> simp [getRmats, Matrix.mul_apply, Fin.sum_univ_three, crossProduct, vecHead, vecTail, dotProduct] <;> ring
  rw [e, hp, hd]
  constructor
  · intro h
    have := congrFun (congrFun h 0) 2
    simpa using this
  · intro h
    rw [h]
    ext i j
    fin_cases i <;> fin_cases j <;> simp

/-- C111: in every variant the plane and the direction of the child are parallel to a plane and a direction of the parent that are
equivalent to the given ones. -/
theorem variants_parallel (p1 d1 p2 d2 : Fin 3 → ℝ) (hp2 : p2 ⬝ᵥ p2 = 1) (hd2 : d2 ⬝ᵥ d2 = 1) (h2 : p2 ⬝ᵥ d2 = 0) (a : M3) :
    (a * (getRmats p1 d1 * (getRmats p2 d2)ᵀ)) *ᵥ p2 = a *ᵥ p1 ∧ (a * (getRmats p1 d1 * (getRmats p2 d2)ᵀ)) *ᵥ d2 = a *ᵥ d1 := by
  have c0 : (getRmats p2 d2)ᵀ *ᵥ p2 = ![0, 0, 1] := by
    ext i
    have : p2 0 * d2 0 + p2 1 * d2 1 + p2 2 * d2 2 = 0 := by simpa [dotProduct, Fin.sum_univ_three] using h2
    have h3 : p2 0 * p2 0 + p2 1 * p2 1 + p2 2 * p2 2 = 1 := by simpa [dotProduct, Fin.sum_univ_three] using hp2
    fin_cases i <;> simp [getRmats, mulVec, dotProduct, Fin.sum_univ_three, crossProduct, vecHead, vecTail] <;> linarith
  have c1 : (getRmats p2 d2)ᵀ *ᵥ d2 = ![1, 0, 0] := by
    ext i
    have : p2 0 * d2 0 + p2 1 * d2 1 + p2 2 * d2 2 = 0 := by simpa [dotProduct, Fin.sum_univ_three] using h2
    have h3 : d2 0 * d2 0 + d2 1 * d2 1 + d2 2 * d2 2 = 1 := by simpa [dotProduct, Fin.sum_univ_three] using hd2
    fin_cases i <;> simp [getRmats, mulVec, dotProduct, Fin.sum_univ_three, crossProduct, vecHead, vecTail] <;> linarith
  have f0 : getRmats p1 d1 *ᵥ ![0, 0, 1] = p1 := by
    ext i; fin_cases i <;> simp [getRmats, mulVec, dotProduct, Fin.sum_univ_three]
  have f1 : getRmats p1 d1 *ᵥ ![1, 0, 0] = d1 := by
    ext i; fin_cases i <;> simp [getRmats, mulVec, dotProduct, Fin.sum_univ_three]
  constructor
  · rw [← mulVec_mulVec, ← mulVec_mulVec, c0, f0]
  · rw [← mulVec_mulVec, ← mulVec_mulVec, c1, f1]

/-! ### `removeinversion` -/

theorem neg_neg_list (k : List ℤ) : (k.map (-·)).map (-·) = k := by simp

theorem removeInversion_loop (L : List (List ℤ)) : ∀ klist : List (List ℤ),
    (∀ k ∈ klist, k ∈ removeInversionLoop klist L) ∧
    (∀ k ∈ removeInversionLoop klist L, k ∈ klist ∨ k ∈ L ∨ k.map (-·) ∈ L) ∧
    (∀ k ∈ L, k ∈ removeInversionLoop klist L ∨ k.map (-·) ∈ removeInversionLoop klist L) ∧
    (klist.Pairwise (fun a b => a ≠ b ∧ a ≠ b.map (-·)) → (removeInversionLoop klist L).Pairwise (fun a b => a ≠ b ∧ a ≠ b.map (-·))) := by
  induction L with
  | nil => intro klist; exact ⟨fun k h => h, fun k h => Or.inl h, by simp, fun h => h⟩
  | cons k rest ih =>
    intro klist
    simp only [removeInversionLoop]
    split_ifs with h1 h2 h3
    · obtain rfl := List.isEmpty_iff.1 h1
      obtain ⟨i1, i2, i3, i4⟩ := ih [k]
      simp only [List.nil_append]
      refine ⟨by simp, ?_, ?_, fun _ => i4 (by simp)⟩
      · intro x hx
        rcases i2 x hx with h | h | h
        · rw [List.mem_singleton.1 h]; simp
        · simp [h]
        · simp only [List.mem_cons]; tauto
      · intro x hx
        rcases List.mem_cons.1 hx with rfl | h
        · exact Or.inl (i1 x (by simp))
        · exact i3 x h
    · obtain rfl := List.isEmpty_iff.1 h1
      obtain ⟨i1, i2, i3, i4⟩ := ih [k.map (-·)]
      simp only [List.nil_append]
      refine ⟨by simp, ?_, ?_, fun _ => i4 (by simp)⟩
      · intro x hx
        rcases i2 x hx with h | h | h
        · right; right
          rw [List.mem_singleton.1 h, neg_neg_list]; simp
        · simp [h]
        · simp only [List.mem_cons]; tauto
      · intro x hx
        rcases List.mem_cons.1 hx with rfl | h
        · exact Or.inr (i1 _ (by simp))
        · exact i3 x h
    · obtain ⟨i1, i2, i3, i4⟩ := ih (klist ++ [k])
      refine ⟨fun x hx => i1 x (List.mem_append_left _ hx), ?_, ?_, fun hp => i4 ?_⟩
      · intro x hx
        rcases i2 x hx with h | h | h
        · rcases List.mem_append.1 h with h | h
          · exact Or.inl h
          · rw [List.mem_singleton.1 h]; simp
        · simp [h]
        · simp only [List.mem_cons]; tauto
      · intro x hx
        rcases List.mem_cons.1 hx with rfl | h
        · exact Or.inl (i1 x (by simp))
        · exact i3 x h
      · rw [List.pairwise_append]
        refine ⟨hp, by simp, ?_⟩
        intro a ha b hb
        rw [List.mem_singleton.1 hb]
        exact ⟨fun e => h3.1 (e ▸ ha), fun e => h3.2 (e ▸ ha)⟩
    · obtain ⟨i1, i2, i3, i4⟩ := ih klist
      refine ⟨i1, ?_, ?_, i4⟩
      · intro x hx
        rcases i2 x hx with h | h | h
        · exact Or.inl h
        · simp [h]
        · simp only [List.mem_cons]; tauto
      · intro x hx
        rcases List.mem_cons.1 hx with rfl | h
        · by_cases hk : x ∈ klist
          · exact Or.inl (i1 x hk)
          · right
            by_contra hc
            exact h3 ⟨hk, fun h => hc (i1 _ h)⟩
        · exact i3 x h

/-- C111: of every pair `k`, `-k` of the list one is left, and nothing else. -/
theorem removeInversion_spec (L : List (List ℤ)) :
    (∀ k ∈ removeInversion L, k ∈ L ∨ k.map (-·) ∈ L) ∧
    (∀ k ∈ L, k ∈ removeInversion L ∨ k.map (-·) ∈ removeInversion L) ∧
    (removeInversion L).Pairwise (fun a b => a ≠ b ∧ a ≠ b.map (-·)) := by
  obtain ⟨-, i2, i3, i4⟩ := removeInversion_loop L []
  refine ⟨fun k hk => ?_, i3, i4 List.Pairwise.nil⟩
  rcases i2 k hk with h | h
  · simp at h
  · exact h

/-! ### A case -/

theorem close_signs {d e : Fin 3 → ℝ} (hd : ∀ i, d i = 1 ∨ d i = -1) (he : ∀ i, e i = 1 ∨ e i = -1)
    (h : Close (diagonal d) (diagonal e)) : (diagonal d : M3) = diagonal e := by
  have h' : |d 0 - e 0| + |d 1 - e 1| + |d 2 - e 2| < 1e-6 := by
    simpa [Close, Fin.sum_univ_three, diagonal] using h
  have n0 := abs_nonneg (d 0 - e 0)
  have n1 := abs_nonneg (d 1 - e 1)
  have n2 := abs_nonneg (d 2 - e 2)
  congr 1
  funext i
  have hi : |d i - e i| < 1 := by fin_cases i <;> simp only [Fin.zero_eta, Fin.mk_one, Fin.reduceFinMk] <;> linarith
  rcases hd i with a | a <;> rcases he i with b | b <;> rw [a, b] at hi
  · rw [a, b]
  · norm_num at hi
  · norm_num at hi
  · rw [a, b]

/-- The group 222. -/
def g222 : List M3 := [1, diagonal ![1, -1, -1], diagonal ![-1, 1, -1], diagonal ![-1, -1, 1]]
/-- The group 2. -/
def g2 : List M3 := [1, diagonal ![-1, -1, 1]]

theorem signs_of {x : M3} (h : x ∈ g222) : ∃ d : Fin 3 → ℝ, (∀ i, d i = 1 ∨ d i = -1) ∧ x = diagonal d := by
  simp only [g222, List.mem_cons, List.not_mem_nil, or_false] at h
  rcases h with rfl | rfl | rfl | rfl
  · exact ⟨fun _ => 1, fun _ => Or.inl rfl, by rw [← diagonal_one]⟩
  all_goals exact ⟨_, fun i => by fin_cases i <;> simp, rfl⟩

theorem g2_sub {x : M3} (h : x ∈ g2) : x ∈ g222 := by
  simp only [g2, g222, List.mem_cons, List.not_mem_nil, or_false] at h ⊢
  tauto

theorem diag_eq (a b c x y z : ℝ) : (diagonal ![a, b, c] : M3) = diagonal ![x, y, z] ↔ a = x ∧ b = y ∧ c = z := by
  constructor
  · intro h
    exact ⟨by simpa using congrFun (congrFun h 0) 0, by simpa using congrFun (congrFun h 1) 1, by simpa using congrFun (congrFun h 2) 2⟩
  · rintro ⟨rfl, rfl, rfl⟩; rfl

theorem diag_mul (a b c x y z : ℝ) : (diagonal ![a, b, c] * diagonal ![x, y, z] : M3) = diagonal ![a * x, b * y, c * z] := by
  rw [diagonal_mul_diagonal]
  congr 1; funext i; fin_cases i <;> rfl

theorem one_diag : (1 : M3) = diagonal ![1, 1, 1] := by
  ext i j; fin_cases i <;> fin_cases j <;> simp

theorem group222 : IsPointGroup g222 where
  one := by simp [g222]
  mul := by
    intro a ha b hb
    simp only [g222, one_diag, List.mem_cons, List.not_mem_nil, or_false] at ha hb ⊢
    rcases ha with rfl | rfl | rfl | rfl <;> rcases hb with rfl | rfl | rfl | rfl <;>
      (rw [diag_mul]; simp only [diag_eq]; norm_num)
  orth := by
    intro a ha
    obtain ⟨d, hd, rfl⟩ := signs_of ha
    rw [diagonal_transpose, diagonal_mul_diagonal, ← diagonal_one]
    congr 1; funext i
    rcases hd i with h | h <;> rw [h] <;> norm_num
  inv := by
    intro a ha
    obtain ⟨d, hd, rfl⟩ := signs_of ha
    rwa [diagonal_transpose]
  nodup := by
    simp only [g222, one_diag, List.nodup_cons, List.mem_cons, List.not_mem_nil, or_false, diag_eq, List.nodup_nil]
    norm_num

theorem group2 : IsPointGroup g2 where
  one := by simp [g2]
  mul := by
    intro a ha b hb
    simp only [g2, one_diag, List.mem_cons, List.not_mem_nil, or_false] at ha hb ⊢
    rcases ha with rfl | rfl <;> rcases hb with rfl | rfl <;>
      (rw [diag_mul]; simp only [diag_eq]; norm_num)
  orth := fun a ha => group222.orth a (g2_sub ha)
  inv := by
    intro a ha
    obtain ⟨d, hd, rfl⟩ := signs_of (g2_sub ha)
    rwa [diagonal_transpose]
  nodup := by
    simp only [g2, one_diag, List.nodup_cons, List.mem_cons, List.not_mem_nil, or_false, diag_eq, List.nodup_nil]
    norm_num

theorem separated_case : Separated (1 * (1 : M3)ᵀ) g222 g2 := by
  have hmul : ∀ a ∈ g222, ∀ b ∈ g222, ∃ d : Fin 3 → ℝ, (∀ i, d i = 1 ∨ d i = -1) ∧ a * b = diagonal d :=
    fun a ha b hb => signs_of (group222.mul a ha b hb)
  constructor
  · intro a ha s hs h
    simp only [transpose_one, Matrix.mul_one, Matrix.one_mul] at h ⊢
    obtain ⟨d, hd, rfl⟩ := signs_of ha
    obtain ⟨e, he, rfl⟩ := signs_of (g2_sub hs)
    exact close_signs he hd h
  · intro a ha b hb s hs h
    simp only [transpose_one, Matrix.mul_one, Matrix.one_mul] at h ⊢
    obtain ⟨d, hd, e1⟩ := hmul s (g2_sub hs) aᵀ (group222.inv a ha)
    obtain ⟨e, he, e2⟩ := signs_of (group222.inv b hb)
    rw [e1, e2] at h ⊢
    exact close_signs hd he h

/-- A parent with the group 222 and a child with the group 2 in the same setting: two variants. -/
example : (getOR 1 1 g222 g2).length * ctr 1 1 g222 g2 = 4 ∧ (getOR 1 1 g222 g2).length = expectedNumVariants 1 1 g222 g2 := by
  obtain ⟨h1, -, h3⟩ := variants_count 1 1 g222 g2 group222 group2 (by simp) separated_case
  exact ⟨h1, h3⟩

end Hexrd.Variants
