import Verif.Model.PlaneData
import Mathlib.Data.Fintype.EquivFin

namespace Hexrd.PlaneData
variable {K : Type} [LinearOrder K] {n : Nat}

omit [LinearOrder K] in
theorem scatter_sort (sort : Fin n → Fin n) (h : Function.Injective sort) (i : Fin n) :
    scatter sort (sort i) = i := by
  have aux : ∀ (l : List (Fin n)) (inv : Fin n → Fin n), (i ∈ l ∨ inv (sort i) = i) →
      l.foldl (fun inv i => fun j => if j = sort i then i else inv j) inv (sort i) = i := by
    intro l
    induction l with
    | nil => intro inv h; simpa using h
    | cons a l ih =>
      intro inv hi
      rw [List.foldl_cons]
      apply ih
      by_cases e : sort i = sort a
      · right; rw [if_pos e]; exact (h e).symm
      · rw [if_neg e]
        rcases hi with hi | hi
        · rcases List.mem_cons.1 hi with rfl | hi
          · exact absurd rfl e
          · exact .inl hi
        · exact .inr hi
  exact aux _ _ (.inl (List.mem_finRange i))

theorem fin_surj {f : Fin n → Fin n} (h : Function.Injective f) : Function.Surjective f := by
  exact Finite.injective_iff_surjective.1 h

theorem sort_scatter (sort : Fin n → Fin n) (h : Function.Injective sort) (j : Fin n) :
    sort (scatter sort j) = j := by
  obtain ⟨i, rfl⟩ := fin_surj h j
  rw [scatter_sort sort h]

theorem mark_eq (inv : Fin n → Fin n) (idx : List (Fin n)) (e : Fin n → Bool) (j : Fin n) :
    mark inv idx e j = true ↔ e j = true ∨ ∃ k ∈ idx, j = inv k := by
  unfold mark
  induction idx generalizing e with
  | nil => simp
  | cons a l ih =>
    rw [List.foldl_cons, ih]
    constructor
    · rintro (h | ⟨k, hk, e⟩)
      · split at h
        · rename_i ea; exact .inr ⟨a, by simp, ea⟩
        · exact .inl h
      · exact .inr ⟨k, by simp [hk], e⟩
    · rintro (h | ⟨k, hk, e⟩)
      · left; split
        · rfl
        · exact h
      · rcases List.mem_cons.1 hk with rfl | hk
        · left; simp [e]
        · exact .inr ⟨k, hk, e⟩

theorem mark_ranges_eq (inv : Fin n → Fin n) (l : List (Int × Int)) (e : Fin n → Bool) (j : Fin n) :
    (l.foldl (fun e r => mark inv (slice n r.1 r.2) e) e) j = true ↔
      e j = true ∨ ∃ r ∈ l, ∃ k ∈ slice n r.1 r.2, j = inv k := by
  induction l generalizing e with
  | nil => simp
  | cons a l ih =>
    rw [List.foldl_cons, ih, mark_eq]
    constructor
    · rintro ((h | h) | ⟨r, hr, h⟩)
      · exact .inl h
      · exact .inr ⟨a, by simp, h⟩
      · exact .inr ⟨r, by simp [hr], h⟩
    · rintro (h | ⟨r, hr, h⟩)
      · exact .inl (.inl h)
      · rcases List.mem_cons.1 hr with rfl | hr
        · exact .inl (.inr h)
        · exact .inr ⟨r, hr, h⟩

theorem mapM_some_iff {α β : Type} {f : α → Option β} {l : List α} {r : List β} (h : l.mapM f = some r) :
    ∀ b, b ∈ r ↔ ∃ a ∈ l, f a = some b := by
  induction l generalizing r with
  | nil => simp at h; subst h; simp
  | cons a l ih =>
    rw [List.mapM_cons] at h
    cases h1 : f a with
    | none => rw [h1] at h; cases h
    | some x =>
      rw [h1] at h
      cases h2 : l.mapM f with
      | none => simp [h2] at h
      | some r' =>
        simp [h2] at h; subst h
        intro b
        simp only [List.mem_cons, ih h2 b]
        constructor
        · rintro (rfl | ⟨a', ha, e⟩)
          · exact ⟨a, .inl rfl, h1⟩
          · exact ⟨a', .inr ha, e⟩
        · rintro ⟨a', rfl | ha, e⟩
          · rw [h1] at e; exact .inl (Option.some.inj e).symm
          · exact .inr ⟨a', ha, e⟩

theorem applyLimit_eq (lo hi : Option K) (v : Fin n → Option K) (e : Fin n → Bool) (i : Fin n) :
    applyLimit lo hi v e i = (e i || (match lo with | none => false | some b => fgt (some b) (v i)) ||
      (match hi with | none => false | some b => fgt (v i) (some b))) := by
  unfold applyLimit
  cases lo <;> cases hi <;> simp only [Bool.or_false]
  · split <;> simp_all
  · split <;> simp_all
  · split <;> simp_all
    rw [Bool.or_comm]

end Hexrd.PlaneData
