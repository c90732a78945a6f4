import Verif.Model.Memoize
namespace Hexrd.Memo
variable {A K V E : Type} [DecidableEq K]

theorem lookup_mem {k : K} {v : V} : ∀ {es : List (K × V)}, lookup k es = some v → (k, v) ∈ es := by
  intro es
  induction es with
  | nil => simp [lookup]
  | cons e es ih =>
    obtain ⟨k', v'⟩ := e
    simp only [lookup]
    by_cases h : k' = k
    · subst h; simp; intro h; simp [h]
    · simp [h]; intro hh; exact Or.inr (ih hh)

theorem lookup_none {k : K} : ∀ {es : List (K × V)}, lookup k es = none → ∀ e ∈ es, e.1 ≠ k := by
  intro es
  induction es with
  | nil => simp
  | cons e es ih =>
    obtain ⟨k', v'⟩ := e
    simp only [lookup]
    by_cases h : k' = k
    · simp [h]
    · simp only [h, if_false]; intro hh e he
      rcases List.mem_cons.1 he with rfl | he
      · exact h
      · exact ih hh e he

omit [DecidableEq K] in
theorem evict_spec (m : Nat) : ∀ es : List (K × V),
    evict m es = if m = 0 then ([], false) else (es.drop (es.length - (m - 1)), true) := by
  intro es
  induction es with
  | nil => simp only [evict]; by_cases h : m = 0 <;> simp [h]
  | cons e es ih =>
    simp only [evict, ih]
    by_cases h : m = 0
    · simp [h]
    · simp only [h, if_false]
      by_cases h2 : (e :: es).length ≥ m
      · rw [if_pos h2]
        have : (e :: es).length - (m-1) = (es.length - (m-1)) + 1 := by simp at *; omega
        rw [this]; simp
      · rw [if_neg h2]
        have : (e :: es).length - (m-1) = 0 := by simp at *; omega
        rw [this]; simp

omit [DecidableEq K] in
theorem shrink_spec (m : Nat) : ∀ es : List (K × V), shrink m es = es.drop (es.length - m) := by
  intro es
  induction es with
  | nil => simp [shrink]
  | cons e es ih =>
    simp only [shrink, ih]
    by_cases h2 : (e :: es).length > m
    · rw [if_pos h2]
      have : (e :: es).length - m = (es.length - m) + 1 := by simp at *; omega
      rw [this]; simp
    · rw [if_neg h2]
      have : (e :: es).length - m = 0 := by simp at *; omega
      rw [this]; simp

/-- Length after removing one key from a duplicate-free association list. -/
theorem length_filter_ne (k : K) (v : V) : ∀ es : List (K × V), (es.map Prod.fst).Nodup → (k, v) ∈ es →
    (es.filter (fun e => decide (e.1 ≠ k))).length + 1 = es.length := by
  intro es
  induction es with
  | nil => simp
  | cons e es ih =>
    intro hn hm
    simp only [List.map_cons, List.nodup_cons] at hn
    by_cases h : e.1 = k
    · have : es.filter (fun e => decide (e.1 ≠ k)) = es := by
        apply List.filter_eq_self.2
        intro a ha
        simp only [ne_eq, decide_eq_true_eq]
        intro hk
        exact hn.1 (List.mem_map.2 ⟨a, ha, by rw [hk, h]⟩)
      rw [List.filter_cons, this]; simp [h]
    · have hm' : (k, v) ∈ es := by
        rcases List.mem_cons.1 hm with rfl | h'
        · exact absurd rfl h
        · exact h'
      have := ih hn.2 hm'
      rw [List.filter_cons, if_pos (by simp [h]), List.length_cons, List.length_cons]; omega

/-- The invariant maintained by every operation. -/
structure Inv (key : A → K) (f : A → Except E V) (c : Cache K V) : Prop where
  nodup : (c.entries.map Prod.fst).Nodup
  sound : ∀ k v, (k, v) ∈ c.entries → ∃ a, key a = k ∧ f a = .ok v
  size : c.entries.length ≤ c.maxsize

omit [DecidableEq K] in
theorem inv_init (key : A → K) (f : A → Except E V) (m : Nat) : Inv key f (init m) :=
  ⟨by simp [init], by simp [init], by simp [init]⟩

omit [DecidableEq K] in
theorem inv_setMax {key : A → K} {f : A → Except E V} {c : Cache K V} (h : Inv key f c) (n : Nat) :
    Inv key f (setMaxsize c n) := by
  refine ⟨?_, ?_, ?_⟩
  · simp only [setMaxsize, shrink_spec]
    rw [List.map_drop]; exact h.nodup.sublist (List.drop_sublist _ _)
  · intro k v hm
    simp only [setMaxsize, shrink_spec] at hm
    exact h.sound k v (List.mem_of_mem_drop hm)
  · simp only [setMaxsize, shrink_spec, List.length_drop]; omega

theorem inv_call {key : A → K} {f : A → Except E V} {c : Cache K V} (h : Inv key f c) (a : A) :
    Inv key f (call key f c a).1 := by
  unfold call
  split
  · rename_i v hv
    have hmem := lookup_mem hv
    refine ⟨?_, ?_, ?_⟩
    · simp only [moveToEnd, List.map_append, List.map_cons, List.map_nil]
      rw [List.nodup_append]
      refine ⟨h.nodup.sublist (List.Sublist.map _ List.filter_sublist), by simp, ?_⟩
      intro x hx y hy
      obtain ⟨e, he, rfl⟩ := List.mem_map.1 hx
      simp only [List.mem_singleton] at hy; subst hy
      simpa using (List.mem_filter.1 he).2
    · intro k v' hm
      simp only [moveToEnd, List.mem_append, List.mem_singleton] at hm
      rcases hm with hm | hm
      · exact h.sound _ _ (List.mem_filter.1 hm).1
      · cases hm; exact h.sound _ _ hmem
    · simp only [moveToEnd, List.length_append, List.length_cons, List.length_nil]
      have := length_filter_ne (key a) v c.entries h.nodup hmem
      have := h.size
      omega
  · rename_i hv
    have hne := lookup_none hv
    rw [evict_spec]
    by_cases hm : c.maxsize = 0
    · simp only [hm, if_true]
      exact ⟨by simp, by simp, by simp⟩
    · simp only [hm, if_false, if_true]
      split
      · rename_i v hf
        refine ⟨?_, ?_, ?_⟩
        · simp only [List.map_append, List.map_cons, List.map_nil]
          rw [List.nodup_append]
          refine ⟨?_, by simp, ?_⟩
          · rw [List.map_drop]; exact h.nodup.sublist (List.drop_sublist _ _)
          · intro x hx y hy
            obtain ⟨e, he, rfl⟩ := List.mem_map.1 hx
            simp only [List.mem_singleton] at hy; subst hy
            exact hne e (List.mem_of_mem_drop he)
        · intro k v' hm
          simp only [List.mem_append, List.mem_singleton] at hm
          rcases hm with hm | hm
          · exact h.sound _ _ (List.mem_of_mem_drop hm)
          · cases hm; exact ⟨a, rfl, hf⟩
        · simp only [List.length_append, List.length_drop, List.length_cons, List.length_nil]
          have := h.size; omega
      · refine ⟨?_, ?_, ?_⟩
        · rw [List.map_drop]; exact h.nodup.sublist (List.drop_sublist _ _)
        · intro k v hm; exact h.sound _ _ (List.mem_of_mem_drop hm)
        · simp only [List.length_drop]; have := h.size; omega

theorem inv_run {key : A → K} {f : A → Except E V} : ∀ (ops : List (Op A)) {c : Cache K V}, Inv key f c →
    Inv key f (run key f c ops).1 := by
  intro ops
  induction ops with
  | nil => intro c h; exact h
  | cons o ops ih =>
    intro c h
    cases o with
    | call a => exact ih (inv_call h a)
    | setMax n => exact ih (inv_setMax h n)

theorem call_maxsize (key : A → K) (f : A → Except E V) (c : Cache K V) (a : A) :
    (call key f c a).1.maxsize = c.maxsize := by
  unfold call
  split
  · rfl
  · rw [evict_spec]
    by_cases hm : c.maxsize = 0
    · simp [hm]
    · simp only [hm, if_false, if_true]; split <;> rfl

theorem take_filter_mem {k : K} : ∀ (l : List K) (m : Nat), l.Nodup → k ∈ l.take (m+1) →
    (l.filter (fun x => decide (x ≠ k))).take m = (l.take (m+1)).filter (fun x => decide (x ≠ k)) := by
  intro l
  induction l with
  | nil => simp
  | cons x l ih =>
    intro m hn hm
    rw [List.nodup_cons] at hn
    by_cases hx : x = k
    · subst hx
      have hf : ∀ l' : List K, (∀ y ∈ l', y ∈ l) → l'.filter (fun y => decide (y ≠ x)) = l' := by
        intro l' hl'
        apply List.filter_eq_self.2
        intro y hy
        simp only [ne_eq, decide_eq_true_eq]
        rintro rfl
        exact hn.1 (hl' _ hy)
      rw [List.take_succ_cons, List.filter_cons, List.filter_cons, hf l (fun _ h => h),
        hf (l.take m) (fun _ h => List.mem_of_mem_take h)]
      simp
    · rw [List.take_succ_cons, List.filter_cons, List.filter_cons]
      simp only [hx, ne_eq, not_false_eq_true, decide_true, if_true]
      cases m with
      | zero => simp at hm; exact absurd hm.symm hx
      | succ m =>
        rw [List.take_succ_cons]
        congr 1
        apply ih m hn.2
        rw [List.take_succ_cons] at hm
        rcases List.mem_cons.1 hm with h | h
        · exact absurd h.symm hx
        · exact h

theorem take_filter_not_mem {k : K} : ∀ (l : List K) (m : Nat), k ∉ l.take (m+1) →
    (l.filter (fun x => decide (x ≠ k))).take m = l.take m := by
  intro l
  induction l with
  | nil => simp
  | cons x l ih =>
    intro m hm
    rw [List.take_succ_cons, List.mem_cons, not_or] at hm
    have hx : x ≠ k := fun h => hm.1 h.symm
    rw [List.filter_cons]
    simp only [hx, ne_eq, not_false_eq_true, decide_true, if_true]
    cases m with
    | zero => simp
    | succ m => rw [List.take_succ_cons, List.take_succ_cons, ih m hm.2]

theorem mem_lookup {k : K} : ∀ {es : List (K × V)}, lookup k es ≠ none ↔ k ∈ es.map Prod.fst := by
  intro es
  induction es with
  | nil => simp [lookup]
  | cons e es ih =>
    obtain ⟨k', v'⟩ := e
    simp only [lookup]
    by_cases h : k' = k
    · simp [h]
    · simp only [h, if_false, List.map_cons, List.mem_cons, ih]
      constructor
      · exact Or.inr
      · rintro (rfl | h')
        · exact absurd rfl h
        · exact h'

theorem map_fst_filter (k : K) (es : List (K × V)) :
    (es.filter (fun e => decide (e.1 ≠ k))).map Prod.fst = (es.map Prod.fst).filter (fun x => decide (x ≠ k)) := by
  rw [List.filter_map]; rfl

end Hexrd.Memo
