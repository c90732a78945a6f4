import Verif.Spec.FrameMemo
import Mathlib.Data.List.Induction

/-! # C175: shared loading of frame-cache files -/
namespace Hexrd.FrameMemo

variable {P R H C F : Type} [DecidableEq P] [DecidableEq R] [DecidableEq H]

theorem run_snoc (size : C → ℕ) (frames : H → C → Option F) (es : List (Event P R H C)) (e : Event P R H C) :
    run (R := R) size frames (es ++ [e]) = step size frames (run size frames es) e := by simp [run]

theorem fileAfter_snoc (p : P) (es : List (Event P R H C)) (e : Event P R H C) : Spec.fileAfter p (es ++ [e]) =
    match e with
    | .save q t c => if q = p then some (c, t) else Spec.fileAfter p es
    | .remove q => if q = p then none else Spec.fileAfter p es
    | _ => Spec.fileAfter p es := by
  simp only [Spec.fileAfter, List.foldl_append, List.foldl_cons, List.foldl_nil]
  cases e <;> rfl

/-- The files of the model are those of the specification. -/
theorem run_files (size : C → ℕ) (frames : H → C → Option F) (es : List (Event P R H C)) (p : P) :
    (run (R := R) size frames es).files p = Spec.fileAfter p es := by
  induction es using List.reverseRecOn with
  | nil => rfl
  | append_singleton es e ih =>
    rw [run_snoc, fileAfter_snoc]
    cases e with
    | save q t c =>
      by_cases h : q = p
      · simp [step, h]
      · simp [step, h, Ne.symm h, ih]
    | remove q =>
      by_cases h : q = p
      · simp [step, h]
      · simp [step, h, Ne.symm h, ih]
    | stat r q h => simpa [step] using ih
    | load r =>
      simp only [step]
      split <;> simpa using ih

/-- What a file holds was saved. -/
theorem fileAfter_saved (p : P) (es : List (Event P R H C)) : ∀ c t, Spec.fileAfter p es = some (c, t) → Event.save p t c ∈ es := by
  induction es using List.reverseRecOn with
  | nil => intro c t h; simp [Spec.fileAfter] at h
  | append_singleton es e ih =>
    intro c t h
    rw [fileAfter_snoc] at h
    cases e with
    | save q t' c' =>
      simp only at h
      split at h
      · rename_i hq; simp only [Option.some.injEq, Prod.mk.injEq] at h; obtain ⟨rfl, rfl⟩ := h; subst hq; simp
      · exact List.mem_append_left _ (ih c t h)
    | remove q =>
      simp only at h
      split at h
      · simp at h
      · exact List.mem_append_left _ (ih c t h)
    | stat r q h' => exact List.mem_append_left _ (ih c t h)
    | load r => exact List.mem_append_left _ (ih c t h)

theorem ticks_prefix {size : C → ℕ} {a b : List (Event P R H C)} (h : Spec.Ticks size b) (hp : a <+: b) : Spec.Ticks size a := by
  obtain ⟨d, rfl⟩ := hp
  intro x p t c y e
  exact h x p t c (y ++ d) (by rw [e]; simp)

/-- From some moment on a file is what it was all the time, or it is not there or has another time or size. -/
theorem file_since (size : C → ℕ) (p : P) (a : List (Event P R H C)) (c : C) (t : ℕ) (ha : Spec.fileAfter p a = some (c, t)) (d : List (Event P R H C)) :
    Spec.Ticks size (a ++ d) → (∀ k, k <+: d → Spec.fileAfter p (a ++ k) = some (c, t)) ∨ Spec.fileAfter p (a ++ d) = none ∨
      ∃ c' t', Spec.fileAfter p (a ++ d) = some (c', t') ∧ (t ≠ t' ∨ size c ≠ size c') := by
  induction d using List.reverseRecOn with
  | nil => intro _; left; intro k hk; rw [List.prefix_nil] at hk; subst hk; simpa using ha
  | append_singleton d e ih =>
    intro ht
    have ih := ih (ticks_prefix ht ⟨[e], by simp⟩)
    have keep : Spec.fileAfter p (a ++ (d ++ [e])) = Spec.fileAfter p (a ++ d) →
        (∀ k, k <+: d ++ [e] → Spec.fileAfter p (a ++ k) = some (c, t)) ∨ Spec.fileAfter p (a ++ (d ++ [e])) = none ∨
          ∃ c' t', Spec.fileAfter p (a ++ (d ++ [e])) = some (c', t') ∧ (t ≠ t' ∨ size c ≠ size c') := by
      intro hk
      rcases ih with h | h | h
      · left
        intro k hk'
        rcases List.prefix_concat_iff.1 hk' with rfl | h'
        · rw [hk]; exact h d (List.prefix_refl _)
        · exact h k h'
      · right; left; rw [hk]; exact h
      · right; right; rw [hk]; exact h
    have hs := fileAfter_snoc p (a ++ d) e
    rw [List.append_assoc] at hs
    cases e with
    | save q t' c' =>
      by_cases hq : q = p
      · right; right
        refine ⟨c', t', by rw [hs]; simp [hq], ?_⟩
        subst hq
        exact (ht (a ++ d) q t' c' [] (by simp)).2 t c (List.mem_append_left _ (fileAfter_saved q a c t ha))
      · exact keep (by rw [hs]; simp [hq])
    | remove q =>
      by_cases hq : q = p
      · right; left; rw [hs]; simp [hq]
      · exact keep (by rw [hs]; simp [hq])
    | stat r q h' => exact keep hs
    | load r => exact keep hs

/-- A file with the same identity at two moments was the same all the time between. -/
theorem same_between (size : C → ℕ) (p : P) (a d : List (Event P R H C)) (ht : Spec.Ticks size (a ++ d)) (ha : Spec.fileAfter p a ≠ none)
    (hi : identity size (Spec.fileAfter p (a ++ d)) = identity size (Spec.fileAfter p a)) :
    ∀ k, k <+: d → Spec.fileAfter p (a ++ k) = Spec.fileAfter p a := by
  cases h : Spec.fileAfter p a with
  | none => exact absurd h ha
  | some ct =>
    obtain ⟨c, t⟩ := ct
    rcases file_since size p a c t h d ht with h' | h' | ⟨c', t', h', hlt⟩
    · exact h'
    · have hpos : 0 < t := by
        have hm := fileAfter_saved p a c t h
        obtain ⟨x, y, e⟩ := List.append_of_mem hm
        exact (ht x p t c (y ++ d) (by rw [e]; simp)).1
      rw [h', h] at hi
      simp only [identity, Prod.mk.injEq] at hi
      omega
    · rw [h', h] at hi
      simp only [identity, Prod.mk.injEq] at hi
      omega

/-- Where an entry of the cache comes from: its key was made at some moment, its frames were read at the same or a later one. -/
def Origin (size : C → ℕ) (frames : H → C → Option F) (es : List (Event P R H C)) (k : Key P H) (f : F) : Prop :=
  ∃ a b c t, a <+: b ∧ b <+: es ∧ identity size (Spec.fileAfter k.path a) = k.ident ∧ Spec.fileAfter k.path b = some (c, t) ∧ frames k.h c = some f

theorem memo_cases (frames : H → C → Option F) (files : P → Option (C × ℕ)) (cache : List (Key P H × F)) (k : Key P H) :
    (∃ f, (k, f) ∈ cache ∧ (memo frames files cache k).1 = some f ∧ ∀ e ∈ (memo frames files cache k).2, e ∈ cache) ∨
    ((memo frames files cache k).1 = body frames files k ∧
      ∀ e ∈ (memo frames files cache k).2, e ∈ cache ∨ (e.1 = k ∧ body frames files k = some e.2)) := by
  unfold memo
  cases h : cache.find? (fun e => decide (e.1 = k)) with
  | some e =>
    left
    have h1 := List.mem_of_find?_eq_some h
    have h2 := List.find?_some h
    simp only [decide_eq_true_eq] at h2
    refine ⟨e.2, by rw [← h2]; exact h1, rfl, fun x hx => ?_⟩
    rcases List.mem_cons.1 hx with rfl | hx
    · exact h1
    · exact List.mem_of_mem_filter hx
  | none =>
    right
    cases hb : body frames files k with
    | some f =>
      refine ⟨rfl, fun x hx => ?_⟩
      rcases List.mem_cons.1 (List.mem_of_mem_take hx) with rfl | hx
      · right; exact ⟨rfl, rfl⟩
      · left; exact hx
    | none => exact ⟨rfl, fun x hx => Or.inl hx⟩

theorem invariant (size : C → ℕ) (frames : H → C → Option F) (es : List (Event P R H C)) :
    (∀ k f, (k, f) ∈ (run (R := R) size frames es).cache → Origin size frames es k f) ∧
    ∀ r k, (run (R := R) size frames es).pending r = some k → ∃ a, a <+: es ∧ identity size (Spec.fileAfter k.path a) = k.ident := by
  induction es using List.reverseRecOn with
  | nil => exact ⟨by simp [run, initial], by simp [run, initial]⟩
  | append_singleton es e ih =>
    obtain ⟨i1, i2⟩ := ih
    have w1 : ∀ k f, Origin size frames es k f → Origin size frames (es ++ [e]) k f := by
      rintro k f ⟨a, b, c, t, h1, h2, h3⟩
      exact ⟨a, b, c, t, h1, h2.trans (List.prefix_append _ _), h3⟩
    have w2 : ∀ k : Key P H, (∃ a, a <+: es ∧ identity size (Spec.fileAfter k.path a) = k.ident) →
        ∃ a, a <+: es ++ [e] ∧ identity size (Spec.fileAfter k.path a) = k.ident := by
      rintro k ⟨a, h1, h2⟩
      exact ⟨a, h1.trans (List.prefix_append _ _), h2⟩
    rw [run_snoc]
    cases e with
    | save q t c => exact ⟨fun k f h => w1 k f (i1 k f h), fun r k h => w2 k (i2 r k h)⟩
    | remove q => exact ⟨fun k f h => w1 k f (i1 k f h), fun r k h => w2 k (i2 r k h)⟩
    | stat r p h =>
      refine ⟨fun k f h => w1 k f (i1 k f h), fun r' k h' => ?_⟩
      simp only [step] at h'
      split at h'
      · simp only [Option.some.injEq] at h'
        subst h'
        exact ⟨es, List.prefix_append _ _, by rw [run_files]⟩
      · exact w2 k (i2 r' k h')
    | load r =>
      simp only [step]
      cases hp : (run (R := R) size frames es).pending r with
      | none => exact ⟨fun k f h => w1 k f (i1 k f h), fun r k h => w2 k (i2 r k h)⟩
      | some key =>
        refine ⟨fun k f h => ?_, fun r' k h' => ?_⟩
        · apply w1
          simp only at h
          rcases memo_cases frames (run (R := R) size frames es).files (run (R := R) size frames es).cache key with ⟨g, -, -, hm⟩ | ⟨-, hm⟩
          · exact i1 k f (hm _ h)
          · rcases hm _ h with h | ⟨h1, h2⟩
            · exact i1 k f h
            · simp only at h1 h2
              subst h1
              obtain ⟨a, ha, hi⟩ := i2 r k hp
              unfold body at h2
              rw [run_files] at h2
              cases hf : Spec.fileAfter k.path es with
              | none => simp [hf] at h2
              | some ct =>
                obtain ⟨c, t⟩ := ct
                exact ⟨a, es, c, t, ha, List.prefix_refl _, hi, hf, by simpa [hf] using h2⟩
        · simp only at h'
          split at h'
          · simp at h'
          · exact w2 k (i2 r' k h')

theorem pending_quiet (size : C → ℕ) (frames : H → C → Option F) (r : R) (a : List (Event P R H C)) (d : List (Event P R H C)) :
    Spec.Quiet r d → (run (R := R) size frames (a ++ d)).pending r = (run (R := R) size frames a).pending r := by
  induction d using List.reverseRecOn with
  | nil => simp
  | append_singleton d e ih =>
    intro hq
    have ih := ih fun x hx => hq x (List.mem_append_left _ hx)
    have he := hq e (by simp)
    rw [← List.append_assoc, run_snoc]
    cases e with
    | save q t c => exact ih
    | remove q => exact ih
    | stat r' p h =>
      have : r ≠ r' := fun hr => he.1 p h (by rw [hr])
      simpa [step, this] using ih
    | load r' =>
      have : r ≠ r' := fun hr => he.2 (by rw [hr])
      simp only [step]
      split
      · exact ih
      · simpa [this] using ih

/-- **C175** a read gives the frames of the file as it was at some moment between the begin and the end of the read, whatever was saved
and removed before and meanwhile, and whatever other readers did; if it raises an exception, the frames cannot be read from the file as
it is. The file must be there when the read begins and a file that is saved again must have another time or
another size. -/
theorem read_fresh_partial (size : C → ℕ) (frames : H → C → Option F) (a d : List (Event P R H C)) (r : R) (p : P) (h : H)
    (ht : Spec.Ticks size (a ++ .stat r p h :: d)) (hq : Spec.Quiet r d) (hf : Spec.fileAfter p a ≠ none) :
    (∃ f, (run (R := R) size frames (a ++ .stat r p h :: d ++ [.load r])).result r = some (some f) ∧
      ∃ k c t, k <+: d ∧ Spec.fileAfter p (a ++ .stat r p h :: k) = some (c, t) ∧ frames h c = some f) ∨
    ((run (R := R) size frames (a ++ .stat r p h :: d ++ [.load r])).result r = some none ∧
      ∀ c t, Spec.fileAfter p (a ++ .stat r p h :: d) = some (c, t) → frames h c = none) := by
  have e1 : a ++ .stat r p h :: d = (a ++ [.stat r p h]) ++ d := by simp
  have hs : ∀ k : List (Event P R H C), a ++ .stat r p h :: k = (a ++ [.stat r p h]) ++ k := by intro k; simp
  have h0 : Spec.fileAfter p (a ++ [Event.stat r p h]) = Spec.fileAfter p a := fileAfter_snoc p a _
  have hp : (run (R := R) size frames (a ++ .stat r p h :: d)).pending r = some ⟨p, h, identity size (Spec.fileAfter p a)⟩ := by
    rw [e1, pending_quiet size frames r _ d hq, run_snoc]
    simp [step, run_files]
  have hres : (run (R := R) size frames (a ++ .stat r p h :: d ++ [.load r])).result r =
      some (memo frames (run (R := R) size frames (a ++ .stat r p h :: d)).files (run (R := R) size frames (a ++ .stat r p h :: d)).cache
        ⟨p, h, identity size (Spec.fileAfter p a)⟩).1 := by
    rw [run_snoc]
    simp only [step, hp, if_true]
  rw [hres]
  rcases memo_cases frames (run (R := R) size frames (a ++ .stat r p h :: d)).files (run (R := R) size frames (a ++ .stat r p h :: d)).cache
    ⟨p, h, identity size (Spec.fileAfter p a)⟩ with ⟨f, hm, hv, -⟩ | ⟨hv, -⟩
  · left
    refine ⟨f, by rw [hv], ?_⟩
    obtain ⟨x, y, c, t, hxy, hy, hi, hc, hfr⟩ := (invariant size frames _).1 _ _ hm
    simp only at hi hc hfr
    rcases List.prefix_or_prefix_of_prefix hy (show a ++ [Event.stat r p h] <+: a ++ .stat r p h :: d from ⟨d, by simp⟩) with hya | hya
    · -- the entry is older than the read
      refine ⟨[], c, t, List.nil_prefix, ?_, hfr⟩
      rw [hs, List.append_nil]
      obtain ⟨z, rfl⟩ := hxy
      have hxa : x <+: a ++ [Event.stat r p h] := (List.prefix_append x z).trans hya
      obtain ⟨w, hw⟩ := hxa
      have hx0 : Spec.fileAfter p x ≠ none := by
        intro hn
        cases hfa : Spec.fileAfter p a with
        | none => exact hf hfa
        | some ct =>
          obtain ⟨c0, t0⟩ := ct
          rw [hn, hfa] at hi
          simp only [identity, Prod.mk.injEq] at hi
          obtain ⟨u, v, e⟩ := List.append_of_mem (fileAfter_saved p a c0 t0 hfa)
          have := (ht u p t0 c0 (v ++ .stat r p h :: d) (by rw [e]; simp)).1
          omega
      have key := same_between size p x w (ticks_prefix ht (by rw [hw, e1]; exact List.prefix_append _ _)) hx0 (by rw [hw, h0, hi])
      have hz : z <+: w := by
        have : x ++ z <+: x ++ w := by rw [hw]; exact hya
        exact (List.prefix_append_right_inj x).1 this
      rw [← hw, key w (List.prefix_refl _), ← key z hz]
      exact hc
    · -- the entry was made during the read
      obtain ⟨k, rfl⟩ := hya
      refine ⟨k, c, t, ?_, by rw [hs]; exact hc, hfr⟩
      rw [e1] at hy
      exact (List.prefix_append_right_inj _).1 hy
  · rw [hv]
    unfold body
    rw [run_files]
    cases hfd : Spec.fileAfter p (a ++ .stat r p h :: d) with
    | none => right; exact ⟨by simp [hfd], by simp⟩
    | some ct =>
      obtain ⟨c, t⟩ := ct
      cases hfr : frames h c with
      | none => right; exact ⟨by simp [hfd, hfr], by rintro c' t' ⟨⟩; exact hfr⟩
      | some f => left; exact ⟨f, by simp [hfd, hfr], d, c, t, List.prefix_refl _, hfd, hfr⟩

/-- **C175** if the file is not changed during the read, the read gives its frames. -/
theorem read_current_partial (size : C → ℕ) (frames : H → C → Option F) (a d : List (Event P R H C)) (r : R) (p : P) (h : H) (c : C) (t : ℕ)
    (ht : Spec.Ticks size (a ++ .stat r p h :: d)) (hq : Spec.Quiet r d) (hf : Spec.fileAfter p a = some (c, t))
    (hn : ∀ k, k <+: d → Spec.fileAfter p (a ++ .stat r p h :: k) = some (c, t)) :
    (run (R := R) size frames (a ++ .stat r p h :: d ++ [.load r])).result r = some (frames h c) := by
  rcases read_fresh_partial size frames a d r p h ht hq (by simp [hf]) with ⟨f, h1, k, c', t', h2, h3, h4⟩ | ⟨h1, h2⟩
  · rw [hn k h2] at h3
    simp only [Option.some.injEq, Prod.mk.injEq] at h3
    obtain ⟨rfl, rfl⟩ := h3
    rw [h1, h4]
  · rw [h1, h2 c t (hn d (List.prefix_refl _))]

/-- **C175** what a reader was given is not changed by what is saved and removed and by what other readers do. -/
theorem result_quiet (size : C → ℕ) (frames : H → C → Option F) (r : R) (a : List (Event P R H C)) (d : List (Event P R H C)) :
    Spec.Quiet r d → (run (R := R) size frames (a ++ d)).result r = (run (R := R) size frames a).result r := by
  induction d using List.reverseRecOn with
  | nil => simp
  | append_singleton d e ih =>
    intro hq
    have ih := ih fun x hx => hq x (List.mem_append_left _ hx)
    have he := hq e (by simp)
    rw [← List.append_assoc, run_snoc]
    cases e with
    | save q t c => exact ih
    | remove q => exact ih
    | stat r' p h => exact ih
    | load r' =>
      have : r ≠ r' := fun hr => he.2 (by rw [hr])
      simp only [step]
      split
      · exact ih
      · simpa [this] using ih

/-- **C175** at most two files are kept. -/
theorem cache_bounded (size : C → ℕ) (frames : H → C → Option F) (es : List (Event P R H C)) : (run (R := R) size frames es).cache.length ≤ 2 := by
  induction es using List.reverseRecOn with
  | nil => simp [run, initial]
  | append_singleton es e ih =>
    rw [run_snoc]
    cases e with
    | save q t c => exact ih
    | remove q => exact ih
    | stat r p h => exact ih
    | load r =>
      simp only [step]
      split
      · exact ih
      · rename_i k _
        simp only [memo]
        split
        · rename_i e he
          have h1 := List.mem_of_find?_eq_some he
          have h2 := List.find?_some he
          have := List.length_filter_lt_length_iff_exists (p := fun x : Key P H × F => !decide (x.1 = k)) |>.2 ⟨e, h1, by simpa using h2⟩
          simp only [List.length_cons]
          omega
        · split
          · simp only [List.length_take]; omega
          · exact ih

/-- The first `h` frames of a file, or an exception if it has fewer. -/
def firstFrames (h : ℕ) (c : List ℕ) : Option (List ℕ) := if h ≤ c.length then some (c.take h) else none

/-- A history that meets the hypotheses: two readers share a file, it is saved again, and both see the new frames. -/
example : (run (P := ℕ) (R := ℕ) List.length firstFrames
    [.save 0 1 [5, 6], .stat 0 0 2, .load 0, .save 0 2 [7, 8], .stat 1 0 2, .load 1, .stat 0 0 2, .load 0]).result 0 = some (some [7, 8]) := by decide

/-- A file saved twice within the resolution of the clock, with another size, is read again. -/
example : (run (P := ℕ) (R := ℕ) List.length firstFrames
    [.save 0 1 [5, 6], .stat 0 0 2, .load 0, .save 0 1 [7, 8, 9], .stat 1 0 2, .load 1]).result 1 = some (some [7, 8]) := by decide

/-- **C175 is false** if a file is saved twice within the resolution of the clock, with the same size: the frames of the first are read. -/
theorem tick_fails : (run (P := ℕ) (R := ℕ) List.length firstFrames
    [.save 0 1 [5, 6], .stat 0 0 2, .load 0, .save 0 1 [7, 8], .stat 1 0 2, .load 1]).result 1 = some (some [5, 6]) := by decide

/-- **C175 is false** for a file that is not there when the read begins: frames of a removed file are read, if an earlier read began while
it was not there either. -/
theorem removed_fails : (run (P := ℕ) (R := ℕ) List.length firstFrames
    [.stat 0 0 2, .save 0 1 [5, 6], .load 0, .remove 0, .stat 1 0 2, .load 1]).result 1 = some (some [5, 6]) := by decide

/-- **C175 is false** between opening and the first read: a series that was opened on a file of two frames shows two frames of the new file
if it is saved again, with three. -/
theorem header_fails : (run (P := ℕ) (R := ℕ) List.length firstFrames
    [.save 0 1 [5, 6], .save 0 2 [7, 8, 9], .stat 0 0 2, .load 0]).result 0 = some (some [7, 8]) := by decide

end Hexrd.FrameMemo
