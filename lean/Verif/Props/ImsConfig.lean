import Verif.Spec.ImsConfig
import Mathlib.Data.List.Induction
import Mathlib.Data.List.Infix

/-! # C179: the image series of a configuration -/
namespace Hexrd.ImsConfig
open Hexrd.Chunks (Name Images sharedKey Rect imagesOf cropImages)

variable {α β : Type}

theorem get_eq (d : List (Name × β)) (k : Name) : Chunks.get d k = (d.find? fun e => e.1 = k).map Prod.snd := rfl

theorem get_assign (d : List (Name × β)) (k q : Name) (v : β) : Chunks.get (assign d k v) q = if q = k then some v else Chunks.get d q := by
  unfold assign
  split
  · rename_i h
    induction d with
    | nil => simp at h
    | cons e d ih =>
      by_cases he : e.1 = k
      · by_cases hq : q = k
        · simp [Chunks.get, he, hq]
        · have hk : ¬ k = q := fun h => hq h.symm
          have hd : ∀ d : List (Name × β), Chunks.get (d.map fun e => if e.1 = k then (k, v) else e) q = Chunks.get d q := by
            intro d
            induction d with
            | nil => rfl
            | cons x d ih =>
              simp only [Chunks.get, List.map_cons, List.find?_cons] at ih ⊢
              by_cases hx : x.1 = k
              · simpa [hx, hk] using ih
              · by_cases hxq : x.1 = q
                · simp [hxq, hq]
                · simpa [hx, hxq] using ih
          rw [hd, if_neg hq]
      · have h' : (d.any fun e => e.1 == k) = true := by simpa [he] using h
        have ih := ih h'
        simp only [Chunks.get, List.map_cons, List.find?_cons, if_neg he] at ih ⊢
        by_cases hq : e.1 = q
        · have : ¬ q = k := fun h => he (hq.trans h)
          simp [hq, this]
        · simpa [hq] using ih
  · rename_i h
    have hn : ∀ e ∈ d, e.1 ≠ k := by
      intro e he hk
      exact h (List.any_eq_true.2 ⟨e, he, by simp [hk]⟩)
    simp only [Chunks.get, List.find?_append]
    by_cases hq : q = k
    · subst hq
      have : (d.find? fun e => decide (e.1 = q)) = none := List.find?_eq_none.2 (by simpa using hn)
      simp [this]
    · have : ¬ k = q := fun h => hq h.symm
      simp [this, hq]

/-- **C179** under every key are the images of the last entry with this key. -/
theorem images_last (l : List (Entry α)) (k : Name) : Chunks.get (imageSeries l) k = (Spec.lastWith l k).map Entry.images := by
  induction l using List.reverseRecOn with
  | nil => rfl
  | append_singleton l e ih =>
    have : imageSeries (l ++ [e]) = assign (imageSeries l) (keyOf e) e.images := by simp [imageSeries]
    rw [this, get_assign, ih]
    by_cases h : k = keyOf e
    · simp [Spec.lastWith, h]
    · have : ¬ keyOf e = k := fun h' => h h'.symm
      simp [Spec.lastWith, h, this]

/-- **C179** entries with different keys are all found, each under its own key, in whatever order they are given. -/
theorem images_each_partial (l : List (Entry α)) (hd : Spec.Distinct l) (e : Entry α) (he : e ∈ l) :
    Chunks.get (imageSeries l) (keyOf e) = some e.images := by
  rw [images_last]
  unfold Spec.lastWith
  have hinj : ∀ x ∈ l, keyOf x = keyOf e → x = e := fun x hx h => List.inj_on_of_nodup_map hd hx he h
  cases hf : l.reverse.find? fun x => decide (keyOf x = keyOf e) with
  | none => exact absurd (List.find?_eq_none.1 hf e (by simpa using he)) (by simp)
  | some x =>
    have h1 := List.mem_of_find?_eq_some hf
    have h2 := List.find?_some hf
    rw [hinj x (by simpa using h1) (by simpa using h2)]
    rfl

/-- **C179** a detector that has an entry of its own, by the configuration or else by the metadata, gets these images, as they are. -/
theorem own_entry_partial (l : List (Entry α)) (hd : Spec.Distinct l) (e : Entry α) (he : e ∈ l) (n : Name)
    (hn : e.panel = some (.name n) ∨ (e.panel = none ∧ e.metadata = some n)) (roi : Option Rect) (g : Option Name) :
    imagesOf (imageSeries l) n roi g = some e.images := by
  have hk : keyOf e = n := by
    unfold keyOf
    rcases hn with h | ⟨h, h'⟩
    · rw [h]
    · rw [h, h']
  have h1 := images_each_partial l hd e he
  rw [hk] at h1
  unfold imagesOf
  rw [h1]

/-- Every name is a part of the joined name. -/
theorem mem_join (l : List Name) (n : Name) (h : n ∈ l) : n <:+: join l := by
  induction l with
  | nil => simp at h
  | cons m l ih =>
    cases l with
    | nil => simp only [List.mem_singleton] at h; subst h; exact List.infix_refl _
    | cons m' l =>
      rcases List.mem_cons.1 h with rfl | h
      · exact (List.prefix_append _ _).isInfix
      · exact (ih h).trans ((List.suffix_append_of_suffix (List.suffix_cons _ _)).isInfix)

theorem assign_mem (d : List (Name × β)) (k : Name) (v : β) : ∀ e ∈ assign d k v, e ∈ d ∨ e = (k, v) := by
  intro e he
  unfold assign at he
  split at he
  · obtain ⟨x, hx, rfl⟩ := List.mem_map.1 he
    split
    · exact Or.inr rfl
    · exact Or.inl hx
  · rcases List.mem_append.1 he with h | h
    · exact Or.inl h
    · exact Or.inr (by simpa using h)

theorem assign_keys (d : List (Name × β)) (k : Name) (v : β) : (assign d k v).map Prod.fst = if k ∈ d.map Prod.fst then d.map Prod.fst else d.map Prod.fst ++ [k] := by
  unfold assign
  have e : (d.any fun e => e.1 == k) = true ↔ k ∈ d.map Prod.fst := by
    simp [List.any_eq_true]
  by_cases h : k ∈ d.map Prod.fst
  · rw [if_pos (e.2 h), if_pos h, List.map_map]
    apply List.map_congr_left
    intro x _
    by_cases hx : x.1 = k <;> simp [hx]
  · rw [if_neg (fun h' => h (e.1 h')), if_neg h]
    simp

theorem keys_nodup (l : List (Entry α)) : ((imageSeries l).map Prod.fst).Nodup ∧ ∀ k, k ∈ (imageSeries l).map Prod.fst ↔ k ∈ l.map keyOf := by
  induction l using List.reverseRecOn with
  | nil => simp [imageSeries]
  | append_singleton l e ih =>
    have : imageSeries (l ++ [e]) = assign (imageSeries l) (keyOf e) e.images := by simp [imageSeries]
    rw [this, assign_keys]
    obtain ⟨i1, i2⟩ := ih
    split
    · rename_i h
      refine ⟨i1, fun k => ?_⟩
      rw [i2, List.map_append, List.mem_append]
      constructor
      · exact Or.inl
      · rintro (h' | h')
        · exact h'
        · rw [i2] at h; simp only [List.map_cons, List.map_nil, List.mem_singleton] at h'; rw [h']; exact h
    · rename_i h
      refine ⟨List.Nodup.append i1 (by simp) (by simpa using h), fun k => ?_⟩
      simp [← i2]

theorem filter_unique (d : List (Name × β)) (hn : (d.map Prod.fst).Nodup) (p : Name → Bool) (k : Name) (v : β) (hg : Chunks.get d k = some v) (hp : p k = true)
    (hu : ∀ q ∈ d.map Prod.fst, p q = true → q = k) : d.filter (fun e => p e.1) = [(k, v)] := by
  induction d with
  | nil => simp [Chunks.get] at hg
  | cons e d ih =>
    simp only [List.map_cons, List.nodup_cons] at hn
    by_cases he : e.1 = k
    · have hv : e.2 = v := by simpa [Chunks.get, he] using hg
      have : d.filter (fun e => p e.1) = [] := by
        rw [List.filter_eq_nil_iff]
        intro x hx hpx
        have := hu x.1 (by simp only [List.map_cons, List.mem_cons]; right; exact List.mem_map_of_mem hx) hpx
        exact hn.1 (by rw [he, ← this]; exact List.mem_map_of_mem hx)
      rw [List.filter_cons, this, he, if_pos hp, ← hv, ← he]
    · have hpe : ¬ p e.1 = true := fun h => he (hu e.1 (by simp) h)
      rw [List.filter_cons, if_neg hpe]
      exact ih hn.2 (by simpa [Chunks.get, he] using hg) fun q hq => hu q (List.mem_cons_of_mem _ hq)

/-- **C179** a detector that is named in one list of panels, and in no other key, gets its region of the images of that entry. -/
theorem listed_entry_partial (l : List (Entry α)) (hd : Spec.Distinct l) (e : Entry α) (he : e ∈ l) (ns : List Name) (hns : e.panel = some (.names ns))
    (n : Name) (hn : n ∈ ns) (hu : ∀ x ∈ l, n <:+: keyOf x → x = e) (hk : keyOf e ≠ n) (hs : ∀ x ∈ l, keyOf x ≠ sharedKey) (r : Rect) (g : Option Name) :
    imagesOf (imageSeries l) n (some r) g = cropImages r e.images := by
  have none_of : ∀ k, (∀ x ∈ l, keyOf x ≠ k) → Chunks.get (imageSeries l) k = none := by
    intro k h
    rw [images_last]
    unfold Spec.lastWith
    rw [List.find?_eq_none.2 (by simpa using h)]
    rfl
  have h1 : Chunks.get (imageSeries l) n = none := none_of n fun x hx hxn => hk (by rw [← hu x hx (hxn ▸ List.infix_refl _)]; exact hxn)
  have h2 := none_of sharedKey hs
  have hin : n <:+: keyOf e := by unfold keyOf; rw [hns]; exact mem_join ns n hn
  obtain ⟨kn, km⟩ := keys_nodup l
  classical
  have h3 := filter_unique (imageSeries l) kn (fun k => decide (n <:+: k)) (keyOf e) e.images (images_each_partial l hd e he) (by simpa using hin) (by
    intro q hq hp
    obtain ⟨x, hx, rfl⟩ := List.mem_map.1 ((km q).1 hq)
    rw [hu x hx (by simpa using hp)])
  have h4 : ∀ inst : (k : Name) → Decidable (n <:+: k), ((imageSeries l).filter fun e => @decide (n <:+: e.1) (inst e.1)) = [(keyOf e, e.images)] := by
    intro inst
    rw [← h3]
    congr 1
    funext x
    congr
  unfold imagesOf
  rw [h1, h2]
  simp only
  rw [h4]

/-- **C179** entries without a panel, in the file and in the metadata, are shared by all detectors: each gets its region, if no entry is
its own. -/
theorem shared_entry_partial (l : List (Entry α)) (hd : Spec.Distinct l) (e : Entry α) (he : e ∈ l)
    (hp : e.panel = some .null ∨ (e.panel = none ∧ e.metadata = none)) (n : Name) (hn : ∀ x ∈ l, keyOf x ≠ n) (r : Rect) (g : Option Name) :
    imagesOf (imageSeries l) n (some r) g = cropImages r e.images := by
  have hk : keyOf e = sharedKey := by
    unfold keyOf
    rcases hp with h | ⟨h, h'⟩
    · rw [h]
    · rw [h, h']
  have h1 : Chunks.get (imageSeries l) n = none := by
    rw [images_last]
    unfold Spec.lastWith
    rw [List.find?_eq_none.2 (by simpa using hn)]
    rfl
  have h2 := images_each_partial l hd e he
  rw [hk] at h2
  unfold imagesOf
  rw [h1, h2]

/-- **C179 is false** for entries with the same key, as two without a panel: the images of the earlier are not used, and nothing is said. -/
theorem overwritten_fails (l : List (Entry α)) (a b : Entry α) (h : keyOf a = keyOf b) (ha : ∀ x ∈ l, keyOf x ≠ keyOf b) :
    imageSeries (l ++ [a, b]) = imageSeries (l ++ [b]) := by
  have h0 : ((imageSeries l).any fun e => e.1 == keyOf b) = false := by
    rw [List.any_eq_false]
    intro x hx hxb
    have : keyOf b ∈ (imageSeries l).map Prod.fst := by
      have : x.1 = keyOf b := by simpa using hxb
      rw [← this]
      exact List.mem_map_of_mem hx
    rw [(keys_nodup l).2] at this
    obtain ⟨y, hy, e⟩ := List.mem_map.1 this
    exact ha y hy e
  have e1 : imageSeries (l ++ [a, b]) = assign (assign (imageSeries l) (keyOf b) a.images) (keyOf b) b.images := by simp [imageSeries, h]
  have e2 : imageSeries (l ++ [b]) = assign (imageSeries l) (keyOf b) b.images := by simp [imageSeries]
  rw [e1, e2]
  have e3 : ∀ v : Images α, assign (imageSeries l) (keyOf b) v = imageSeries l ++ [(keyOf b, v)] := by intro v; unfold assign; rw [if_neg (by simp [h0])]
  rw [e3, e3]
  unfold assign
  rw [if_pos (by simp)]
  rw [List.map_append]
  congr 1
  · conv_rhs => rw [← List.map_id (imageSeries l)]
    apply List.map_congr_left
    intro x hx
    rw [if_neg]
    · rfl
    · intro hxb
      have := List.any_eq_false.1 h0 x hx
      simp [hxb] at this
  · simp

/-- **C179 is false** for joined names: different lists of panels can have one key. -/
theorem joined_fails : join ["a".toList, "b_c".toList] = join ["a_b".toList, "c".toList] := by decide

/-- Two entries that meet the hypotheses: one detector, and two that share a file. -/
example : Spec.Distinct ([⟨some (.name "ge1".toList), none, .other⟩, ⟨some (.names ["ff1".toList, "ff2".toList]), none, .other⟩] : List (Entry ℕ)) := by
  unfold Spec.Distinct; decide

end Hexrd.ImsConfig
