import Verif.Spec.Resolution
import Verif.Props.EtaOme

/-! # C170: the range and the resolution of an instrument -/
namespace Hexrd.Resolution

theorem foldl_max (l : List ℝ) : ∀ a, (l.foldl max a ∈ a :: l) ∧ ∀ x ∈ a :: l, x ≤ l.foldl max a := by
  induction l with
  | nil => intro a; simp
  | cons b l ih =>
    intro a
    obtain ⟨h1, h2⟩ := ih (max a b)
    rw [List.foldl_cons]
    refine ⟨?_, fun x hx => ?_⟩
    · rw [List.mem_cons] at h1
      rcases h1 with h1 | h1
      · rw [h1]; rcases max_choice a b with h | h <;> simp [h]
      · simp [h1]
    · have := h2 (max a b) (by simp)
      simp only [List.mem_cons] at hx
      rcases hx with rfl | rfl | hx
      · exact le_trans (le_max_left _ _) this
      · exact le_trans (le_max_right _ _) this
      · exact h2 x (by simp [hx])

theorem foldl_min (l : List ℝ) : ∀ a, (l.foldl min a ∈ a :: l) ∧ ∀ x ∈ a :: l, l.foldl min a ≤ x := by
  induction l with
  | nil => intro a; simp
  | cons b l ih =>
    intro a
    obtain ⟨h1, h2⟩ := ih (min a b)
    rw [List.foldl_cons]
    refine ⟨?_, fun x hx => ?_⟩
    · rw [List.mem_cons] at h1
      rcases h1 with h1 | h1
      · rw [h1]; rcases min_choice a b with h | h <;> simp [h]
      · simp [h1]
    · have := h2 (min a b) (by simp)
      simp only [List.mem_cons] at hx
      rcases hx with rfl | rfl | hx
      · exact le_trans this (min_le_left _ _)
      · exact le_trans this (min_le_right _ _)
      · exact h2 x (by simp [hx])

theorem maxOf_some {p : List ℝ} (h : p ≠ []) : ∃ m, maxOf p = some m ∧ m ∈ p ∧ ∀ x ∈ p, x ≤ m := by
  cases p with
  | nil => exact absurd rfl h
  | cons a l => exact ⟨_, rfl, foldl_max l a⟩

theorem minOf_some {p : List ℝ} (h : p ≠ []) : ∃ m, minOf p = some m ∧ m ∈ p ∧ ∀ x ∈ p, m ≤ x := by
  cases p with
  | nil => exact absurd rfl h
  | cons a l => exact ⟨_, rfl, foldl_min l a⟩

theorem maxTth_aux (panels : List (List ℝ)) : ∀ t, (∀ p ∈ panels, p ≠ []) →
    ∃ m, panels.foldlM (fun t p => (maxOf p).map fun m => max m t) t = some m ∧ t ≤ m ∧ (∀ p ∈ panels, ∀ x ∈ p, x ≤ m) ∧
      (m = t ∨ ∃ p ∈ panels, m ∈ p) := by
  induction panels with
  | nil => intro t _; exact ⟨t, rfl, le_refl t, by simp, .inl rfl⟩
  | cons p ps ih =>
    intro t h
    obtain ⟨a, ha, hm, hx⟩ := maxOf_some (h p (by simp))
    obtain ⟨m, h1, h2, h3, h4⟩ := ih (max a t) fun q hq => h q (by simp [hq])
    refine ⟨m, by simp [List.foldlM_cons, ha, h1], le_trans (le_max_right _ _) h2, ?_, ?_⟩
    · intro q hq x hxq
      rw [List.mem_cons] at hq
      rcases hq with rfl | hq
      · exact le_trans (hx x hxq) (le_trans (le_max_left _ _) h2)
      · exact h3 q hq x hxq
    · rcases h4 with h4 | ⟨q, hq, hmq⟩
      · rcases max_choice a t with e | e
        · exact .inr ⟨p, by simp, by rw [h4, e]; exact hm⟩
        · exact .inl (by rw [h4, e])
      · exact .inr ⟨q, by simp [hq], hmq⟩

/-- **C170** the largest scattering angle is that of a pixel, and no pixel of any detector has a larger one; with no detectors it is 0. -/
theorem maxTth_spec (panels : List (List ℝ)) (hp : ∀ p ∈ panels, p ≠ []) (h0 : ∀ p ∈ panels, ∀ x ∈ p, 0 ≤ x) :
    ∃ m, maxTth panels = some m ∧ (panels = [] → m = 0) ∧ (panels ≠ [] → Spec.IsGreatest panels m) := by
  obtain ⟨m, h1, h2, h3, h4⟩ := maxTth_aux panels 0 hp
  refine ⟨m, h1, fun e => ?_, fun hne => ⟨?_, h3⟩⟩
  · subst e; rcases h4 with h4 | ⟨p, hp, -⟩
    · exact h4
    · simp at hp
  · rcases h4 with h4 | h4
    · obtain ⟨p, ps, rfl⟩ := List.exists_cons_of_ne_nil hne
      obtain ⟨x, hx⟩ := List.exists_mem_of_ne_nil p (hp p (by simp))
      have : x = m := le_antisymm (h3 p (by simp) x hx) (by rw [h4]; exact h0 p (by simp) x hx)
      exact ⟨p, by simp, this ▸ hx⟩
    · exact h4

theorem runMin_aux (panels : List (List ℝ)) : ∀ t : Option ℝ, (∀ p ∈ panels, p ≠ []) → panels ≠ [] →
    ∃ m, panels.foldlM (fun t p => (minOf p).map fun m => some (lower t m)) t = some (some m) ∧
      (∀ a, t = some a → m ≤ a) ∧ (∀ p ∈ panels, ∀ x ∈ p, m ≤ x) ∧ (t = some m ∨ ∃ p ∈ panels, m ∈ p) := by
  induction panels with
  | nil => intro t _ h; exact absurd rfl h
  | cons p ps ih =>
    intro t h _
    obtain ⟨b, hb, hm, hx⟩ := minOf_some (h p (by simp))
    have key : ∀ c : ℝ, c = lower t b → (∀ a, t = some a → c ≤ a) ∧ c ≤ b ∧ (t = some c ∨ c = b) := by
      intro c hc
      cases t with
      | none => simp only [lower] at hc; subst hc; exact ⟨by simp, le_refl _, .inr rfl⟩
      | some a =>
        simp only [lower] at hc; subst hc
        refine ⟨fun a' e => ?_, min_le_right _ _, ?_⟩
        · rw [← Option.some.inj e]; exact min_le_left _ _
        · rcases min_choice a b with e | e
          · left; rw [e]
          · right; exact e
    obtain ⟨k1, k2, k3⟩ := key _ rfl
    generalize hc : lower t b = c at k1 k2 k3
    by_cases e : ps = []
    · subst e
      refine ⟨c, by simp [List.foldlM_cons, hb, hc], k1, ?_, ?_⟩
      · intro q hq x hxq
        rw [List.mem_singleton] at hq; subst hq
        exact le_trans k2 (hx x hxq)
      · rcases k3 with k3 | k3
        · exact .inl k3
        · exact .inr ⟨p, by simp, k3 ▸ hm⟩
    · obtain ⟨m, h1, h2, h3, h4⟩ := ih (some c) (fun q hq => h q (by simp [hq])) e
      refine ⟨m, by simp [List.foldlM_cons, hb, hc, h1], fun a ha => le_trans (h2 c rfl) (k1 a ha), ?_, ?_⟩
      · intro q hq x hxq
        rw [List.mem_cons] at hq
        rcases hq with rfl | hq
        · exact le_trans (h2 c rfl) (le_trans k2 (hx x hxq))
        · exact h3 q hq x hxq
      · rcases h4 with h4 | ⟨q, hq, hmq⟩
        · have h4 := Option.some.inj h4
          subst h4
          rcases k3 with k3 | k3
          · exact .inl k3
          · exact .inr ⟨p, by simp, k3 ▸ hm⟩
        · exact .inr ⟨q, by simp [hq], hmq⟩

theorem runMin_spec (panels : List (List ℝ)) (h : Spec.Proper panels) : ∃ m, runMin panels = some (some m) ∧ Spec.IsLeast panels m := by
  obtain ⟨m, h1, -, h3, h4⟩ := runMin_aux panels none h.2 h.1
  exact ⟨m, h1, by simpa using h4, h3⟩

theorem runMax_aux (panels : List (List ℝ)) : ∀ t : Option ℝ, (∀ p ∈ panels, p ≠ []) → panels ≠ [] →
    ∃ m, panels.foldlM (fun t p => (maxOf p).map fun m => some (upper t m)) t = some (some m) ∧
      (∀ a, t = some a → a ≤ m) ∧ (∀ p ∈ panels, ∀ x ∈ p, x ≤ m) ∧ (t = some m ∨ ∃ p ∈ panels, m ∈ p) := by
  induction panels with
  | nil => intro t _ h; exact absurd rfl h
  | cons p ps ih =>
    intro t h _
    obtain ⟨b, hb, hm, hx⟩ := maxOf_some (h p (by simp))
    have key : ∀ c : ℝ, c = upper t b → (∀ a, t = some a → a ≤ c) ∧ b ≤ c ∧ (t = some c ∨ c = b) := by
      intro c hc
      cases t with
      | none => simp only [upper] at hc; subst hc; exact ⟨by simp, le_refl _, .inr rfl⟩
      | some a =>
        simp only [upper] at hc; subst hc
        refine ⟨fun a' e => ?_, le_max_right _ _, ?_⟩
        · rw [← Option.some.inj e]; exact le_max_left _ _
        · rcases max_choice a b with e | e
          · left; rw [e]
          · right; exact e
    obtain ⟨k1, k2, k3⟩ := key _ rfl
    generalize hc : upper t b = c at k1 k2 k3
    by_cases e : ps = []
    · subst e
      refine ⟨c, by simp [List.foldlM_cons, hb, hc], k1, ?_, ?_⟩
      · intro q hq x hxq
        rw [List.mem_singleton] at hq; subst hq
        exact le_trans (hx x hxq) k2
      · rcases k3 with k3 | k3
        · exact .inl k3
        · exact .inr ⟨p, by simp, k3 ▸ hm⟩
    · obtain ⟨m, h1, h2, h3, h4⟩ := ih (some c) (fun q hq => h q (by simp [hq])) e
      refine ⟨m, by simp [List.foldlM_cons, hb, hc, h1], fun a ha => le_trans (k1 a ha) (h2 c rfl), ?_, ?_⟩
      · intro q hq x hxq
        rw [List.mem_cons] at hq
        rcases hq with rfl | hq
        · exact le_trans (hx x hxq) (le_trans k2 (h2 c rfl))
        · exact h3 q hq x hxq
      · rcases h4 with h4 | ⟨q, hq, hmq⟩
        · have h4 := Option.some.inj h4
          subst h4
          rcases k3 with k3 | k3
          · exact .inl k3
          · exact .inr ⟨p, by simp, k3 ▸ hm⟩
        · exact .inr ⟨q, by simp [hq], hmq⟩

theorem runMax_spec (panels : List (List ℝ)) (h : Spec.Proper panels) : ∃ m, runMax panels = some (some m) ∧ Spec.IsGreatest panels m := by
  obtain ⟨m, h1, -, h3, h4⟩ := runMax_aux panels none h.2 h.1
  exact ⟨m, h1, by simpa using h4, h3⟩

/-- **C170** the lowest resolution is the largest size of a pixel on any detector, the highest the smallest, and between them is a median
of the sizes of all pixels of all detectors together. -/
theorem resolution1_spec (panels : List (List ℝ)) (h : Spec.Proper panels) : ∃ lo med hi, resolution1 panels = some (lo, med, hi) ∧
    Spec.IsGreatest panels lo ∧ Spec.IsLeast panels hi ∧ EtaOme.Spec.IsMedian med panels.flatten := by
  obtain ⟨hi, h1, h2⟩ := runMin_spec panels h
  obtain ⟨lo, h3, h4⟩ := runMax_spec panels h
  have hne : panels.flatten ≠ [] := by
    obtain ⟨p, hp, hx⟩ := h4.1
    exact List.ne_nil_of_mem (List.mem_flatten.2 ⟨p, hp, hx⟩)
  obtain ⟨med, h5, h6, -⟩ := EtaOme.median_some hne
  exact ⟨lo, med, hi, by simp [resolution1, h1, h3, h5], h4, h2, h6⟩

theorem proper_map {α : Type} (f : α → ℝ) (panels : List (List α)) (h : Spec.Proper panels) : Spec.Proper (panels.map fun p => p.map f) := by
  refine ⟨by simpa using h.1, fun q hq => ?_⟩
  obtain ⟨p, hp, rfl⟩ := List.mem_map.1 hq
  simpa using h.2 p hp

/-- **C170** the resolution in both angles, each from its own sizes. -/
theorem pixelResolution_spec (panels : List (List (ℝ × ℝ))) (h : Spec.Proper panels) : ∃ lt mt ht le me he,
    pixelResolution panels = some ((lt, mt, ht), le, me, he) ∧
    Spec.IsGreatest (panels.map fun p => p.map Prod.fst) lt ∧ Spec.IsLeast (panels.map fun p => p.map Prod.fst) ht ∧
    EtaOme.Spec.IsMedian mt (panels.flatten.map Prod.fst) ∧
    Spec.IsGreatest (panels.map fun p => p.map Prod.snd) le ∧ Spec.IsLeast (panels.map fun p => p.map Prod.snd) he ∧
    EtaOme.Spec.IsMedian me (panels.flatten.map Prod.snd) := by
  obtain ⟨lt, mt, ht, a1, a2, a3, a4⟩ := resolution1_spec _ (proper_map Prod.fst panels h)
  obtain ⟨le, me, he, b1, b2, b3, b4⟩ := resolution1_spec _ (proper_map Prod.snd panels h)
  refine ⟨lt, mt, ht, le, me, he, by simp [pixelResolution, a1, b1], a2, a3, ?_, b2, b3, ?_⟩
  · rwa [List.map_flatten]
  · rwa [List.map_flatten]

theorem nearZero_iff (x : ℝ) : nearZero x = true ↔ |x| ≤ 1e-8 := by
  unfold nearZero; simp

/-- The pixels that count are those with a size in both angles. -/
theorem mem_counted (p : List (ℝ × ℝ)) (x : ℝ × ℝ) : x ∈ counted p ↔ x ∈ p ∧ 1e-8 < |x.1| ∧ 1e-8 < |x.2| := by
  unfold counted
  rw [List.mem_filter]
  have h1 := nearZero_iff x.1
  have h2 := nearZero_iff x.2
  rw [← not_le, ← not_le, ← h1, ← h2]
  simp

/-- **C170** the highest resolution is the smallest size among the pixels with a size in both angles, if every detector has some. -/
theorem maxResolution_spec (panels : List (List (ℝ × ℝ))) (h : Spec.Proper (panels.map counted)) : ∃ t e,
    maxResolution panels = some (some t, some e) ∧
    (∃ p ∈ panels, ∃ x ∈ p, 1e-8 < |x.1| ∧ 1e-8 < |x.2| ∧ x.1 = t) ∧ (∃ p ∈ panels, ∃ x ∈ p, 1e-8 < |x.1| ∧ 1e-8 < |x.2| ∧ x.2 = e) ∧
    ∀ p ∈ panels, ∀ x ∈ p, 1e-8 < |x.1| → 1e-8 < |x.2| → t ≤ x.1 ∧ e ≤ x.2 := by
  have e1 : ∀ f : ℝ × ℝ → ℝ, (panels.map fun p => (counted p).map f) = (panels.map counted).map fun p => p.map f := by intro f; simp
  obtain ⟨t, a1, ⟨q, hq, hx⟩, a3⟩ := runMin_spec _ (proper_map Prod.fst (panels.map counted) h)
  obtain ⟨e, b1, ⟨r, hr, hy⟩, b3⟩ := runMin_spec _ (proper_map Prod.snd (panels.map counted) h)
  refine ⟨t, e, by simp only [maxResolution, e1, a1, b1]; rfl, ?_, ?_, ?_⟩
  · simp only [List.map_map, List.mem_map, Function.comp] at hq
    obtain ⟨p, hp, rfl⟩ := hq
    obtain ⟨x, hx1, hx2⟩ := List.mem_map.1 hx
    obtain ⟨c1, c2, c3⟩ := (mem_counted p x).1 hx1
    exact ⟨p, hp, x, c1, c2, c3, hx2⟩
  · simp only [List.map_map, List.mem_map, Function.comp] at hr
    obtain ⟨p, hp, rfl⟩ := hr
    obtain ⟨x, hx1, hx2⟩ := List.mem_map.1 hy
    obtain ⟨c1, c2, c3⟩ := (mem_counted p x).1 hx1
    exact ⟨p, hp, x, c1, c2, c3, hx2⟩
  · intro p hp x hxp h1 h2
    have hc := (mem_counted p x).2 ⟨hxp, h1, h2⟩
    constructor
    · exact a3 _ (by simp only [List.map_map, List.mem_map, Function.comp]; exact ⟨p, hp, rfl⟩) _ (List.mem_map.2 ⟨x, hc, rfl⟩)
    · exact b3 _ (by simp only [List.map_map, List.mem_map, Function.comp]; exact ⟨p, hp, rfl⟩) _ (List.mem_map.2 ⟨x, hc, rfl⟩)

/-- **C170** if all pixels have a size, both functions agree on the highest resolution. -/
theorem highest_agree (panels : List (List (ℝ × ℝ))) (h : Spec.Proper panels) (hs : ∀ p ∈ panels, ∀ x ∈ p, 1e-8 < |x.1| ∧ 1e-8 < |x.2|) :
    maxResolution panels = (pixelResolution panels).map fun r => (some r.1.2.2, some r.2.2.2) := by
  have e : ∀ p ∈ panels, counted p = p := by
    intro p hp
    unfold counted
    rw [List.filter_eq_self]
    intro x hx
    have h3 := hs p hp x hx
    have h1 := nearZero_iff x.1
    have h2 := nearZero_iff x.2
    rw [← not_le, ← not_le, ← h1, ← h2] at h3
    simp [h3]
  have e1 : ∀ f : ℝ × ℝ → ℝ, (panels.map fun p => (counted p).map f) = panels.map fun p => p.map f := fun f =>
    List.map_congr_left fun p hp => by rw [e p hp]
  have key : ∀ qs, Spec.Proper qs → ∃ lo med hi, resolution1 qs = some (lo, med, hi) ∧ runMin qs = some (some hi) := by
    intro qs hq
    obtain ⟨hi, h1, -⟩ := runMin_spec qs hq
    obtain ⟨lo, h3, h4⟩ := runMax_spec qs hq
    have hne : qs.flatten ≠ [] := by
      obtain ⟨p, hp, hx⟩ := h4.1
      exact List.ne_nil_of_mem (List.mem_flatten.2 ⟨p, hp, hx⟩)
    obtain ⟨med, h5, -⟩ := EtaOme.median_some hne
    exact ⟨lo, med, hi, by simp [resolution1, h1, h3, h5], h1⟩
  obtain ⟨lt, mt, ht, a1, a2⟩ := key _ (proper_map Prod.fst panels h)
  obtain ⟨le, me, he, b1, b2⟩ := key _ (proper_map Prod.snd panels h)
  simp [maxResolution, pixelResolution, e1, a1, a2, b1, b2]

/-- **C170 is false** if a detector has no pixel with a size in both angles: there is no answer, although other detectors have one. -/
theorem maxResolution_fails : maxResolution [[(1, 1)], [(0, 1)]] = none := by
  have h0 : nearZero 0 = true := (nearZero_iff 0).2 (by norm_num)
  have h1 : nearZero 1 = false := by
    rw [← Bool.not_eq_true, nearZero_iff]; norm_num
  simp [maxResolution, runMin, lower, counted, h0, h1, minOf, List.foldlM_cons]

/-- Two detectors with pixels. -/
example : Spec.Proper [[(1, 2)], [((3 : ℝ), (4 : ℝ)), (1, 5)]] := ⟨by simp, by simp⟩

example : Spec.Proper ([[((1 : ℝ), (2 : ℝ))]].map counted) := by
  refine ⟨by simp, fun p hp => ?_⟩
  simp only [List.map_cons, List.map_nil, List.mem_singleton] at hp
  subst hp
  exact List.ne_nil_of_mem ((mem_counted _ (1, 2)).2 ⟨by simp, by norm_num, by norm_num⟩)

end Hexrd.Resolution
