import Verif.Lemmas.Snip

/-!
# Properties of background estimation

C56.
-/
namespace Hexrd.Snip

open Finset Hexrd.Snip.Spec

/-! ### Rows -/

theorem windows_none {n : Nat} {mask : Nat → Bool} {z : Row} {i : Nat} (w : Nat) (b : Row) (h : b i = none) :
    windows n mask z w b i = none := by
  induction w generalizing b with
  | zero => exact h
  | succ p ih => exact ih _ (by rw [h]; rfl)

theorem windows_masked {n : Nat} {mask : Nat → Bool} {z : Row} {i : Nat} (w : Nat) (hw : 1 ≤ w) (b : Row)
    (h : masked z mask i = none) : windows n mask z w b i = none := by
  obtain ⟨p, rfl⟩ : ∃ p, w = p + 1 := ⟨w - 1, by omega⟩
  refine windows_none p _ ?_
  rw [convolve_none z mask h]
  cases b i <;> rfl

/-- The value after the loop over the windows is the least of the value before it and the results of all convolutions. -/
theorem windows_least {n : Nat} {mask : Nat → Bool} {z : Row} {i : Nat} (hi : i < n) {v : ℝ}
    (hv : masked z mask i = some v) (w : Nat) (b : Row) {b0 : ℝ} (hb : b i = some b0) :
    ∃ b', windows n mask z w b i = some b' ∧
      IsLeast ({b0} ∪ {c | ∃ p, 1 ≤ p ∧ p ≤ w ∧ convolve n z (2 * p + 1) (kernel p) mask i = some c}) b' := by
  induction w generalizing b b0 with
  | zero =>
    refine ⟨b0, hb, Or.inl rfl, ?_⟩
    rintro x (rfl | ⟨p, h1, h0, -⟩)
    · exact le_refl _
    · omega
  | succ p ih =>
    obtain ⟨c, hc, -⟩ := convolve_kernel (p := p + 1) (by omega) hi z mask hv
    have hs : (fun i => minimum (b i) (convolve n z (2 * (p + 1) + 1) (kernel (p + 1)) mask i)) i = some (min b0 c) := by
      simp only [hb, hc]; rfl
    obtain ⟨b', h1, h2, h3⟩ := ih (fun i => minimum (b i) (convolve n z (2 * (p + 1) + 1) (kernel (p + 1)) mask i)) hs
    refine ⟨b', h1, ?_, ?_⟩
    · rcases h2 with h2 | ⟨q, hq1, hq, hc'⟩
      · rcases min_choice b0 c with hm | hm
        · exact Or.inl (by rw [Set.mem_singleton_iff] at *; rw [h2, hm])
        · exact Or.inr ⟨p + 1, by omega, le_refl _, by rw [Set.mem_singleton_iff.1 h2, hm]; exact hc⟩
      · exact Or.inr ⟨q, hq1, by omega, hc'⟩
    · have h4 : b' ≤ min b0 c := h3 (Or.inl rfl)
      rintro x (hx | ⟨q, hq1, hq, hx⟩)
      · rw [Set.mem_singleton_iff.1 hx]; exact h4.trans (min_le_left _ _)
      · by_cases h : q ≤ p
        · exact h3 (Or.inr ⟨q, hq1, h, hx⟩)
        · obtain rfl : q = p + 1 := by omega
          rw [hc] at hx
          cases hx
          exact h4.trans (min_le_right _ _)

theorem mean_convolve {n p i : Nat} (hp : 1 ≤ p) (hi : i < n) (z : Row) (mask : Nat → Bool) {v a : ℝ}
    (hv : masked z mask i = some v) (ha : IsMean n (masked z mask) i p a) :
    convolve n z (2 * p + 1) (kernel p) mask i = some a := by
  obtain ⟨c, hc, h⟩ := convolve_kernel hp hi z mask hv
  rw [hc]
  rcases h with h | ⟨h1, h2, -⟩
  · rcases h with ⟨u, u', e1, e2, rfl⟩ | ⟨e1, e2⟩ | ⟨e1, e2⟩ <;>
      rcases ha with ⟨w, w', f1, f2, rfl⟩ | ⟨f1, f2⟩ | ⟨f1, f2⟩ <;> simp_all
  · rcases ha with ⟨w, w', f1, f2, rfl⟩ | ⟨f1, f2⟩ | ⟨f1, f2⟩ <;> simp_all

/-- One round clips. -/
theorem windows_clipped (n w : Nat) (mask : Nat → Bool) (z : Row) :
    IsClipped n w (masked z mask) (masked (windows n mask z w z) mask) := by
  intro i hi
  refine ⟨fun h => ?_, fun v hv => ?_⟩
  · unfold masked at h ⊢
    split
    · rfl
    · rename_i hm
      rw [if_neg hm] at h
      exact windows_none w z h
  · have hm : mask i = false := by
      cases hm : mask i with
      | false => rfl
      | true => simp [masked, hm] at hv
    have hz : z i = some v := by simpa [masked, hm] using hv
    obtain ⟨b, hb, h1, h2⟩ := windows_least hi hv w z hz
    refine ⟨b, by simpa [masked, hm] using hb, ?_, ?_⟩
    · rcases h1 with h1 | ⟨p, hp, hpw, hc⟩
      · exact Or.inl h1
      · obtain ⟨c, hc', h⟩ := convolve_kernel hp hi z mask hv
        rw [hc] at hc'
        cases hc'
        rcases h with h | ⟨-, -, rfl⟩
        · exact Or.inr ⟨p, hp, hpw, h⟩
        · exact Or.inl rfl
    · rintro x (hx | ⟨p, hp, hpw, hx⟩)
      · exact h2 (Or.inl hx)
      · exact h2 (Or.inr ⟨p, hp, hpw, mean_convolve hp hi z mask hv hx⟩)

theorem rounds_succ (n w k : Nat) (mask : Nat → Bool) (z : Row) :
    rounds n mask w (k + 1) z = windows n mask (rounds n mask w k z) w (rounds n mask w k z) := by
  induction k generalizing z with
  | zero => rfl
  | succ k ih => rw [rounds, ih]; rfl

theorem isMean_nonneg {n p i : Nat} {z : Row} (h0 : ∀ j u, z j = some u → 0 ≤ u) {a : ℝ} (h : IsMean n z i p a) :
    0 ≤ a := by
  rcases h with ⟨u, v, hu, hv, rfl⟩ | ⟨h, -⟩ | ⟨-, h⟩
  · have := h0 _ _ hu; have := h0 _ _ hv; linarith
  · exact h0 _ _ h
  · exact h0 _ _ h

/-- What clipping does to bounds: every pixel with a value keeps one, not larger and not negative. -/
theorem clipped_bounds {n w : Nat} {z z' : Row} (h : IsClipped n w z z') {i : Nat} (hi : i < n) {v : ℝ} (hv : z i = some v)
    (h0 : ∀ j < n, ∀ u, z j = some u → 0 ≤ u) : ∃ b, z' i = some b ∧ 0 ≤ b ∧ b ≤ v := by
  obtain ⟨b, hb, h1, h2⟩ := (h i hi).2 v hv
  refine ⟨b, hb, ?_, h2 (Or.inl rfl)⟩
  rcases h1 with h1 | ⟨p, -, -, h1⟩
  · rw [Set.mem_singleton_iff.1 h1]; exact h0 i hi v hv
  · rcases h1 with ⟨u, u', hu, hu', rfl⟩ | ⟨h, -⟩ | ⟨-, h⟩
    · have := h0 _ (left_lt hi) _ hu; have := h0 _ (right_lt hi) _ hu'; linarith
    · exact h0 _ (left_lt hi) _ h
    · exact h0 _ (right_lt hi) _ h

theorem rounds_bounds {n w k : Nat} {mask : Nat → Bool} {z : Row} {i : Nat} (hi : i < n) (hm : mask i = false) {v : ℝ}
    (hv : z i = some v) (h0 : ∀ j < n, ∀ u, z j = some u → 0 ≤ u) :
    ∃ b, rounds n mask w k z i = some b ∧ 0 ≤ b ∧ b ≤ v := by
  suffices H : (∀ j < n, ∀ u, masked (rounds n mask w k z) mask j = some u → 0 ≤ u) ∧
      ∃ b, masked (rounds n mask w k z) mask i = some b ∧ 0 ≤ b ∧ b ≤ v by
    obtain ⟨-, b, hb, h⟩ := H
    exact ⟨b, by simpa [masked, hm] using hb, h⟩
  induction k with
  | zero =>
    refine ⟨fun j hj u hu => ?_, v, by simp [masked, hm, rounds, hv], h0 i hi v hv, le_refl _⟩
    unfold masked at hu
    split at hu
    · cases hu
    · exact h0 j hj u hu
  | succ k ih =>
    obtain ⟨ih0, b, hb, hb0, hbv⟩ := ih
    have hc := windows_clipped n w mask (rounds n mask w k z)
    rw [← rounds_succ] at hc
    refine ⟨fun j hj u hu => ?_, ?_⟩
    · cases hz : masked (rounds n mask w k z) mask j with
      | none => rw [(hc j hj).1 hz] at hu; cases hu
      | some x =>
        obtain ⟨b', hb', h1, -⟩ := clipped_bounds hc hj hz ih0
        rw [hu] at hb'
        cases hb'
        exact h1
    · obtain ⟨b', hb', h1, h2⟩ := clipped_bounds hc hi hb ih0
      exact ⟨b', hb', h1, h2.trans hbv⟩

/-! ### Images -/

theorem store_apply (R : Nat → Row) (order : List Nat) (init : Image) (r : Nat) :
    (order.map fun k => (k, R k)).foldl (fun bkg kr => Function.update bkg kr.1 kr.2) init r =
      if r ∈ order then R r else init r := by
  induction order generalizing init with
  | nil => simp
  | cons k l ih =>
    simp only [List.map_cons, List.foldl_cons, ih]
    by_cases hl : r ∈ l
    · simp [hl]
    · by_cases hk : r = k
      · subst hk; simp [hl]
      · simp [hl, hk]

/-- C56: the order in which the rows are finished does not matter: many processes give the image that one gives. -/
theorem snip_parallel (rows cols w numiter : Nat) (threshold : Option ℝ) (y : Image) (order : List Nat)
    (h : order.Perm (List.range rows)) :
    snip1d rows cols w numiter threshold y order = snip1d rows cols w numiter threshold y (List.range rows) := by
  funext r c
  unfold snip1d store
  rw [store_apply, store_apply]
  simp only [h.mem_iff]

theorem snip_row {rows cols w numiter : Nat} {threshold : Option ℝ} {y : Image} {r c : Nat} (hr : r < rows) :
    snip1d rows cols w numiter threshold y (List.range rows) r c =
      fillNan threshold (rowResult rows cols w numiter threshold y r c) := by
  unfold snip1d store
  rw [store_apply, if_pos (List.mem_range.2 hr)]

/-- C56: the background is never above the image and never below its least value, at any pixel above the threshold. -/
theorem snip_bounds (rows cols w numiter : Nat) (threshold : Option ℝ) (y : Image) {r c : Nat} (hr : r < rows)
    (hc : c < cols) {v : ℝ} (hv : y r c = some v) (ht : ∀ t, threshold = some t → t < v) :
    ∃ m b, nanmin rows cols y = some m ∧ snip1d rows cols w numiter threshold y (List.range rows) r c = some b ∧
      m ≤ b ∧ b ≤ v := by
  obtain ⟨m, hm, hmv⟩ := nanmin_least hr hc hv
  have hmask : mask threshold y r c = false := by
    unfold mask
    rw [hv]
    cases threshold with
    | none => rfl
    | some t => simpa using ht t rfl
  obtain ⟨b, hb, hb0, hbv⟩ := rounds_bounds (w := w) (k := numiter) (mask := mask threshold y r) (z := scaled (some m) y r) hc
    hmask (v := scale m v) (by simp [scaled, hv]) (fun j _ u hu => by
      simp only [scaled, Option.map_eq_some_iff] at hu
      obtain ⟨x, -, rfl⟩ := hu
      exact scale_nonneg)
  refine ⟨m, unscale m b, hm, ?_, le_unscale m b, ?_⟩
  · rw [snip_row hr]
    unfold rowResult
    rw [hm]
    unfold runRow
    rw [if_neg (fun h => by rw [h c hc] at hmask; cases hmask)]
    simp [hb, fillNan]
  · calc unscale m b ≤ unscale m (scale m v) := unscale_mono hb0 hbv
      _ = v := unscale_scale hmv

/-- C56, for images of integers, where the result is truncated: still not above the image. -/
theorem toInt_le {b : ℝ} {v : ℤ} (h : b ≤ v) : toInt b ≤ v := by
  unfold toInt
  split
  · exact Int.le_of_lt_add_one (by
      have := Int.floor_le b
      exact_mod_cast lt_of_le_of_lt (this.trans h) (lt_add_one _))
  · exact Int.ceil_le.2 h

/-- C56: pixels without a value and masked pixels get the threshold (after at least one round with at least one
window). -/
theorem snip_masked (rows cols w numiter : Nat) (hw : 1 ≤ w) (hn : 1 ≤ numiter) (threshold : Option ℝ) (y : Image)
    {r c : Nat} (hr : r < rows)
    (h : y r c = none ∨ ∃ v t, y r c = some v ∧ threshold = some t ∧ v ≤ t) :
    snip1d rows cols w numiter threshold y (List.range rows) r c = threshold := by
  rw [snip_row hr]
  unfold rowResult
  set m := nanmin rows cols y
  have ha : masked (scaled m y r) (mask threshold y r) c = none := by
    rcases h with h | ⟨v, t, hv, ht, hvt⟩
    · unfold masked scaled
      split
      · rfl
      · cases m <;> simp [h]
    · simp [masked, mask, hv, ht, hvt]
  have hk : ∀ k, rounds cols (mask threshold y r) w (k + 1) (scaled m y r) c = none := by
    intro k
    induction k with
    | zero => exact windows_masked w hw _ ha
    | succ k ih => rw [rounds_succ]; exact windows_none w _ ih
  obtain ⟨k, rfl⟩ : ∃ k, numiter = k + 1 := ⟨numiter - 1, by omega⟩
  unfold runRow
  split
  · rfl
  · show fillNan threshold (Option.map _ (rounds _ _ _ _ _ c)) = _
    rw [hk]; rfl

/-- C56: what is computed.  In the scaled image, with the masked pixels removed, each round clips every pixel to the
means of its neighbours. -/
theorem snip_clips (rows cols w numiter : Nat) (threshold : Option ℝ) (y : Image) {r : Nat} (hr : r < rows) {m : ℝ}
    (hm : nanmin rows cols y = some m) (ht : ∃ c < cols, mask threshold y r c = false) :
    ∃ z : Nat → Row, z 0 = (fun c => if mask threshold y r c then none else (y r c).map (scale m)) ∧
      (∀ k < numiter, IsClipped cols w (z k) (z (k + 1))) ∧
      ∀ c < cols, ∀ b, z numiter c = some b →
        snip1d rows cols w numiter threshold y (List.range rows) r c = some (unscale m b) := by
  refine ⟨fun k => masked (rounds cols (mask threshold y r) w k (scaled (some m) y r)) (mask threshold y r), rfl, ?_, ?_⟩
  · intro k _
    have := windows_clipped cols w (mask threshold y r) (rounds cols (mask threshold y r) w k (scaled (some m) y r))
    rwa [← rounds_succ] at this
  · intro c hc b hb
    rw [snip_row hr]
    unfold rowResult
    rw [hm]
    unfold runRow
    obtain ⟨c', hc', hm'⟩ := ht
    rw [if_neg (fun h => by rw [h c' hc'] at hm'; cases hm')]
    have hb' : rounds cols (mask threshold y r) w numiter (scaled (some m) y r) c = some b := by
      dsimp only [masked] at hb
      split at hb
      · cases hb
      · exact hb
    simp [hb', fillNan]

/-- C56: more rounds never raise the background. -/
theorem snip_antitone (rows cols w numiter : Nat) (threshold : Option ℝ) (y : Image) {r c : Nat} (hr : r < rows)
    (hc : c < cols) {v : ℝ} (hv : y r c = some v) (ht : ∀ t, threshold = some t → t < v) :
    ∃ b b', snip1d rows cols w numiter threshold y (List.range rows) r c = some b ∧
      snip1d rows cols w (numiter + 1) threshold y (List.range rows) r c = some b' ∧ b' ≤ b := by
  obtain ⟨m, hm, hmv⟩ := nanmin_least hr hc hv
  have hmask : mask threshold y r c = false := by
    unfold mask
    rw [hv]
    cases threshold with
    | none => rfl
    | some t => simpa using ht t rfl
  have h0 : ∀ j < cols, ∀ u, scaled (some m) y r j = some u → 0 ≤ u := fun j _ u hu => by
    simp only [scaled, Option.map_eq_some_iff] at hu
    obtain ⟨x, -, rfl⟩ := hu
    exact scale_nonneg
  obtain ⟨b, hb, hb0, -⟩ := rounds_bounds (w := w) (k := numiter) (mask := mask threshold y r) (z := scaled (some m) y r) hc
    hmask (v := scale m v) (by simp [scaled, hv]) h0
  obtain ⟨b', hb', hb0', -⟩ := rounds_bounds (w := w) (k := numiter + 1) (mask := mask threshold y r)
    (z := scaled (some m) y r) hc hmask (v := scale m v) (by simp [scaled, hv]) h0
  have hle : b' ≤ b := by
    have hcl := windows_clipped cols w (mask threshold y r) (rounds cols (mask threshold y r) w numiter (scaled (some m) y r))
    rw [← rounds_succ] at hcl
    obtain ⟨x, hx, -, h2⟩ := (hcl c hc).2 b (by simp [masked, hmask, hb])
    have : x = b' := by simpa [masked, hmask, hb'] using hx.symm
    rw [← this]
    exact h2 (Or.inl rfl)
  refine ⟨unscale m b, unscale m b', ?_, ?_, unscale_mono hb0' hle⟩ <;>
  · rw [snip_row hr]
    unfold rowResult
    rw [hm]
    unfold runRow
    rw [if_neg (fun h => by rw [h c hc] at hmask; cases hmask)]
    simp [hb, hb', fillNan]

/-! ### Adding a constant -/

theorem scale_add (m v d : ℝ) : scale (m + d) (v + d) = scale m v := by
  unfold scale
  rw [add_sub_add_right_eq_sub]

theorem unscale_add (m z d : ℝ) : unscale (m + d) z = unscale m z + d := by
  unfold unscale
  ring

theorem nanmin_add (rows cols : Nat) (y : Image) (d : ℝ) :
    nanmin rows cols (fun r c => (y r c).map (· + d)) = (nanmin rows cols y).map (· + d) := by
  cases h : nanmin rows cols y with
  | none =>
    unfold nanmin at h ⊢
    rw [List.min?_eq_none_iff] at h
    rw [Option.map_none, List.min?_eq_none_iff, List.eq_nil_iff_forall_not_mem]
    intro v hv
    obtain ⟨r, hr, c, hc, hv⟩ := mem_values.1 hv
    obtain ⟨x, hx, -⟩ := Option.map_eq_some_iff.1 hv
    have := mem_values.2 ⟨r, hr, c, hc, hx⟩
    rw [h] at this
    simp at this
  | some m =>
    obtain ⟨⟨r, hr, c, hc, hm⟩, hle⟩ := nanmin_mem h
    unfold nanmin
    rw [Option.map_some, List.min?_eq_some_iff]
    refine ⟨mem_values.2 ⟨r, hr, c, hc, by simp [hm]⟩, fun b hb => ?_⟩
    obtain ⟨r', hr', c', hc', hb⟩ := mem_values.1 hb
    obtain ⟨x, hx, rfl⟩ := Option.map_eq_some_iff.1 hb
    have := hle r' hr' c' hc' x hx
    linarith

/-- C56: adding a constant to the image and to the threshold adds it to the background. -/
theorem snip_shift (rows cols w numiter : Nat) (threshold : Option ℝ) (y : Image) (d : ℝ) {r c : Nat} (hr : r < rows) :
    snip1d rows cols w numiter (threshold.map (· + d)) (fun r c => (y r c).map (· + d)) (List.range rows) r c =
      (snip1d rows cols w numiter threshold y (List.range rows) r c).map (· + d) := by
  have hmask : mask (threshold.map (· + d)) (fun r c => (y r c).map (· + d)) = mask threshold y := by
    funext r c
    unfold mask
    cases threshold <;> cases h : y r c <;> simp [h]
  rw [snip_row hr, snip_row hr]
  unfold rowResult
  rw [hmask, nanmin_add]
  cases hm : nanmin rows cols y with
  | none =>
    have hs : ∀ k, rounds cols (mask threshold y r) w k (scaled none y r) c = none := by
      intro k
      induction k with
      | zero => rfl
      | succ k ih => rw [rounds_succ]; exact windows_none w _ ih
    have e : scaled (Option.map (· + d) none) (fun r c => (y r c).map (· + d)) r = scaled none y r := rfl
    rw [e]
    unfold runRow
    split
    · cases threshold <;> rfl
    · simp only [hs]
      cases threshold <;> rfl
  | some m =>
    have e : scaled (Option.map (· + d) (some m)) (fun r c => (y r c).map (· + d)) r = scaled (some m) y r := by
      funext c
      simp only [scaled, Option.map_some, Option.map_map]
      cases y r c with
      | none => rfl
      | some v => simp [scale_add]
    rw [e]
    unfold runRow
    split
    · cases threshold <;> rfl
    · simp only [Option.map_some, Option.getD_some]
      cases rounds cols (mask threshold y r) w numiter (scaled (some m) y r) c with
      | none => cases threshold <;> rfl
      | some b => simp [fillNan, unscale_add]

/-! ### Masked values do not matter -/

theorem windows_congr {n : Nat} (hn : 0 < n) {mask : Nat → Bool} {z z' : Row}
    (h : ∀ i < n, masked z mask i = masked z' mask i) (w : Nat) (b b' : Row)
    (hb : ∀ i < n, masked b mask i = masked b' mask i) :
    ∀ i < n, masked (windows n mask z w b) mask i = masked (windows n mask z' w b') mask i := by
  induction w generalizing b b' with
  | zero => exact hb
  | succ p ih =>
    refine ih _ _ fun i hi => ?_
    have hbi := hb i hi
    unfold masked at hbi ⊢
    split
    · rfl
    · rename_i hm
      rw [if_neg hm, if_neg hm] at hbi
      show minimum (b i) _ = minimum (b' i) _
      rw [hbi, convolve_congr hn h hi]

theorem rounds_congr {n : Nat} (hn : 0 < n) {mask : Nat → Bool} {z z' : Row}
    (h : ∀ i < n, masked z mask i = masked z' mask i) (w k : Nat) :
    ∀ i < n, masked (rounds n mask w k z) mask i = masked (rounds n mask w k z') mask i := by
  induction k with
  | zero => exact h
  | succ k ih => rw [rounds_succ, rounds_succ]; exact windows_congr hn ih w _ _ ih

/-- C56: masked pixels enter only through the least value of the image. -/
theorem snip_masked_irrelevant (rows cols w numiter : Nat) (t : ℝ) (y y' : Image) {r c : Nat} (hr : r < rows)
    (hc : c < cols) (hmin : nanmin rows cols y = nanmin rows cols y')
    (hy : ∀ j < cols, y r j = y' r j ∨ ∃ u u', y r j = some u ∧ y' r j = some u' ∧ u ≤ t ∧ u' ≤ t)
    {v : ℝ} (hv : y r c = some v) (ht : t < v) :
    snip1d rows cols w numiter (some t) y (List.range rows) r c =
      snip1d rows cols w numiter (some t) y' (List.range rows) r c := by
  have hmask : ∀ j < cols, mask (some t) y r j = mask (some t) y' r j := by
    intro j hj
    rcases hy j hj with h | ⟨u, u', h, h', hu, hu'⟩
    · simp [mask, h]
    · simp [mask, h, h', hu, hu']
  have hmc : mask (some t) y r c = false := by simpa [mask, hv] using ht
  have hz : ∀ i < cols, masked (scaled (nanmin rows cols y) y r) (mask (some t) y r) i =
      masked (scaled (nanmin rows cols y) y' r) (mask (some t) y r) i := by
    intro j hj
    rcases hy j hj with h | ⟨u, u', h, h', hu, hu'⟩
    · simp only [masked, scaled, h]
    · simp [masked, mask, h, hu]
  have hz' : ∀ k, ∀ i < cols, masked (rounds cols (mask (some t) y r) w k (scaled (nanmin rows cols y) y' r)) (mask (some t) y r) i =
      masked (rounds cols (mask (some t) y' r) w k (scaled (nanmin rows cols y) y' r)) (mask (some t) y' r) i := by
    have aux : ∀ (z b b' : Row), (∀ i < cols, b i = b' i) → ∀ w, ∀ i < cols, windows cols (mask (some t) y r) z w b i =
        windows cols (mask (some t) y' r) z w b' i := by
      intro z b b' hb w
      induction w generalizing b b' with
      | zero => exact hb
      | succ p ih =>
        refine ih _ _ fun i hi => ?_
        show minimum (b i) _ = minimum (b' i) _
        rw [hb i hi, convolve_congr (by omega) (mask' := mask (some t) y' r) (z' := z)
          (fun j hj => by simp only [masked, hmask j hj]) hi]
    have aux2 : ∀ (z z' b b' : Row), (∀ i < cols, z i = z' i) → (∀ i < cols, b i = b' i) → ∀ w, ∀ i < cols,
        windows cols (mask (some t) y' r) z w b i = windows cols (mask (some t) y' r) z' w b' i := by
      intro z z' b b' hz hb w
      induction w generalizing b b' with
      | zero => exact hb
      | succ p ih =>
        refine ih _ _ fun i hi => ?_
        show minimum (b i) _ = minimum (b' i) _
        rw [hb i hi, convolve_congr (by omega) (mask' := mask (some t) y' r) (z' := z')
          (fun j hj => by simp only [masked, hz j hj]) hi]
    have main : ∀ k, ∀ i < cols, rounds cols (mask (some t) y r) w k (scaled (nanmin rows cols y) y' r) i =
        rounds cols (mask (some t) y' r) w k (scaled (nanmin rows cols y) y' r) i := by
      intro k
      induction k with
      | zero => exact fun i _ => rfl
      | succ k ih =>
        intro i hi
        rw [rounds_succ, rounds_succ, aux _ _ _ (fun _ _ => rfl) w i hi, aux2 _ _ _ _ ih ih w i hi]
    intro k i hi
    simp only [masked, hmask i hi, main k i hi]
  rw [snip_row hr, snip_row hr]
  unfold rowResult
  rw [← hmin]
  unfold runRow
  rw [if_neg (fun h => by rw [h c hc] at hmc; cases hmc),
    if_neg (fun h => by have := h c hc; rw [← hmask c hc, hmc] at this; cases this)]
  have h1 := rounds_congr (by omega) hz w numiter c hc
  rw [hz' numiter c hc] at h1
  simp only [masked, hmc, ← hmask c hc] at h1
  simp only [Bool.false_eq_true, if_false] at h1
  rw [h1]

/-! ### The other variants -/

theorem filters_bounds {ι : Type} (cs : List ((ι → ℝ) → ι → ℝ)) (h : ∀ c ∈ cs, ∀ z : ι → ℝ, (∀ i, 0 ≤ z i) → ∀ i, 0 ≤ c z i)
    (z : ι → ℝ) (hz : ∀ i, 0 ≤ z i) (i : ι) : 0 ≤ filters cs z i ∧ filters cs z i ≤ z i := by
  unfold filters
  suffices H : ∀ b : ι → ℝ, (∀ i, 0 ≤ b i ∧ b i ≤ z i) →
      ∀ i, 0 ≤ cs.foldl (fun b c i => min (b i) (c z i)) b i ∧ cs.foldl (fun b c i => min (b i) (c z i)) b i ≤ z i from
    H z (fun i => ⟨hz i, le_refl _⟩) i
  induction cs with
  | nil => exact fun b hb => hb
  | cons c cs ih =>
    intro b hb
    refine ih (fun c' hc' => h c' (List.mem_cons_of_mem _ hc')) _ fun i => ?_
    exact ⟨le_min (hb i).1 (h c (List.mem_cons_self) z hz i), (min_le_left _ _).trans (hb i).2⟩

theorem iterFilters_bounds {ι : Type} (cs : List ((ι → ℝ) → ι → ℝ))
    (h : ∀ c ∈ cs, ∀ z : ι → ℝ, (∀ i, 0 ≤ z i) → ∀ i, 0 ≤ c z i) (k : Nat) (z : ι → ℝ) (hz : ∀ i, 0 ≤ z i) (i : ι) :
    0 ≤ iterFilters cs k z i ∧ iterFilters cs k z i ≤ z i := by
  induction k generalizing z with
  | zero => exact ⟨hz i, le_refl _⟩
  | succ k ih =>
    have h1 := filters_bounds cs h z hz
    have h2 := ih (filters cs z) (fun i => (h1 i).1)
    exact ⟨h2.1, h2.2.trans (h1 i).2⟩

theorem unscaled_bounds {ι : Type} (cs : List ((ι → ℝ) → ι → ℝ))
    (h : ∀ c ∈ cs, ∀ z : ι → ℝ, (∀ i, 0 ≤ z i) → ∀ i, 0 ≤ c z i) (k : Nat) (m : ℝ) (y : ι → ℝ) (i : ι) (hm : m ≤ y i) :
    m ≤ unscale m (iterFilters cs k (fun i => scale m (y i)) i) ∧
      unscale m (iterFilters cs k (fun i => scale m (y i)) i) ≤ y i := by
  have hb := iterFilters_bounds cs h k (fun i => scale m (y i)) (fun _ => scale_nonneg) i
  refine ⟨le_unscale _ _, ?_⟩
  calc _ ≤ unscale m (scale m (y i)) := unscale_mono hb.1 hb.2
    _ = y i := unscale_scale hm

theorem kernel_nonneg (p k : Nat) : 0 ≤ kernel p k := by
  unfold kernel
  split <;> norm_num

/-- C56 for `fast_snip1d`. -/
theorem fast_bounds (n w numiter : Nat) (m : ℝ) (y : Nat → ℝ) (i : Nat) (hm : m ≤ y i) :
    m ≤ fastRow n w numiter m y i ∧ fastRow n w numiter m y i ≤ y i := by
  refine unscaled_bounds _ (fun c hc z hz i => ?_) numiter m y i hm
  obtain ⟨p, -, rfl⟩ := List.mem_map.1 hc
  refine sum_nonneg fun j _ => mul_nonneg (hz j) ?_
  split
  · exact kernel_nonneg _ _
  · exact le_refl _

/-- C56 for `snip1d_quad`: the quadratic filter has negative weights, but the larger one of two filters counts. -/
theorem quad_bounds (n w numiter : Nat) (m : ℝ) (y : Nat → ℝ) (i : Nat) (hm : m ≤ y i) :
    m ≤ quadRow n w numiter m y i ∧ quadRow n w numiter m y i ≤ y i := by
  refine unscaled_bounds _ (fun c hc z hz i => ?_) numiter m y i hm
  obtain ⟨p, -, rfl⟩ := List.mem_map.1 hc
  exact le_max_of_le_left (sum_nonneg fun k _ => mul_nonneg (kernel_nonneg _ _) (hz _))

theorem linKernel2_nonneg (p x y : Nat) : 0 ≤ linKernel2 p x y := by
  unfold linKernel2
  split <;> positivity

/-- C56 for `snip2d`. -/
theorem snip2d_bounds (rows cols w numiter order : Nat) (m : ℝ) (y : Nat × Nat → ℝ) (rc : Nat × Nat) (hm : m ≤ y rc) :
    m ≤ snip2d rows cols w numiter order m y rc ∧ snip2d rows cols w numiter order m y rc ≤ y rc := by
  refine unscaled_bounds _ (fun c hc z hz i => ?_) numiter m y rc hm
  obtain ⟨p, -, rfl⟩ := List.mem_map.1 hc
  have h1 : 0 ≤ convolve2 rows cols (order * p) (linKernel2 (order * p)) z i :=
    sum_nonneg fun k _ => mul_nonneg (linKernel2_nonneg _ _ _) (hz _)
  unfold filter2
  split
  · exact le_max_of_le_left h1
  · exact h1

/-! ### The kernels -/

theorem circle_card_pos {p1 : Nat} {rad : Nat} (h : rad ≤ p1) : 0 < (circle p1 rad).card := by
  refine card_pos.2 ⟨(p1 + rad, p1), ?_⟩
  rw [circle, mem_filter, mem_product, mem_range, mem_range]
  refine ⟨⟨by omega, by omega⟩, ?_⟩
  have : √((((p1 + rad : Nat) : ℝ) - p1) ^ 2 + ((p1 : ℝ) - p1) ^ 2) = rad := by
    push_cast
    rw [show ((p1 : ℝ) + rad - p1) ^ 2 + ((p1 : ℝ) - p1) ^ 2 = (rad : ℝ) ^ 2 by ring, Real.sqrt_sq (Nat.cast_nonneg _)]
  rw [this]
  exact round_natCast rad

theorem circle_sub (p1 rad : Nat) : circle p1 rad ⊆ range (2 * p1 + 1) ×ˢ range (2 * p1 + 1) := filter_subset _ _

theorem circle_disjoint {p1 a b : Nat} (h : a ≠ b) : Disjoint (circle p1 a) (circle p1 b) := by
  rw [Finset.disjoint_left]
  intro x hx hx'
  have h1 := (mem_filter.1 hx).2
  have h2 := (mem_filter.1 hx').2
  rw [h1] at h2
  exact h (by exact_mod_cast h2)

/-- The linear kernel is an average. -/
theorem linKernel2_sum (p1 : Nat) :
    ∑ xy ∈ range (2 * p1 + 1) ×ˢ range (2 * p1 + 1), linKernel2 p1 xy.1 xy.2 = 1 := by
  have hc := circle_card_pos (le_refl p1)
  have h0 : ((circle p1 p1).card : ℝ) ≠ 0 := by positivity
  unfold linKernel2
  rw [← sum_filter, filter_mem_eq_inter, inter_eq_right.2 (circle_sub p1 p1), sum_const, nsmul_eq_mul]
  field_simp

/-- The weights of the quadratic kernel add up to one. -/
theorem quadKernel2_sum {p1 : Nat} (h : 2 ≤ p1) :
    ∑ xy ∈ range (2 * p1 + 1) ×ˢ range (2 * p1 + 1), quadKernel2 p1 xy.1 xy.2 = 1 := by
  have hc := circle_card_pos (p1 := p1) (rad := p1 / 2) (by omega)
  have hc' := circle_card_pos (p1 := p1) (rad := 2 * (p1 / 2)) (by omega)
  have h0 : ((circle p1 (p1 / 2)).card : ℝ) ≠ 0 := by positivity
  have h0' : ((circle p1 (2 * (p1 / 2))).card : ℝ) ≠ 0 := by positivity
  have hd : Disjoint (circle p1 (2 * (p1 / 2))) (circle p1 (p1 / 2)) := circle_disjoint (by omega)
  have e : ∀ xy : Nat × Nat, quadKernel2 p1 xy.1 xy.2 =
      (if xy ∈ circle p1 (2 * (p1 / 2)) then (-1 / 3) / ((circle p1 (2 * (p1 / 2))).card : ℝ) else 0) +
      (if xy ∈ circle p1 (p1 / 2) then (4 / 3) / ((circle p1 (p1 / 2)).card : ℝ) else 0) := by
    intro xy
    have := fun h => Finset.disjoint_left.1 hd (show xy ∈ _ from h)
    unfold quadKernel2
    by_cases h1 : xy ∈ circle p1 (2 * (p1 / 2))
    · have h2 := this h1
      simp only [h1, h2, if_true, if_false, add_zero]
    · simp only [h1, if_false, zero_add]
  rw [sum_congr rfl (fun xy _ => e xy), sum_add_distrib, ← sum_filter, ← sum_filter, filter_mem_eq_inter,
    filter_mem_eq_inter, inter_eq_right.2 (circle_sub p1 _), inter_eq_right.2 (circle_sub p1 _), sum_const, sum_const,
    nsmul_eq_mul, nsmul_eq_mul]
  field_simp
  norm_num

theorem quadKernel_split {p : Nat} (hp : 2 ≤ p) (k : Nat) : quadKernel p k =
    (if k = p / 2 then (4 / 6 : ℝ) else 0) + (if k = 3 * p / 2 then 4 / 6 else 0) +
      (if k = 0 then -1 / 6 else 0) + (if k = 2 * p then -1 / 6 else 0) := by
  unfold quadKernel
  have h1 : p / 2 ≠ 3 * p / 2 := by omega
  have h2 : p / 2 ≠ 0 := by omega
  have h3 : 3 * p / 2 ≠ 2 * p := by omega
  by_cases a : k = p / 2
  · have n1 : ¬ k = 3 * p / 2 := by omega
    have n2 : ¬ k = 0 := by omega
    have n3 : ¬ k = 2 * p := by omega
    simp only [n1, n2, n3, a, true_or, if_true, if_false, add_zero]
    rw [if_neg (by omega), if_neg (by omega), if_neg (by omega)]
    ring
  · by_cases b : k = 3 * p / 2
    · have n2 : ¬ k = 0 := by omega
      have n3 : ¬ k = 2 * p := by omega
      rw [if_pos (Or.inr b), if_neg a, if_pos b, if_neg n2, if_neg n3]
      ring
    · rw [if_neg (by tauto), if_neg a, if_neg b]
      by_cases c : k = 0
      · rw [if_pos (Or.inl c), if_pos c, if_neg (by omega)]
        ring
      · rw [if_neg c]
        simp [c]

theorem convolve_quadKernel {p n i : Nat} (hp : 2 ≤ p) (hi : p ≤ i) (hn : i + p < n) (z : Nat → ℝ) :
    convolveNearest n p (quadKernel p) z i =
      4 / 6 * z (i + p - p / 2) + 4 / 6 * z (i + p - 3 * p / 2) - 1 / 6 * z (i + p) - 1 / 6 * z (i - p) := by
  unfold convolveNearest
  have e : ∀ k ∈ range (2 * p + 1), quadKernel p k * z (min (i + p - k) (n - 1)) =
      (if k = p / 2 then 4 / 6 * z (i + p - p / 2) else 0) + (if k = 3 * p / 2 then 4 / 6 * z (i + p - 3 * p / 2) else 0) +
      (if k = 0 then -1 / 6 * z (i + p) else 0) + (if k = 2 * p then -1 / 6 * z (i - p) else 0) := by
    intro k hk
    rw [mem_range] at hk
    rw [quadKernel_split hp, show min (i + p - k) (n - 1) = i + p - k by omega, add_mul, add_mul, add_mul]
    congr 1
    · congr 1
      · congr 1
        · split
          · rename_i h; rw [h]
          · simp
        · split
          · rename_i h; rw [h]
          · simp
      · split
        · rename_i h; rw [h, Nat.sub_zero]
        · simp
    · split
      · rename_i h; rw [h, show i + p - 2 * p = i - p by omega]
      · simp
  rw [sum_congr rfl e, sum_add_distrib, sum_add_distrib, sum_add_distrib, sum_ite_eq', sum_ite_eq', sum_ite_eq',
    sum_ite_eq', if_pos (mem_range.2 (by omega)), if_pos (mem_range.2 (by omega)), if_pos (mem_range.2 (by omega)),
    if_pos (mem_range.2 (by omega))]
  ring

/-- With an even window the quadratic filter of `snip1d_quad` leaves parabolas alone. -/
theorem quadKernel_even {q n i : Nat} (hq : 1 ≤ q) (hi : 2 * q ≤ i) (hn : i + 2 * q < n) (a b c : ℝ) :
    convolveNearest n (2 * q) (quadKernel (2 * q)) (fun j => a * (j : ℝ) ^ 2 + b * j + c) i = a * (i : ℝ) ^ 2 + b * i + c := by
  rw [convolve_quadKernel (by omega) hi hn, show 2 * q / 2 = q by omega, show 3 * (2 * q) / 2 = 3 * q by omega,
    show i + 2 * q - q = i + q by omega, show i + 2 * q - 3 * q = i - q by omega]
  push_cast [Nat.cast_sub (show q ≤ i by omega), Nat.cast_sub hi]
  ring

/-- With an odd window it does not even leave straight lines alone: rising ones come out too high, falling ones too
low. -/
theorem quadKernel_odd {q n i : Nat} (hq : 1 ≤ q) (hi : 2 * q + 1 ≤ i) (hn : i + (2 * q + 1) < n) (b c : ℝ) :
    convolveNearest n (2 * q + 1) (quadKernel (2 * q + 1)) (fun j => b * (j : ℝ) + c) i = b * i + c + 2 / 3 * b := by
  rw [convolve_quadKernel (by omega) hi hn, show (2 * q + 1) / 2 = q by omega, show 3 * (2 * q + 1) / 2 = 3 * q + 1 by omega,
    show i + (2 * q + 1) - q = i + (q + 1) by omega, show i + (2 * q + 1) - (3 * q + 1) = i - q by omega]
  push_cast [Nat.cast_sub (show q ≤ i by omega), Nat.cast_sub hi]
  ring

/-! ### Example -/

/-- A row with a peak, one missing and one masked pixel. -/
noncomputable def peak : Image := fun _ c => if c = 2 then some 9 else if c = 3 then none else if c = 4 then some (-5) else some 1

/-- The hypotheses of the theorems above are met at the peak; there the background lies strictly below the image. -/
theorem peak_clipped : ∃ b, snip1d 1 5 1 1 (some 0) peak (List.range 1) 0 2 = some b ∧ b < 9 := by
  have hm : nanmin 1 5 peak = some (-5) := by
    unfold nanmin
    rw [List.min?_eq_some_iff]
    refine ⟨mem_values.2 ⟨0, by norm_num, 4, by norm_num, by norm_num [peak]⟩, fun v hv => ?_⟩
    obtain ⟨r, -, c, -, hv⟩ := mem_values.1 hv
    unfold peak at hv
    split_ifs at hv <;> simp only [Option.some.injEq, reduceCtorEq] at hv <;> rw [← hv] <;> norm_num
  obtain ⟨z, h0, hk, hres⟩ := snip_clips 1 5 1 1 (some 0) peak (r := 0) (by norm_num) hm
    ⟨2, by norm_num, by norm_num [mask, peak]⟩
  have e1 : z 0 1 = some (scale (-5) 1) := by rw [h0]; norm_num [mask, peak]
  have e2 : z 0 2 = some (scale (-5) 9) := by rw [h0]; norm_num [mask, peak]
  have e3 : z 0 3 = none := by rw [h0]; norm_num [mask, peak]
  obtain ⟨b, hb, hl⟩ := (hk 0 (by norm_num) 2 (by norm_num)).2 _ e2
  have hle : b ≤ scale (-5) 1 := hl.2 (Or.inr ⟨1, le_refl _, le_refl _, Or.inr (Or.inl ⟨by simpa [left] using e1, by simpa [right] using e3⟩)⟩)
  have h0b : 0 ≤ b := by
    rcases hl.1 with h | ⟨p, h1, h2, hmean⟩
    · rw [Set.mem_singleton_iff.1 h]; exact scale_nonneg
    · obtain rfl : p = 1 := le_antisymm h2 h1
      rcases hmean with ⟨u, v, -, hv, -⟩ | ⟨h, -⟩ | ⟨h, -⟩
      · rw [show right 5 2 1 = 3 from rfl, e3] at hv; cases hv
      · rw [show left 2 1 = 1 from rfl, e1] at h; cases h; exact scale_nonneg
      · rw [show left 2 1 = 1 from rfl, e1] at h; cases h
  refine ⟨_, hres 2 (by norm_num) b hb, ?_⟩
  calc unscale (-5) b ≤ unscale (-5) (scale (-5) 1) := unscale_mono h0b hle
    _ = 1 := unscale_scale (by norm_num)
    _ < 9 := by norm_num

end Hexrd.Snip
