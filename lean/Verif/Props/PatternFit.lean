import Verif.Model.PatternFit
import Verif.Spec.PatternFit
import Verif.Props.LeBail
import Mathlib.Data.List.Nodup

/-! C156: the state of a powder pattern fit. -/

namespace Hexrd.PatternFit

/-! ### Minimum and maximum -/

theorem foldl_min (ys : List ℝ) : ∀ a : ℝ, (ys.foldl min a = a ∨ ys.foldl min a ∈ ys) ∧ ys.foldl min a ≤ a ∧ ∀ y ∈ ys, ys.foldl min a ≤ y := by
  induction ys with
  | nil => intro a; simp
  | cons y ys ih =>
    intro a
    obtain ⟨h1, h2, h3⟩ := ih (min a y)
    simp only [List.foldl_cons]
    refine ⟨?_, h2.trans (min_le_left _ _), ?_⟩
    · rcases h1 with h1 | h1
      · rw [h1]
        rcases min_choice a y with h | h <;> rw [h]
        · exact .inl rfl
        · exact .inr List.mem_cons_self
      · exact .inr (List.mem_cons_of_mem _ h1)
    · intro z hz
      rcases List.mem_cons.1 hz with rfl | hz
      · exact h2.trans (min_le_right _ _)
      · exact h3 z hz

theorem foldl_max (ys : List ℝ) : ∀ a : ℝ, (ys.foldl max a = a ∨ ys.foldl max a ∈ ys) ∧ a ≤ ys.foldl max a ∧ ∀ y ∈ ys, y ≤ ys.foldl max a := by
  induction ys with
  | nil => intro a; simp
  | cons y ys ih =>
    intro a
    obtain ⟨h1, h2, h3⟩ := ih (max a y)
    simp only [List.foldl_cons]
    refine ⟨?_, (le_max_left _ _).trans h2, ?_⟩
    · rcases h1 with h1 | h1
      · rw [h1]
        rcases max_choice a y with h | h <;> rw [h]
        · exact .inl rfl
        · exact .inr List.mem_cons_self
      · exact .inr (List.mem_cons_of_mem _ h1)
    · intro z hz
      rcases List.mem_cons.1 hz with rfl | hz
      · exact (le_max_right _ _).trans h2
      · exact h3 z hz

theorem lowest_spec {ys : List ℝ} (h : ys ≠ []) : lowest ys ∈ ys ∧ ∀ y ∈ ys, lowest ys ≤ y := by
  cases ys with
  | nil => exact absurd rfl h
  | cons a ys =>
    obtain ⟨h1, h2, h3⟩ := foldl_min ys a
    refine ⟨?_, ?_⟩
    · rcases h1 with h1 | h1
      · show ys.foldl min a ∈ _; rw [h1]; exact List.mem_cons_self
      · exact List.mem_cons_of_mem _ h1
    · intro y hy
      rcases List.mem_cons.1 hy with rfl | hy
      · exact h2
      · exact h3 y hy

theorem highest_spec {ys : List ℝ} (h : ys ≠ []) : highest ys ∈ ys ∧ ∀ y ∈ ys, y ≤ highest ys := by
  cases ys with
  | nil => exact absurd rfl h
  | cons a ys =>
    obtain ⟨h1, h2, h3⟩ := foldl_max ys a
    refine ⟨?_, ?_⟩
    · rcases h1 with h1 | h1
      · show ys.foldl max a ∈ _; rw [h1]; exact List.mem_cons_self
      · exact List.mem_cons_of_mem _ h1
    · intro y hy
      rcases List.mem_cons.1 hy with rfl | hy
      · exact h2
      · exact h3 y hy

/-! ### Negative intensities -/

/-- After the assignment no intensity is negative; regions without negative ones are as given, and a region with some is moved as a
whole so that its lowest point is at zero. -/
theorem shift_region (ys : List ℝ) :
    (∀ y ∈ shiftRegion ys, 0 ≤ y) ∧ ((∀ y ∈ ys, 0 ≤ y) → shiftRegion ys = ys) ∧
      ((∃ y ∈ ys, y < 0) → (0 : ℝ) ∈ shiftRegion ys ∧ ∃ c < 0, c ∈ ys ∧ shiftRegion ys = ys.map (· - c)) := by
  unfold shiftRegion
  by_cases h : ∃ y ∈ ys, y < 0
  · obtain ⟨y, hy, hy0⟩ := h
    obtain ⟨hm, hl⟩ := lowest_spec (List.ne_nil_of_mem hy)
    rw [if_pos ⟨y, hy, hy0⟩]
    refine ⟨?_, ?_, fun _ => ⟨?_, lowest ys, lt_of_le_of_lt (hl y hy) hy0, hm, rfl⟩⟩
    · intro z hz
      obtain ⟨w, hw, rfl⟩ := List.mem_map.1 hz
      have := hl w hw
      linarith
    · intro hall; exact absurd hy0 (not_lt.2 (hall y hy))
    · exact List.mem_map.2 ⟨lowest ys, hm, by simp⟩
  · rw [if_neg h]
    push Not at h
    exact ⟨h, fun _ => rfl, fun ⟨y, hy, hy0⟩ => absurd hy0 (not_lt.2 (h y hy))⟩

/-- The shift that is remembered is that of the last region. -/
theorem offset_last (regions : List (List ℝ)) (r : List ℝ) :
    ((∀ y ∈ r, 0 ≤ y) → offsetVal (regions ++ [r]) = some []) ∧
      ((∃ y ∈ r, y < 0) → ∃ c, offsetVal (regions ++ [r]) = some [c] ∧ shiftRegion r = r.map (· - c)) := by
  unfold offsetVal
  rw [List.foldl_append]
  simp only [List.foldl_cons, List.foldl_nil]
  constructor
  · intro h
    rw [if_neg]
    push Not; exact h
  · intro h
    rw [if_pos h]
    exact ⟨lowest r, rfl, by unfold shiftRegion; rw [if_pos h]⟩

/-- Regions are moved by different amounts: a point that was lower than one of another region can be higher afterwards, and the
shift of the first region cannot be found again. -/
theorem offset_fails : ∃ a b : List ℝ, (∃ i j : ℝ, a[1]? = some i ∧ b[0]? = some j ∧ i < j) ∧
    (∃ i j : ℝ, (shiftRegion a)[1]? = some i ∧ (shiftRegion b)[0]? = some j ∧ j < i) ∧ offsetVal [a, b] = some [] := by
  have ha : shiftRegion [-4, 2] = [0, 6] := by
    unfold shiftRegion
    rw [if_pos ⟨-4, by simp, by norm_num⟩]
    norm_num [lowest]
  have hb : shiftRegion [3, 3] = [3, 3] := (shift_region [3, 3]).2.1 (by simp)
  refine ⟨[-4, 2], [3, 3], ⟨2, 3, rfl, rfl, by norm_num⟩, ⟨6, 3, by rw [ha]; rfl, by rw [hb]; rfl, by norm_num⟩, ?_⟩
  exact (offset_last [[-4, 2]] [3, 3]).1 (by simp)

/-! ### Reading the pattern back -/

theorem assignChecked_eq {out : List (Option ℝ)} {a b : Nat} {s : List ℝ} (ha : a ≤ b) (hb : b ≤ out.length) (hs : s.length = b - a) :
    assignChecked out a b s = some (LeBail.assign out a b s) := by
  unfold assignChecked
  rw [if_pos]
  omega

theorem foldlM_assign (ps : List (List ℝ × Nat × Nat)) : ∀ out : List (Option ℝ),
    (∀ p ∈ ps, p.2.1 ≤ p.2.2 ∧ p.2.2 ≤ out.length ∧ p.1.length = p.2.2 - p.2.1) →
    ps.foldlM (fun out p => assignChecked out p.2.1 p.2.2 p.1) out =
      some (ps.foldl (fun out p => LeBail.assign out p.2.1 p.2.2 p.1) out) := by
  induction ps with
  | nil => intro out _; rfl
  | cons p ps ih =>
    intro out h
    obtain ⟨h1, h2, h3⟩ := h p List.mem_cons_self
    rw [List.foldlM_cons, assignChecked_eq h1 h2 h3]
    simp only [Option.bind_eq_bind, Option.bind_some, List.foldl_cons]
    apply ih
    intro q hq
    rw [LeBail.assign_length h1 h2 h3]
    exact h q (List.mem_cons_of_mem _ hq)

theorem map_shift_eq {l : List (List ℝ)} (h : ∀ r ∈ l, ∀ y ∈ r, 0 ≤ y) : l.map shiftRegion = l := by
  induction l with
  | nil => rfl
  | cons r l ih =>
    rw [List.map_cons, (shift_region r).2.1 (h r List.mem_cons_self), ih fun q hq => h q (List.mem_cons_of_mem _ hq)]

theorem masked_all (y : List ℝ) : ∀ used : List Bool, used.length = y.length → used.all id = true → Spec.masked y used = y.map some := by
  induction y with
  | nil => intro used _ _; simp [Spec.masked]
  | cons a y ih =>
    intro used hl ha
    cases used with
    | nil => simp at hl
    | cons u used =>
      simp only [List.all_cons, id, Bool.and_eq_true] at ha
      have := ih used (by simpa using hl) ha.2
      simp only [Spec.masked] at this ⊢
      simp [ha.1, this]

theorem whole (y : List ℝ) : readPattern ⟨[y], [(0, y.length)], some y.length⟩ = some (y.map some) := by
  unfold readPattern
  simp only [Option.bind_some]
  rw [foldlM_assign _ _ (by simp)]
  simp [LeBail.assign]

/-- A pattern without negative intensities that is assigned as an array is read back, with NaN exactly at the points not used. -/
theorem read_array (s : State) (y : List ℝ) (used : List Bool) (hl : used.length = y.length) (h : ∀ v ∈ y, 0 ≤ v) :
    readPattern (setPattern s (.array y used)) = some (Spec.masked y used) := by
  unfold setPattern
  by_cases ha : used.all id = true
  · simp only [ha, if_true]
    rw [map_shift_eq (by simpa using h), whole, masked_all y used hl ha]
  · simp only [ha]
    have hp : ∀ r ∈ (LeBail.separateRegions y used).1, ∀ v ∈ r, 0 ≤ v := by
      intro r hr v hv
      unfold LeBail.separateRegions at hr
      obtain ⟨p, _, rfl⟩ := List.mem_map.1 hr
      exact h v (List.mem_of_mem_take (List.mem_of_mem_drop hv))
    simp only [Bool.false_eq_true, if_false]
    rw [map_shift_eq hp]
    have hj := LeBail.join_separate y used hl
    unfold readPattern
    simp only [Option.bind_some]
    rw [foldlM_assign]
    · exact congrArg some hj
    · intro q hq
      unfold LeBail.separateRegions at hq
      simp only at hq
      rw [LeBail.zip_pieces] at hq
      obtain ⟨p, hp, rfl⟩ := List.mem_map.1 hq
      obtain ⟨-, h1, h2, -, -⟩ := (LeBail.flips_bounds used 0).1 p hp
      simp only [List.length_replicate]
      refine ⟨h1.le, by omega, ?_⟩
      rw [List.length_drop, List.length_take]
      omega

/-- A `Spectrum` that is assigned to a new object cannot be read back: the reading raises. -/
theorem spectrum_fails (y : List ℝ) : readPattern (setPattern fresh (.spectrum y)) = none := rfl

/-- A `Spectrum` is read back if the object held an array with as many points before; with fewer points than before, the pattern
read is too long and ends with NaN. -/
theorem spectrum_stale (s : State) (z y : List ℝ) (used : List Bool) (h : ∀ v ∈ y, 0 ≤ v) (hz : y.length ≤ z.length) :
    readPattern (setPattern (setPattern s (.array z used)) (.spectrum y)) =
      some (y.map some ++ List.replicate (z.length - y.length) none) := by
  have hs : (setPattern s (.array z used)).shape = some z.length := by
    unfold setPattern; simp only; split <;> rfl
  show readPattern ⟨[y].map shiftRegion, [(0, y.length)], (setPattern s (.array z used)).shape⟩ = _
  rw [hs, map_shift_eq (by simpa using h)]
  unfold readPattern
  simp only [Option.bind_some]
  rw [foldlM_assign _ _ (by simpa using hz)]
  simp [LeBail.assign]

/-! ### The background at the start -/

theorem mapDomain_eq {lo hi : ℝ} (h : lo < hi) (x : ℝ) : mapDomain lo hi x = (2 * x - (lo + hi)) / (hi - lo) := by
  have : hi - lo ≠ 0 := by linarith
  unfold mapDomain
  field_simp
  ring

/-- The background at the start is the fitted polynomial, but drawn out from the range of the used points to that of all points. -/
theorem background_stretched (coef tth : List ℝ) (used : List Bool) (hu : lowest (usedPoints tth used) < highest (usedPoints tth used))
    (ht : tth.headD 0 < tth.getLastD 0) (x : ℝ) :
    background coef tth x = initBkg coef tth used (lowest (usedPoints tth used) +
      (x - tth.headD 0) * ((highest (usedPoints tth used) - lowest (usedPoints tth used)) / (tth.getLastD 0 - tth.headD 0))) := by
  unfold background initBkg chebyshev
  generalize lowest (usedPoints tth used) = a at hu ⊢
  generalize highest (usedPoints tth used) = b at hu ⊢
  generalize tth.headD 0 = c at ht ⊢
  generalize tth.getLastD 0 = d at ht ⊢
  have e : mapDomain c d x = mapDomain a b (a + (x - c) * ((b - a) / (d - c))) := by
    rw [mapDomain_eq ht, mapDomain_eq hu]
    have h1 : b - a ≠ 0 := by linarith
    have h2 : d - c ≠ 0 := by linarith
    field_simp
    ring
  rw [e]

theorem usedPoints_mem {tth : List ℝ} : ∀ {used : List Bool} {x : ℝ}, x ∈ usedPoints tth used → x ∈ tth := by
  induction tth with
  | nil => intro used x h; simp [usedPoints] at h
  | cons t tth ih =>
    intro used x h
    cases used with
    | nil => simp [usedPoints] at h
    | cons u used =>
      unfold usedPoints at h
      rw [List.zip_cons_cons, List.filterMap_cons] at h
      cases u with
      | true =>
        simp only [if_true] at h
        rcases List.mem_cons.1 h with rfl | h
        · exact List.mem_cons_self
        · exact List.mem_cons_of_mem _ (ih h)
      | false => exact List.mem_cons_of_mem _ (ih (used := used) h)

theorem usedPoints_get {tth : List ℝ} {used : List Bool} {i : Nat} {x : ℝ} (hx : tth[i]? = some x) (hu : used[i]? = some true) :
    x ∈ usedPoints tth used := by
  unfold usedPoints
  rw [List.mem_filterMap]
  refine ⟨(x, true), ?_, rfl⟩
  rw [List.mem_iff_getElem?]
  exact ⟨i, by rw [List.getElem?_zip_eq_some]; exact ⟨hx, hu⟩⟩

/-- If the angles increase and the first and the last point are used, the background at the start is the fitted polynomial, at every
angle. -/
theorem background_is_fit (coef tth : List ℝ) (used : List Bool) (hs : tth.Pairwise (· < ·)) (hl : used.length = tth.length)
    (h1 : used.head? = some true) (h2 : used.getLast? = some true) (x : ℝ) :
    background coef tth x = initBkg coef tth used x := by
  have hne : tth ≠ [] := by rintro rfl; cases used <;> simp_all
  have hpos : 0 < tth.length := List.length_pos_of_ne_nil hne
  have hle : tth.Pairwise (· ≤ ·) := hs.imp le_of_lt
  have hfirst : ∀ y ∈ tth, tth.headD 0 ≤ y := by
    cases tth with
    | nil => exact absurd rfl hne
    | cons t ts =>
      intro y hy
      rcases List.mem_cons.1 hy with rfl | hy
      · exact le_rfl
      · exact (List.pairwise_cons.1 hle).1 y hy
  have hlast : ∀ y ∈ tth, y ≤ tth.getLastD 0 := by
    rw [List.getLastD_eq_getLast?, List.getLast?_eq_getElem?, List.getElem?_eq_getElem (by omega)]
    intro y hy
    obtain ⟨i, hi, rfl⟩ := List.mem_iff_getElem.1 hy
    simp only [Option.getD_some]
    rcases Nat.lt_or_ge i (tth.length - 1) with h | h
    · exact List.pairwise_iff_getElem.1 hle i (tth.length - 1) hi (by omega) h
    · have : i = tth.length - 1 := by omega
      subst this; exact le_rfl
  have m1 : tth.headD 0 ∈ usedPoints tth used := by
    apply usedPoints_get (i := 0)
    · rw [List.headD_eq_head?_getD, List.head?_eq_getElem?, List.getElem?_eq_getElem hpos]; rfl
    · rw [← List.head?_eq_getElem?]; exact h1
  have m2 : tth.getLastD 0 ∈ usedPoints tth used := by
    apply usedPoints_get (i := tth.length - 1)
    · rw [List.getLastD_eq_getLast?, List.getLast?_eq_getElem?, List.getElem?_eq_getElem (by omega)]; rfl
    · rw [← hl, ← List.getLast?_eq_getElem?]; exact h2
  have a := lowest_spec (List.ne_nil_of_mem m1)
  have b := highest_spec (List.ne_nil_of_mem m1)
  have e1 : lowest (usedPoints tth used) = tth.headD 0 := le_antisymm (a.2 _ m1) (hfirst _ (usedPoints_mem a.1))
  have e2 : highest (usedPoints tth used) = tth.getLastD 0 := le_antisymm (hlast _ (usedPoints_mem b.1)) (b.2 _ m2)
  unfold background initBkg
  rw [e1, e2]

/-- A fit that is not constant but linear is kept only if the used points reach both ends of the pattern. -/
theorem background_linear_iff (c0 c1 : ℝ) (hc : c1 ≠ 0) (tth : List ℝ) (used : List Bool)
    (hu : lowest (usedPoints tth used) < highest (usedPoints tth used)) (ht : tth.headD 0 < tth.getLastD 0) :
    (∀ x, background [c0, c1] tth x = initBkg [c0, c1] tth used x) ↔
      lowest (usedPoints tth used) = tth.headD 0 ∧ highest (usedPoints tth used) = tth.getLastD 0 := by
  unfold background initBkg chebyshev
  generalize lowest (usedPoints tth used) = a at hu ⊢
  generalize highest (usedPoints tth used) = b at hu ⊢
  generalize tth.headD 0 = c at ht ⊢
  generalize tth.getLastD 0 = d at ht ⊢
  constructor
  · intro h
    have hm : ∀ x, mapDomain c d x = mapDomain a b x := by
      intro x
      have := h x
      simp [Finset.sum_range_succ] at this
      rcases this with h | h
      · exact h
      · exact absurd h hc
    have h1 := hm c
    have h2 := hm d
    rw [mapDomain_eq ht, mapDomain_eq hu] at h1 h2
    have n1 : b - a ≠ 0 := by linarith
    have n2 : d - c ≠ 0 := by linarith
    have e1 : (2 * c - (c + d)) / (d - c) = -1 := by field_simp; ring
    have e2 : (2 * d - (c + d)) / (d - c) = 1 := by field_simp; ring
    rw [e1, eq_div_iff n1] at h1
    rw [e2, eq_div_iff n1] at h2
    constructor <;> linarith
  · rintro ⟨rfl, rfl⟩ x
    rfl

/-- With a masked first point, the background at the start is not the fit: a line of slope 2 over the used points becomes one of
slope 4/3. -/
theorem background_masked_fails : ∃ (coef tth : List ℝ) (used : List Bool) (x : ℝ),
    tth.Pairwise (· < ·) ∧ used.length = tth.length ∧ x ∈ usedPoints tth used ∧
      initBkg coef tth used x = 2 * x - 4 ∧ background coef tth x = 4 / 3 * x - 2 ∧
      background coef tth x ≠ initBkg coef tth used x := by
  refine ⟨[0, 2], [0, 1, 2, 3], [false, true, true, true], 1, by norm_num, rfl, by simp [usedPoints], ?_⟩
  have u : usedPoints [0, 1, 2, 3] [false, true, true, true] = [1, 2, 3] := by simp [usedPoints]
  have l : lowest [1, 2, 3] = 1 := by norm_num [lowest]
  have g : highest [1, 2, 3] = 3 := by norm_num [highest]
  have e1 : initBkg [0, 2] [0, 1, 2, 3] [false, true, true, true] 1 = -2 := by
    unfold initBkg chebyshev
    rw [u, l, g, mapDomain_eq (by norm_num)]
    norm_num [Finset.sum_range_succ]
  have e2 : background [0, 2] [0, 1, 2, 3] 1 = -2 / 3 := by
    unfold background chebyshev
    have : List.getLastD ([0, 1, 2, 3] : List ℝ) 0 = 3 := rfl
    have h0 : List.headD ([0, 1, 2, 3] : List ℝ) 0 = 0 := rfl
    rw [this, h0, mapDomain_eq (by norm_num)]
    norm_num [Finset.sum_range_succ]
  rw [e1, e2]
  norm_num

/-! ### Coefficients and parameters -/

theorem contains_iff (p : Name) : ∀ n : Name, contains p n = true ↔ p <:+: n := by
  intro n
  induction n with
  | nil => simp [contains, List.isEmpty_iff]
  | cons c cs ih =>
    simp only [contains, Bool.or_eq_true, List.isPrefixOf_iff_prefix, ih]
    rw [List.infix_cons_iff]

theorem digit_ne (i : Nat) : ∀ c ∈ Nat.toDigits 10 i, c.isDigit = true := fun _ h =>
  Nat.isDigit_of_mem_toDigits (by decide) (by decide) h

theorem toDigits_ne (i : Nat) : Nat.toDigits 10 i ≠ [] := by
  intro h
  have := Nat.length_toDigits_pos (b := 10) (n := i)
  rw [h] at this
  simp at this

theorem takeWhile_digits (l : Name) (h : ∀ c ∈ l, c.isDigit = true) : l.takeWhile (· ≠ '_') = l := by
  induction l with
  | nil => rfl
  | cons c l ih =>
    have hc : c ≠ '_' := by
      rintro rfl
      exact absurd (h _ List.mem_cons_self) (by decide)
    rw [List.takeWhile_cons, if_pos (by simpa using hc), ih fun d hd => h d (List.mem_cons_of_mem _ hd)]

theorem second_bkg (i : Nat) : secondPiece (bkgName i) = some (Nat.toDigits 10 i) := by
  unfold secondPiece bkgName
  have : List.dropWhile (fun x => decide (x ≠ '_')) (['b', 'k', 'g', '_'] ++ Nat.toDigits 10 i) = '_' :: Nat.toDigits 10 i := by
    simp [List.dropWhile]
  rw [this]
  simp only
  rw [takeWhile_digits _ (digit_ne i)]

theorem pyInt_digits (i : Nat) : pyInt (Nat.toDigits 10 i) = some i := by
  unfold pyInt
  rw [if_pos ⟨toDigits_ne i, by rw [List.all_eq_true]; exact digit_ne i⟩, Nat.ofDigitChars_ten_toDigits]

theorem bkgName_inj {i j : Nat} (h : bkgName i = bkgName j) : i = j := by
  have := second_bkg i
  rw [h, second_bkg] at this
  have h2 := congrArg pyInt (Option.some.inj this)
  rw [pyInt_digits, pyInt_digits] at h2
  exact (Option.some.inj h2).symm

theorem contains_bkg (i : Nat) : contains ['b', 'k', 'g'] (bkgName i) = true := by
  rw [contains_iff]
  exact ⟨[], '_' :: Nat.toDigits 10 i, rfl⟩

/-- If only the coefficients have "bkg" in their names and no name occurs twice, the parameters give the coefficients: those with a
parameter get its value, and the others stay. -/
theorem update_follows (params : List (Name × ℝ)) : ∀ coef : List ℝ, Spec.OnlyCoefficients params coef.length →
    (params.map Prod.fst).Nodup →
    ∃ c, updateBkg coef params = some c ∧ c.length = coef.length ∧
      (∀ i n v, Spec.IsCoefficient n i → (n, v) ∈ params → c[i]? = some v) ∧
      (∀ i, (∀ n v, Spec.IsCoefficient n i → (n, v) ∉ params) → c[i]? = coef[i]?) := by
  induction params with
  | nil => intro coef _ _; exact ⟨coef, rfl, rfl, by simp, by simp⟩
  | cons e ps ih =>
    obtain ⟨n, v⟩ := e
    intro coef ho hd
    rw [List.map_cons, List.nodup_cons] at hd
    have ho' : Spec.OnlyCoefficients ps coef.length := fun e he => ho e (List.mem_cons_of_mem _ he)
    by_cases hb : contains ['b', 'k', 'g'] n = true
    · obtain ⟨i, hi, hn⟩ := ho (n, v) List.mem_cons_self ((contains_iff _ _).1 hb)
      have hn' : n = bkgName i := hn
      obtain ⟨c, hc, hlen, hv, hs⟩ := ih (coef.set i v) (by rw [List.length_set]; exact ho') hd.2
      refine ⟨c, ?_, by rw [hlen, List.length_set], ?_, ?_⟩
      · rw [updateBkg, if_pos hb, hn', second_bkg]
        simp only [Option.bind_eq_bind, Option.bind_some]
        rw [pyInt_digits]
        simp only [Option.bind_some]
        rw [if_pos hi, hc]
      · intro j m w hm hmem
        rcases List.mem_cons.1 hmem with h | h
        · obtain ⟨rfl, rfl⟩ := Prod.mk.inj h
          have hj : j = i := bkgName_inj (hm.symm.trans hn')
          subst hj
          rw [hs j]
          · rw [List.getElem?_set_self hi]
          · intro m' w' hm' hmem'
            apply hd.1
            rw [hn', show bkgName j = m' from hm'.symm]
            exact List.mem_map.2 ⟨_, hmem', rfl⟩
        · exact hv j m w hm h
      · intro j hj
        have hji : i ≠ j := by
          rintro rfl
          exact hj n v hn List.mem_cons_self
        rw [hs j fun m w hm h => hj m w hm (List.mem_cons_of_mem _ h), List.getElem?_set_ne hji]
    · obtain ⟨c, hc, hlen, hv, hs⟩ := ih coef ho' hd.2
      refine ⟨c, ?_, hlen, ?_, ?_⟩
      · rw [updateBkg, if_neg hb, hc]
      · intro j m w hm hmem
        rcases List.mem_cons.1 hmem with h | h
        · obtain ⟨rfl, rfl⟩ := Prod.mk.inj h
          exact absurd (by rw [show m = bkgName j from hm]; exact contains_bkg j) hb
        · exact hv j m w hm h
      · intro j hj
        exact hs j fun m w hm h => hj m w hm (List.mem_cons_of_mem _ h)

/-- One value replaced in a list of parameters. -/
theorem replace_names (coef : List ℝ) (is : List Nat) : ∀ params : List (Name × ℝ),
    (is.foldl (fun ps i => ps.map fun e => if e.1 = bkgName i then (e.1, coef.getD i 0) else e) params).map Prod.fst =
      params.map Prod.fst := by
  induction is with
  | nil => intro params; rfl
  | cons i is ih =>
    intro params
    rw [List.foldl_cons, ih, List.map_map]
    apply List.map_congr_left
    intro e _
    simp only [Function.comp]
    split <;> rfl

theorem replace_values (coef : List ℝ) (is : List Nat) : ∀ params : List (Name × ℝ), ∀ e ∈
    is.foldl (fun ps i => ps.map fun e => if e.1 = bkgName i then (e.1, coef.getD i 0) else e) params,
    (∃ i ∈ is, e = (bkgName i, coef.getD i 0)) ∨ ((∀ i ∈ is, e.1 ≠ bkgName i) ∧ e ∈ params) := by
  induction is with
  | nil => intro params e he; exact .inr ⟨by simp, he⟩
  | cons i is ih =>
    intro params e he
    rw [List.foldl_cons] at he
    rcases ih _ e he with ⟨j, hj, h⟩ | ⟨hne, hmem⟩
    · exact .inl ⟨j, List.mem_cons_of_mem _ hj, h⟩
    · obtain ⟨e', he', h⟩ := List.mem_map.1 hmem
      by_cases hi : e'.1 = bkgName i
      · rw [if_pos hi] at h
        exact .inl ⟨i, List.mem_cons_self, by rw [← h, hi]⟩
      · rw [if_neg hi] at h
        subst h
        exact .inr ⟨fun j hj => by
          rcases List.mem_cons.1 hj with rfl | hj
          · exact hi
          · exact hne j hj, he'⟩

/-- A reset puts the coefficients of the fit into the parameters: names stay, other values stay, and taking the parameters over gives
the same coefficients. -/
theorem reset_keeps (coef : List ℝ) (params : List (Name × ℝ)) (ho : Spec.OnlyCoefficients params coef.length)
    (hd : (params.map Prod.fst).Nodup) :
    (resetBkg coef params).map Prod.fst = params.map Prod.fst ∧
      (∀ e ∈ resetBkg coef params, e ∈ params ∨ ∃ i < coef.length, Spec.IsCoefficient e.1 i) ∧
      updateBkg coef (resetBkg coef params) = some coef := by
  have hn := replace_names coef (List.range coef.length) params
  have hv := replace_values coef (List.range coef.length) params
  refine ⟨hn, ?_, ?_⟩
  · intro e he
    rcases hv e he with ⟨i, hi, h⟩ | ⟨-, h⟩
    · exact .inr ⟨i, List.mem_range.1 hi, by rw [h]; rfl⟩
    · exact .inl h
  · have ho' : Spec.OnlyCoefficients (resetBkg coef params) coef.length := by
      intro e he hb
      have : e.1 ∈ params.map Prod.fst := by rw [← hn]; exact List.mem_map.2 ⟨e, he, rfl⟩
      obtain ⟨e', he', h⟩ := List.mem_map.1 this
      rw [← h] at hb ⊢
      exact ho e' he' hb
    obtain ⟨c, hc, hlen, hcv, hcs⟩ := update_follows (resetBkg coef params) coef ho' (by rw [show (resetBkg coef params).map Prod.fst = _ from hn]; exact hd)
    rw [hc]
    congr 1
    apply List.ext_getElem?
    intro j
    by_cases hj : ∃ n v, Spec.IsCoefficient n j ∧ (n, v) ∈ resetBkg coef params
    · obtain ⟨n, v, hnj, hmem⟩ := hj
      rw [hcv j n v hnj hmem]
      obtain ⟨k, hk, hkn⟩ := ho' (n, v) hmem (by
        rw [show n = bkgName j from hnj]; exact (contains_iff _ _).1 (contains_bkg j))
      have hkj : k = j := bkgName_inj (hkn.symm.trans hnj)
      subst hkj
      rcases hv (n, v) hmem with ⟨i, hi, h⟩ | ⟨h, -⟩
      · obtain ⟨h1, h2⟩ := Prod.mk.inj h
        have : i = k := bkgName_inj (h1.symm.trans hnj)
        subst this
        rw [h2, List.getD_eq_getElem?_getD, List.getElem?_eq_getElem hk]
        rfl
      · exact absurd hnj (h k (List.mem_range.2 hk))
    · push Not at hj
      exact hcs j hj

/-- A smaller degree with the parameters of the larger one raises as soon as the parameters are taken over. -/
theorem smaller_degree_raises (degree i : Nat) (coef : List ℝ) (params : List (Name × ℝ)) (v : ℝ) (hi : degree < i)
    (hmem : (bkgName i, v) ∈ params) : updateBkg (LeBail.resizeBkg degree coef) params = none := by
  have hl := (LeBail.resizeBkg_spec degree coef).1
  generalize LeBail.resizeBkg degree coef = c at hl
  induction params generalizing c with
  | nil => simp at hmem
  | cons e ps ih =>
    obtain ⟨n, w⟩ := e
    rcases List.mem_cons.1 hmem with h | h
    · obtain ⟨rfl, rfl⟩ := Prod.mk.inj h
      rw [updateBkg, if_pos (contains_bkg i), second_bkg]
      simp only [Option.bind_eq_bind, Option.bind_some]
      rw [pyInt_digits]
      simp only [Option.bind_some]
      rw [if_neg (by omega)]
    · rw [updateBkg]
      split
      · cases secondPiece n with
        | none => rfl
        | some s =>
          simp only [Option.bind_eq_bind, Option.bind_some]
          cases pyInt s with
          | none => rfl
          | some k =>
            simp only [Option.bind_some]
            split
            · exact ih h _ (by rw [List.length_set]; exact hl)
            · rfl
      · exact ih h c hl

/-- A phase named "bkg_1" changes the background: its parameter P becomes the second coefficient. One named "bkgd" makes every
calculation raise. -/
theorem phase_name_fails (c0 c1 p : ℝ) :
    updateBkg [c0, c1] [(['b', 'k', 'g', '_', '1', '_', 'P'], p)] = some [c0, p] ∧
      updateBkg [c0, c1] [(['b', 'k', 'g', 'd', '_', 'P'], p)] = none := by
  constructor <;> rfl

/-! ### Changing the peak shape -/

theorem lookup_map {K V : Type} [DecidableEq K] (f : K → V → V) (l : List (K × V)) (k : K) :
    (l.map fun e => (e.1, f e.1 e.2)).lookup k = (l.lookup k).map (f k) := by
  induction l with
  | nil => rfl
  | cons e l ih =>
    rw [List.map_cons, List.lookup_cons, List.lookup_cons, ih]
    by_cases h : k = e.1
    · subst h; simp
    · have : (k == e.1) = false := by simpa using h
      rw [this]

theorem setShape_eq {K V : Type} [DecidableEq K] (defaults : Nat → List (K × V)) (cur : Nat) (params : List (K × V)) (new : Nat)
    (h : cur ≠ new) : setShape defaults cur params new =
      (new, (defaults new).map fun e => (e.1, (fun k v => (params.lookup k).getD v) e.1 e.2)) := by
  unfold setShape
  rw [if_neg h]
  congr 1
  apply List.map_congr_left
  intro e _
  show _ = (e.1, (params.lookup e.1).getD e.2)
  cases params.lookup e.1 <;> rfl

/-- After a change of the peak shape the parameters are those of the new shape. One that was there before keeps its value, and the
others have their defaults. The same shape again changes nothing. -/
theorem shape_change {K V : Type} [DecidableEq K] (defaults : Nat → List (K × V)) (cur : Nat) (params : List (K × V)) (new : Nat) :
    (setShape defaults cur params new).1 = new ∧ (cur = new → (setShape defaults cur params new).2 = params) ∧
      (cur ≠ new → (setShape defaults cur params new).2.map Prod.fst = (defaults new).map Prod.fst ∧
        ∀ k v, (defaults new).lookup k = some v →
          (setShape defaults cur params new).2.lookup k = some ((params.lookup k).getD v)) := by
  refine ⟨?_, ?_, ?_⟩
  · unfold setShape; split
    · assumption
    · rfl
  · intro h; unfold setShape; rw [if_pos h]
  · intro h
    rw [setShape_eq _ _ _ _ h]
    refine ⟨by simp, ?_⟩
    intro k v hv
    rw [lookup_map fun k v => (params.lookup k).getD v, hv]
    rfl

/-- Going to another shape and back: a parameter keeps its value if the other shape has it too, and else it is set to its default. -/
theorem shape_back {K V : Type} [DecidableEq K] (defaults : Nat → List (K × V)) (a b : Nat) (hab : a ≠ b) (params : List (K × V))
    (k : K) (v d : V) (hp : params.lookup k = some v) (hd : (defaults a).lookup k = some d) :
    (setShape defaults b (setShape defaults a params b).2 a).2.lookup k =
      some (if ((defaults b).lookup k).isSome then v else d) := by
  rw [setShape_eq _ _ _ _ hab, setShape_eq _ _ _ _ hab.symm]
  rw [lookup_map fun k v => ((_ : List (K × V)).lookup k).getD v, hd, lookup_map fun k v => (params.lookup k).getD v]
  cases (defaults b).lookup k with
  | none => simp
  | some w => simp [hp]

/-- The asymmetry of the first shape is lost on the way to the second and back. -/
theorem shape_back_fails : ∃ (defaults : Nat → List (String × Nat)) (params : List (String × Nat)),
    params.map Prod.fst = (defaults 0).map Prod.fst ∧
      (setShape defaults 1 (setShape defaults 0 params 1).2 0).2 ≠ params :=
  ⟨fun n => if n = 0 then [("HL", 1), ("U", 81)] else [("U", 81)], [("HL", 5), ("U", 7)], rfl, by decide⟩

/-- The five names and their numbers are the shapes that are taken; anything else raises. -/
theorem shape_number (a : ShapeArg) (n : Nat) : shapeNumber a = some n ↔
    (∃ i : Int, a = .number i ∧ i = n ∧ n ≤ 4) ∨
      ∃ s, a = .name s ∧ ["pvfcj", "pvtch", "pvpink", "pvheating", "pvexponential"][n]? = some s := by
  cases a with
  | other => simp [shapeNumber]
  | number i =>
    simp only [shapeNumber]
    split
    · rename_i h
      simp
      omega
    · rename_i h
      simp
      omega
  | name s =>
    simp only [shapeNumber]
    constructor
    · intro h
      right
      refine ⟨s, rfl, ?_⟩
      split at h
      · rename_i e; cases h; rw [e]; rfl
      · split at h
        · rename_i e; cases h; rw [e]; rfl
        · split at h
          · rename_i e; cases h; rw [e]; rfl
          · split at h
            · rename_i e; cases h; rw [e]; rfl
            · split at h
              · rename_i e; cases h; rw [e]; rfl
              · cases h
    · rintro (⟨i, h, -⟩ | ⟨t, h, ht⟩)
      · cases h
      · cases h
        match n, ht with
        | 0, ht => cases ht; rfl
        | 1, ht => cases ht; rfl
        | 2, ht => cases ht; rfl
        | 3, ht => cases ht; rfl
        | 4, ht => cases ht; rfl
        | n + 5, ht => simp at ht

/-! ### Initial intensities -/

/-- Reflections start with an intensity between a hundredth and a tenth of the highest point, if no point is masked and the pattern is
positive somewhere; else with 1. -/
theorem initial_intensity (m : ℝ) (h : 0 < m) :
    m / 100 < initIntensity (some m) ∧ initIntensity (some m) ≤ m / 10 ∧ initIntensity none = 1 := by
  have e : initIntensity (some m) = (10 : ℝ) ^ (⌊Real.logb 10 m⌋ - 1) := by
    unfold initIntensity
    simp only
    rw [if_pos h]
  have h10 : (10 : ℝ) ^ (⌊Real.logb 10 m⌋ - 1) = 10 ^ ⌊Real.logb 10 m⌋ / 10 := by
    rw [zpow_sub_one₀ (by norm_num)]; ring
  have a : (10 : ℝ) ^ ⌊Real.logb 10 m⌋ ≤ m := by
    have := Int.floor_le (Real.logb 10 m)
    rw [Real.le_logb_iff_rpow_le (by norm_num) h] at this
    rwa [Real.rpow_intCast] at this
  have b : m < 10 * (10 : ℝ) ^ ⌊Real.logb 10 m⌋ := by
    have := Int.lt_floor_add_one (Real.logb 10 m)
    rw [Real.logb_lt_iff_lt_rpow (by norm_num) h, Real.rpow_add (by norm_num), Real.rpow_intCast, Real.rpow_one] at this
    linarith
  rw [e, h10]
  refine ⟨by linarith, by linarith, ?_⟩
  unfold initIntensity
  simp

/-! ### Cases -/

/-- Parameters as generated, with a phase that has nothing to do with the background. -/
example : Spec.OnlyCoefficients [(bkgName 0, (1 : ℝ)), (bkgName 1, 2), (['C', 'e', 'O', '2', '_', 'P'], 0)] 2 := by
  intro e he hb
  simp only [List.mem_cons, List.not_mem_nil, or_false] at he
  rcases he with rfl | rfl | rfl
  · exact ⟨0, by norm_num, rfl⟩
  · exact ⟨1, by norm_num, rfl⟩
  · rw [← contains_iff] at hb
    exact absurd hb (by decide)

/-- A pattern with a masked point in the middle: its ends are used. -/
example : ([10, 11, 12] : List ℝ).Pairwise (· < ·) ∧ ([true, false, true] : List Bool).head? = some true ∧
    ([true, false, true] : List Bool).getLast? = some true := by
  refine ⟨by norm_num, rfl, rfl⟩

end Hexrd.PatternFit
