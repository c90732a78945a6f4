import Verif.Spec.Rietveld
import Verif.Props.Transmission
import Mathlib.Analysis.Real.Pi.Bounds
import Mathlib.Data.List.Forall2
import Mathlib.Tactic.Linarith
import Mathlib.Tactic.LinearCombination
import Mathlib.Tactic.FieldSimp
import Mathlib.Tactic.Positivity

/-!
C114: intensities of the reflections in the window. C115: extinction and absorption.
-/

namespace Hexrd.Rietveld

open Real

/-! ## Angles -/

theorem radians_degrees (x : ℝ) : degrees x / 2 * 2 * π / 180 = x := by
  unfold degrees
  field_simp

/-- C114, angles: the angle is that of Bragg's law, and there is none if and only if the wavelength is longer than twice the spacing. -/
theorem getTth_bragg (w d : ℝ) (hw : 0 < w) (hd : 0 < d) :
    (∀ t, getTth w d = some t ↔ Bragg w d t) ∧ (getTth w d = none ↔ 2 * d < w) := by
  have hs0 : 0 < 1 / d * w / 2 := by positivity
  have hle : |1 / d * w / 2| ≤ 1 ↔ w ≤ 2 * d := by
    rw [abs_of_pos hs0, div_le_one (by norm_num), div_mul_eq_mul_div, one_mul, div_le_iff₀ hd]
  have hang : ∀ t, t / 2 * π / 180 = t * π / 360 := fun t => by ring
  constructor
  · intro t
    unfold getTth
    simp only []
    constructor
    · intro h
      split at h
      case isFalse => exact absurd h (by simp)
      case isTrue h1 =>
        obtain rfl := Option.some.inj h
        have h2 := hle.mp h1
        have ha0 : 0 ≤ arcsin (1 / d * w / 2) := arcsin_nonneg.mpr hs0.le
        have ha1 := arcsin_le_pi_div_two (1 / d * w / 2)
        have hp := pi_pos
        refine ⟨?_, ?_, ?_⟩
        · unfold degrees; positivity
        · unfold degrees
          rw [← mul_div_assoc, div_le_iff₀ hp]
          nlinarith
        · have e : 2 * degrees (arcsin (1 / d * w / 2)) / 2 * π / 180 = arcsin (1 / d * w / 2) := by
            unfold degrees; field_simp
          rw [e, sin_arcsin (by linarith) (abs_le.mp h1).2]
          field_simp
    · rintro ⟨h0, h1, h2⟩
      have hp := pi_pos
      have hs : 1 / d * w / 2 = sin (t / 2 * π / 180) := by rw [h2]; field_simp
      have hab : |1 / d * w / 2| ≤ 1 := by rw [hs]; exact abs_sin_le_one _
      rw [if_pos hab, hs, arcsin_sin]
      · unfold degrees
        congr 1
        field_simp
      · have : 0 ≤ t / 2 * π / 180 := by positivity
        linarith
      · have : t * π ≤ 180 * π := by gcongr
        linarith
  · unfold getTth
    simp only []
    constructor
    · intro h
      split at h
      case isTrue => exact absurd h (by simp)
      case isFalse h1 => by_contra hc; exact h1 (hle.mpr (by linarith))
    · intro h
      rw [if_neg]
      intro h1
      linarith [hle.mp h1]

theorem bragg_unique (w d t t' : ℝ) (hw : 0 < w) (hd : 0 < d) (h : Bragg w d t) (h' : Bragg w d t') : t = t' := by
  have h1 := ((getTth_bragg w d hw hd).1 t).mpr h
  have h2 := ((getTth_bragg w d hw hd).1 t').mpr h'
  rw [h1] at h2
  exact Option.some.inj h2

/-- Wider spacings reflect at smaller angles. -/
theorem bragg_antitone (w d d' t t' : ℝ) (hd' : 0 < d') (hw : 0 < w) (hdd : d' ≤ d) (h : Bragg w d t) (h' : Bragg w d' t') : t ≤ t' := by
  obtain ⟨a, b, c⟩ := h
  obtain ⟨a', b', c'⟩ := h'
  by_contra hc
  push Not at hc
  have hp := pi_pos
  have hlt : sin (t' / 2 * π / 180) < sin (t / 2 * π / 180) := by
    apply sin_lt_sin_of_lt_of_le_pi_div_two
    · have : 0 ≤ t' / 2 * π / 180 := by positivity
      linarith
    · have : t * π ≤ 180 * π := by gcongr
      linarith
    · have : t' * π < t * π := by gcongr
      linarith
  have hpos : 0 < sin (t' / 2 * π / 180) := by
    by_contra hn
    push Not at hn
    have : 2 * d' * sin (t' / 2 * π / 180) ≤ 0 := mul_nonpos_of_nonneg_of_nonpos (by linarith) hn
    linarith
  have : 2 * d' * sin (t' / 2 * π / 180) < 2 * d * sin (t / 2 * π / 180) := by
    have h1 : 2 * d' * sin (t' / 2 * π / 180) ≤ 2 * d * sin (t' / 2 * π / 180) := by gcongr
    have h2 : 2 * d * sin (t' / 2 * π / 180) < 2 * d * sin (t / 2 * π / 180) := by
      have : 0 < 2 * d := by linarith
      gcongr
    linarith
  linarith

theorem bragg_allowed_mono (w d d' t' : ℝ) (hd : 0 < d) (hd' : 0 < d') (hw : 0 < w) (hdd : d' ≤ d) (h' : Bragg w d' t') :
    ∃ t, Bragg w d t := by
  obtain ⟨e1, e2⟩ := getTth_bragg w d hw hd
  obtain ⟨f1, f2⟩ := getTth_bragg w d' hw hd'
  have h1 := (f1 t').mpr h'
  have hn : ¬ 2 * d' < w := fun h => by rw [f2.mpr h] at h1; exact absurd h1 (by simp)
  cases hg : getTth w d with
  | none => exact absurd (e2.mp hg) (by linarith)
  | some t => exact ⟨t, (e1 t).mp hg⟩

/-! ## The window -/

theorem calctth_spec (w lo hi : ℝ) (hw : 0 < w) (rs : List Refl) (hd : ∀ r ∈ rs, 0 < r.dsp) :
    (calctth w lo hi rs).map (·.1) = inWindow w lo hi rs ∧ ∀ p ∈ calctth w lo hi rs, Bragg w p.1.dsp p.2 := by
  induction rs with
  | nil => simp [calctth, inWindow]
  | cons r rs ih =>
    obtain ⟨i1, i2⟩ := ih fun x hx => hd x (List.mem_cons_of_mem _ hx)
    have hr := hd r (by simp)
    obtain ⟨e1, e2⟩ := getTth_bragg w r.dsp hw hr
    unfold calctth at i1 i2 ⊢
    unfold inWindow at i1 ⊢
    simp only [] at i1 i2 ⊢
    cases hg : getTth w r.dsp with
    | none =>
      have hn : ¬ InWindow w lo hi r.dsp := by
        rintro ⟨t, ht, -⟩
        rw [(e1 t).mpr ht] at hg
        exact absurd hg (by simp)
      rw [List.filterMap_cons_none (by simp [hg]), List.filter_cons_of_neg (by simpa using hn)]
      exact ⟨i1, i2⟩
    | some t =>
      have hb := (e1 t).mp hg
      rw [List.filterMap_cons_some (b := (r, t)) (by simp [hg])]
      by_cases hin : lo ≤ t ∧ t ≤ hi
      · have hy : InWindow w lo hi r.dsp := ⟨t, hb, hin⟩
        rw [List.filter_cons_of_pos (by simpa using hin), List.filter_cons_of_pos (by simpa using hy), List.map_cons, i1]
        refine ⟨rfl, ?_⟩
        intro p hp
        rcases List.mem_cons.mp hp with rfl | hp
        · exact hb
        · exact i2 p hp
      · have hn : ¬ InWindow w lo hi r.dsp := by
          rintro ⟨t', ht', hin'⟩
          rw [bragg_unique w _ t t' hw hr hb ht'] at hin
          exact hin hin'
        rw [List.filter_cons_of_neg (by simpa using hin), List.filter_cons_of_neg (by simpa using hn)]
        exact ⟨i1, i2⟩

theorem lpFactor_eq (ph t : ℝ) : lpFactor ph t = lorentzPolarization ph t := by
  unfold lpFactor lorentzPolarization radians
  simp only []
  rw [div_div, show 1 / 2 * (t * π / 180) = t / 2 * π / 180 by ring]

theorem inWindow_cons (w lo hi : ℝ) (r : Refl) (rs : List Refl) :
    (InWindow w lo hi r.dsp → inWindow w lo hi (r :: rs) = r :: inWindow w lo hi rs) ∧
    (¬ InWindow w lo hi r.dsp → inWindow w lo hi (r :: rs) = inWindow w lo hi rs) := by
  unfold inWindow
  exact ⟨fun h => List.filter_cons_of_pos (by simpa using h), fun h => List.filter_cons_of_neg (by simpa using h)⟩

/-- For spacings in decreasing order the reflections of a phase are: those below the window, those in it, and the rest. -/
theorem sorted_splits (w lo hi : ℝ) (hw : 0 < w) (hlh : lo ≤ hi) (rs : List Refl) (hd : ∀ r ∈ rs, 0 < r.dsp)
    (hs : rs.Pairwise fun a b => b.dsp ≤ a.dsp) :
    ∃ A C, rs = A ++ inWindow w lo hi rs ++ C ∧ (∀ r ∈ A, ∃ t, Bragg w r.dsp t ∧ t < lo) := by
  induction rs with
  | nil => exact ⟨[], [], by simp [inWindow]⟩
  | cons r rs ih =>
    obtain ⟨h1, h2⟩ := List.pairwise_cons.mp hs
    obtain ⟨A, C, e, hA⟩ := ih (fun x hx => hd x (List.mem_cons_of_mem _ hx)) h2
    have hr := hd r (by simp)
    by_cases hb : ∃ t, Bragg w r.dsp t ∧ t < lo
    · refine ⟨r :: A, C, ?_, ?_⟩
      · rw [(inWindow_cons w lo hi r rs).2, List.cons_append, List.cons_append, ← e]
        rintro ⟨t', ht', hl, -⟩
        obtain ⟨t, ht, hlt⟩ := hb
        rw [bragg_unique w _ t t' hw hr ht ht'] at hlt
        linarith
      · intro x hx
        rcases List.mem_cons.mp hx with rfl | hx
        · exact hb
        · exact hA x hx
    · have hA0 : A = [] := by
        cases A with
        | nil => rfl
        | cons a A =>
          exfalso
          have ha : a ∈ rs := by rw [e]; simp
          obtain ⟨t, ht, hlt⟩ := hA a (by simp)
          obtain ⟨t', ht'⟩ := bragg_allowed_mono w r.dsp a.dsp t hr (hd a (List.mem_cons_of_mem _ ha)) hw (h1 a ha) ht
          have := bragg_antitone w r.dsp a.dsp t' t (hd a (List.mem_cons_of_mem _ ha)) hw (h1 a ha) ht' ht
          exact hb ⟨t', ht', by linarith⟩
      subst hA0
      by_cases hin : InWindow w lo hi r.dsp
      · refine ⟨[], C, ?_, by simp⟩
        rw [(inWindow_cons w lo hi r rs).1 hin, List.nil_append, List.cons_append]
        rw [List.nil_append] at e
        rw [← e]
      · have he : inWindow w lo hi (r :: rs) = [] := by
          unfold inWindow
          rw [List.filter_eq_nil_iff]
          intro x hx
          simp only [decide_eq_true_eq]
          rcases List.mem_cons.mp hx with rfl | hx
          · exact hin
          · rintro ⟨t, ht, hl, hu⟩
            have hxd := hd x (List.mem_cons_of_mem _ hx)
            obtain ⟨t', ht'⟩ := bragg_allowed_mono w r.dsp x.dsp t hr hxd hw (h1 x hx) ht
            have hle := bragg_antitone w r.dsp x.dsp t' t hxd hw (h1 x hx) ht' ht
            refine hin ⟨t', ht', ?_, by linarith⟩
            by_contra hc
            exact hb ⟨t', ht', by linarith⟩
        exact ⟨[], r :: rs, by rw [he]; rfl, by simp⟩

theorem window_length_le (w lo hi : ℝ) (rs : List Refl) : (inWindow w lo hi rs).length ≤ rs.length := List.length_filter_le _ _

theorem computeIntensities_eq (scale pf ph w lo hi : ℝ) (hw : 0 < w) (rs : List Refl) (hd : ∀ r ∈ rs, 0 < r.dsp) :
    computeIntensities scale pf ph w lo hi rs = List.zipWith (fun (r : Refl) (p : Refl × ℝ) => scale * pf * r.sf * lorentzPolarization ph p.2)
      (rs.take (calctth w lo hi rs).length) (calctth w lo hi rs) := by
  obtain ⟨h1, -⟩ := calctth_spec w lo hi hw rs hd
  have hlen : (calctth w lo hi rs).length ≤ rs.length := by
    have := congrArg List.length h1
    rw [List.length_map] at this
    rw [this]
    exact window_length_le _ _ _ _
  unfold computeIntensities
  simp only [List.length_map]
  rw [min_eq_left hlen, min_self, List.take_of_length_le (l := List.map (lpFactor ph) _) (by simp), ← List.map_take, List.map_map,
    List.zipWith_map]
  congr 1
  funext r p
  rw [Function.comp_apply, lpFactor_eq]

/-- C114, what the intensities are: entry `i` has the angle of the reflection `i` of the window, and the structure factor of the
reflection `i` of the phase. -/
theorem intensity_pairs (scale pf ph w lo hi : ℝ) (hw : 0 < w) (rs : List Refl) (hd : ∀ r ∈ rs, 0 < r.dsp) :
    (computeIntensities scale pf ph w lo hi rs).length = (inWindow w lo hi rs).length ∧
    ∀ (i : Nat) (r r' : Refl), rs[i]? = some r → (inWindow w lo hi rs)[i]? = some r' →
      ∃ t, Bragg w r'.dsp t ∧ (computeIntensities scale pf ph w lo hi rs)[i]? = some (scale * pf * r.sf * lorentzPolarization ph t) := by
  obtain ⟨h1, h2⟩ := calctth_spec w lo hi hw rs hd
  rw [computeIntensities_eq scale pf ph w lo hi hw rs hd]
  have hlen : (calctth w lo hi rs).length = (inWindow w lo hi rs).length := by
    have := congrArg List.length h1
    rwa [List.length_map] at this
  constructor
  · rw [List.length_zipWith, List.length_take, hlen]
    have := window_length_le w lo hi rs
    omega
  · intro i r r' hr hr'
    rw [← h1, List.getElem?_map] at hr'
    obtain ⟨p, hp, rfl⟩ := Option.map_eq_some_iff.mp hr'
    refine ⟨p.2, h2 p (List.mem_of_getElem? hp), ?_⟩
    have hi : i < (calctth w lo hi rs).length := (List.getElem?_eq_some_iff.mp hp).1
    rw [List.getElem?_zipWith, List.getElem?_take_of_lt hi, hr, hp]

/-- C114, aligned: if the spacings decrease and no reflection lies below the window, every reflection in the window gets the intensity of
its own structure factor. -/
theorem aligned_partial (scale pf ph w lo hi : ℝ) (hw : 0 < w) (hlh : lo ≤ hi) (rs : List Refl) (hd : ∀ r ∈ rs, 0 < r.dsp)
    (hs : rs.Pairwise fun a b => b.dsp ≤ a.dsp) (hlow : ∀ r ∈ rs, ∀ t, Bragg w r.dsp t → lo ≤ t) :
    List.Forall₂ (IsIntensity scale pf ph w) (inWindow w lo hi rs) (computeIntensities scale pf ph w lo hi rs) := by
  obtain ⟨A, C, e, hA⟩ := sorted_splits w lo hi hw hlh rs hd hs
  have hA0 : A = [] := by
    cases A with
    | nil => rfl
    | cons a A =>
      obtain ⟨t, ht, hlt⟩ := hA a (by simp)
      have := hlow a (by rw [e]; simp) t ht
      linarith
  subst hA0
  rw [List.nil_append] at e
  obtain ⟨hl, hp⟩ := intensity_pairs scale pf ph w lo hi hw rs hd
  rw [List.forall₂_iff_get]
  refine ⟨hl.symm, fun i h₁ h₂ => ?_⟩
  have hw' : (inWindow w lo hi rs)[i]? = some ((inWindow w lo hi rs).get ⟨i, h₁⟩) := by simp [h₁]
  have hr : rs[i]? = some ((inWindow w lo hi rs).get ⟨i, h₁⟩) := by
    rw [← hw']
    conv_lhs => rw [e]
    exact List.getElem?_append_left h₁
  obtain ⟨t, ht, hc⟩ := hp i _ _ hr hw'
  refine ⟨t, ht, ?_⟩
  have := List.getElem?_eq_some_iff.mp hc
  exact this.2

theorem lorentzPolarization_pos (ph t : ℝ) (hph : 0 ≤ ph) (h0 : 0 < t) (h1 : t < 180) : 0 < lorentzPolarization ph t := by
  unfold lorentzPolarization
  have hp := pi_pos
  have ha : 0 < t / 2 * π / 180 := by positivity
  have hb : t / 2 * π / 180 < π / 2 := by
    have : t * π < 180 * π := by gcongr
    linarith
  have hc := cos_pos_of_mem_Ioo ⟨by linarith, hb⟩
  have hs := sin_pos_of_pos_of_lt_pi ha (by linarith)
  positivity

/-- C114, exactly when they are aligned: each reflection of the window has its own intensity if and only if its structure factor is that
of the reflection with the same place in the whole list. So with `k` reflections below the window each one has the intensity of the
reflection `k` places before it. -/
theorem aligned_iff (scale pf ph w lo hi : ℝ) (hsc : scale * pf ≠ 0) (hph : 0 ≤ ph) (hw : 0 < w) (hhi : hi < 180)
    (rs : List Refl) (hd : ∀ r ∈ rs, 0 < r.dsp) :
    List.Forall₂ (IsIntensity scale pf ph w) (inWindow w lo hi rs) (computeIntensities scale pf ph w lo hi rs) ↔
    ∀ (i : Nat) (r r' : Refl), rs[i]? = some r → (inWindow w lo hi rs)[i]? = some r' → r.sf = r'.sf := by
  obtain ⟨hl, hp⟩ := intensity_pairs scale pf ph w lo hi hw rs hd
  rw [List.forall₂_iff_get]
  constructor
  · rintro ⟨-, h⟩ i r r' hr hr'
    obtain ⟨t, ht, hc⟩ := hp i r r' hr hr'
    obtain ⟨h₁, e₁⟩ := List.getElem?_eq_some_iff.mp hr'
    obtain ⟨h₂, e₂⟩ := List.getElem?_eq_some_iff.mp hc
    obtain ⟨t', ht', e⟩ := h i h₁ h₂
    rw [List.get_eq_getElem, List.get_eq_getElem, e₁] at *
    have hm : r' ∈ inWindow w lo hi rs := List.mem_of_getElem? hr'
    have hm' : r' ∈ rs := List.mem_of_mem_filter hm
    have hin : InWindow w lo hi r'.dsp := by
      unfold inWindow at hm
      simpa using (List.mem_filter.mp hm).2
    have htt := bragg_unique w _ t t' hw (hd r' hm') ht ht'
    subst htt
    rw [e₂] at e
    obtain ⟨t'', ht'', -, hu⟩ := hin
    have := bragg_unique w _ t t'' hw (hd r' hm') ht ht''
    subst this
    have h0 : 0 < t := by
      rcases lt_or_eq_of_le ht.1 with h | h
      · exact h
      · exfalso
        have := ht.2.2
        rw [← h] at this
        simp at this
        linarith
    have hlp := lorentzPolarization_pos ph t hph h0 (by linarith)
    have : scale * pf * lorentzPolarization ph t * (r.sf - r'.sf) = 0 := by linear_combination e
    rcases mul_eq_zero.mp this with h | h
    · exact absurd h (mul_ne_zero hsc hlp.ne')
    · linarith
  · intro h
    refine ⟨hl.symm, fun i h₁ h₂ => ?_⟩
    have hw' : (inWindow w lo hi rs)[i]? = some ((inWindow w lo hi rs).get ⟨i, h₁⟩) := by simp [h₁]
    have hi' : i < rs.length := lt_of_lt_of_le h₁ (window_length_le _ _ _ _)
    have hr : rs[i]? = some (rs[i]) := by simp [hi']
    obtain ⟨t, ht, hc⟩ := hp i _ _ hr hw'
    refine ⟨t, ht, ?_⟩
    rw [← h i _ _ hr hw']
    exact (List.getElem?_eq_some_iff.mp hc).2

/-! ## Extinction -/

theorem small_antitone (x y : ℝ) (hx : 0 ≤ x) (hxy : x ≤ y) (hy : y ≤ 1) :
    1 - 1 / 2 * y + 1 / 4 * y ^ 2 - 5 / 48 * y ^ 3 + 7 / 192 * y ^ 4 ≤
      1 - 1 / 2 * x + 1 / 4 * x ^ 2 - 5 / 48 * x ^ 3 + 7 / 192 * x ^ 4 := by
  have h0 : 0 ≤ y - x := by linarith
  have hy0 : 0 ≤ y := by linarith
  have hsq : x ^ 2 + y ^ 2 ≤ x + y := by nlinarith
  have hcu : (x + y) * (x ^ 2 + y ^ 2) ≤ (x + y) ^ 2 := by nlinarith
  have hb : 0 ≤ 1 / 2 - (x + y) / 4 + 5 / 48 * (x ^ 2 + x * y + y ^ 2) - 7 / 192 * ((x + y) * (x ^ 2 + y ^ 2)) := by
    nlinarith [sq_nonneg (x - y), sq_nonneg (x + y - 3)]
  have := mul_nonneg h0 hb
  nlinarith [this]

theorem large_monotone (u v : ℝ) (hu : 0 ≤ u) (huv : u ≤ v) (hv : v ≤ 1) :
    u ^ 2 * (1 - 1 / 8 * u - 3 / 128 * u ^ 2 - 15 / 1024 * u ^ 3) ≤ v ^ 2 * (1 - 1 / 8 * v - 3 / 128 * v ^ 2 - 15 / 1024 * v ^ 3) := by
  have h0 : 0 ≤ v - u := by linarith
  have hv0 : 0 ≤ v := by linarith
  have hu1 : u ≤ 1 := by linarith
  have hb : 0 ≤ (u + v) - 1 / 8 * (u ^ 2 + u * v + v ^ 2) - 3 / 128 * ((u + v) * (u ^ 2 + v ^ 2)) -
      15 / 1024 * (u ^ 4 + u ^ 3 * v + u ^ 2 * v ^ 2 + u * v ^ 3 + v ^ 4) := by
    have u2 : u ^ 2 ≤ u := by nlinarith
    have v2 : v ^ 2 ≤ v := by nlinarith
    have uv : u * v ≤ u := by nlinarith
    have c1 : (u + v) * (u ^ 2 + v ^ 2) ≤ (u + v) * 2 := by gcongr; linarith
    have u3 : u ^ 3 ≤ u := by nlinarith
    have v3 : v ^ 3 ≤ v := by nlinarith
    have q1 : u ^ 4 ≤ u := by nlinarith
    have q2 : u ^ 3 * v ≤ u * 1 := by gcongr
    have q3 : u ^ 2 * v ^ 2 ≤ u * 1 := by gcongr; linarith
    have q4 : u * v ^ 3 ≤ u * 1 := by gcongr; linarith
    have q5 : v ^ 4 ≤ v := by nlinarith
    linarith
  have := mul_nonneg h0 hb
  nlinarith [this]

theorem large_eq (x : ℝ) (hx : 1 < x) :
    laueCoefficient x = 4 / π ^ 2 * ((1 / x) ^ 2 * (1 - 1 / 8 * (1 / x) - 3 / 128 * (1 / x) ^ 2 - 15 / 1024 * (1 / x) ^ 3)) := by
  unfold laueCoefficient
  rw [if_neg (by linarith)]
  have hp := pi_pos
  field_simp
  ring

theorem small_eq (x : ℝ) (hx : x ≤ 1) : laueCoefficient x = 1 - 1 / 2 * x + 1 / 4 * x ^ 2 - 5 / 48 * x ^ 3 + 7 / 192 * x ^ 4 := by
  unfold laueCoefficient
  rw [if_pos hx]

theorem four_pi_sq : 4 / π ^ 2 < 41 / 100 := by
  have hp := pi_gt_d2
  rw [div_lt_div_iff₀ (by positivity) (by norm_num)]
  nlinarith

/-- The coefficient is one for small crystals, decreases with the size and stays positive. -/
theorem laueCoefficient_spec (x y : ℝ) (hx : 0 ≤ x) (hxy : x ≤ y) :
    laueCoefficient 0 = 1 ∧ 0 < laueCoefficient y ∧ laueCoefficient y ≤ laueCoefficient x ∧ laueCoefficient x ≤ 1 := by
  have hp := pi_pos
  have h0 : laueCoefficient 0 = 1 := by rw [small_eq 0 (by norm_num)]; norm_num
  have hsmall : ∀ z, 0 ≤ z → z ≤ 1 → 131 / 192 ≤ laueCoefficient z ∧ laueCoefficient z ≤ 1 := by
    intro z hz hz1
    rw [small_eq z hz1]
    have a := small_antitone z 1 hz hz1 le_rfl
    have b := small_antitone 0 z le_rfl hz hz1
    constructor <;> linarith
  have hlarge : ∀ z, 1 < z → 0 < laueCoefficient z ∧ laueCoefficient z < 41 / 100 := by
    intro z hz
    have hu0 : 0 < 1 / z := by positivity
    have hu1 : 1 / z ≤ 1 := by rw [div_le_one (by linarith)]; linarith
    rw [large_eq z hz]
    generalize 1 / z = u at hu0 hu1 ⊢
    have u2 : u ^ 2 ≤ 1 := by nlinarith
    have u3 : u ^ 3 ≤ 1 := by nlinarith
    have e1 : 0 < 1 - 1 / 8 * u - 3 / 128 * u ^ 2 - 15 / 1024 * u ^ 3 := by linarith
    have e2 : 1 - 1 / 8 * u - 3 / 128 * u ^ 2 - 15 / 1024 * u ^ 3 ≤ 1 := by
      have : 0 ≤ u ^ 2 := by positivity
      have : 0 ≤ u ^ 3 := by positivity
      linarith
    constructor
    · positivity
    · have h1 : u ^ 2 * (1 - 1 / 8 * u - 3 / 128 * u ^ 2 - 15 / 1024 * u ^ 3) ≤ 1 := by nlinarith [sq_nonneg u]
      have h2 : 0 < 4 / π ^ 2 := by positivity
      have := four_pi_sq
      nlinarith
  refine ⟨h0, ?_, ?_, ?_⟩
  · by_cases hy1 : y ≤ 1
    · linarith [(hsmall y (by linarith) hy1).1]
    · exact (hlarge y (by linarith)).1
  · by_cases hy1 : y ≤ 1
    · rw [small_eq y hy1, small_eq x (by linarith)]
      exact small_antitone x y hx hxy hy1
    · push Not at hy1
      by_cases hx1 : x ≤ 1
      · linarith [(hsmall x hx hx1).1, (hlarge y hy1).2]
      · push Not at hx1
        rw [large_eq y hy1, large_eq x hx1]
        have hm := large_monotone (1 / y) (1 / x) (by positivity) (one_div_le_one_div_of_le (by linarith) hxy)
          (by rw [div_le_one (by linarith)]; linarith)
        gcongr
  · by_cases hx1 : x ≤ 1
    · exact (hsmall x hx hx1).2
    · linarith [(hlarge x (by linarith)).2]

theorem braggFactor_antitone (x y t : ℝ) (hx : 0 ≤ x) (hxy : x ≤ y) : braggFactor y t ≤ braggFactor x t := by
  unfold braggFactor
  have : 0 < √(1 + x) := sqrt_pos.mpr (by linarith)
  gcongr

/-- C115, extinction: the factor is positive, at most one, is one for vanishing crystals, and does not increase with the size of the
crystals nor with the strength of the reflection. -/
theorem extinction_spec (k v w f f' d d' t : ℝ) (hf : 0 ≤ f) (hff : f ≤ f') (hd : 0 ≤ d) (hdd : d ≤ d') :
    0 < extinction k v w f' d' t ∧ extinction k v w f' d' t ≤ extinction k v w f d t ∧ extinction k v w f d t ≤ 1 ∧
    extinction k v w f 0 t = 1 := by
  have hx : 0 ≤ xFactor k v w f d := by unfold xFactor; positivity
  have hxy : xFactor k v w f d ≤ xFactor k v w f' d' := by
    unfold xFactor
    have h1 : (k * w * d / v) ^ 2 ≤ (k * w * d' / v) ^ 2 := by
      rw [show k * w * d / v = (k * w / v) * d by ring, show k * w * d' / v = (k * w / v) * d' by ring, mul_pow, mul_pow]
      gcongr
    have hf' : 0 ≤ f' := by linarith
    gcongr
  have hzero : xFactor k v w f 0 = 0 := by unfold xFactor; ring
  have hcs := sin_sq_add_cos_sq (radians (t * (1 / 2)))
  have hb0 : braggFactor 0 t = sin (radians (t * (1 / 2))) ^ 2 := by unfold braggFactor; simp
  unfold extinction laueFactor
  simp only []
  rw [hzero]
  generalize xFactor k v w f d = x at *
  generalize xFactor k v w f' d' = y at *
  obtain ⟨l0, l1, l2, l3⟩ := laueCoefficient_spec x y hx hxy
  have hc : 0 ≤ cos (radians (t * (1 / 2))) ^ 2 := sq_nonneg _
  have hs : 0 ≤ sin (radians (t * (1 / 2))) ^ 2 := sq_nonneg _
  refine ⟨?_, ?_, ?_, ?_⟩
  · rcases lt_or_eq_of_le hc with h | h
    · have h1 : 0 ≤ braggFactor y t := by unfold braggFactor; positivity
      have := mul_pos l1 h
      linarith
    · have hs1 : sin (radians (t * (1 / 2))) ^ 2 = 1 := by linarith
      have h1 : 0 < braggFactor y t := by
        unfold braggFactor
        rw [hs1]
        have : 0 < √(1 + y) := sqrt_pos.mpr (by linarith)
        positivity
      rw [← h]
      linarith
  · have := braggFactor_antitone x y t hx hxy
    have := mul_le_mul_of_nonneg_right l2 hc
    linarith
  · have h1 := braggFactor_antitone 0 x t le_rfl hx
    have h2 := mul_le_mul_of_nonneg_right l3 hc
    linarith
  · rw [hb0, l0]
    linarith

/-- C115, where the formula is wrong: Sabine's coefficient has the square root of 2/(pi x) where the code has the square of it; so it falls
from 0.68 to less than 0.41 at the border of the two formulas, and the code's value is smaller than Sabine's for all larger crystals. -/
theorem laueCoefficient_jump :
    laueCoefficient 1 = 131 / 192 ∧ (∀ x, 1 < x → laueCoefficient x < 41 / 100) ∧
    ∀ x, 1 < x → laueCoefficient x < sabineLarge x := by
  have hp := pi_pos
  have hp3 := pi_gt_three
  have hlt : ∀ x, 1 < x → laueCoefficient x < 41 / 100 := by
    intro x hx
    have hu0 : 0 < 1 / x := by positivity
    have hu1 : 1 / x ≤ 1 := by rw [div_le_one (by linarith)]; linarith
    rw [large_eq x hx]
    generalize 1 / x = u at hu0 hu1 ⊢
    have h2 : u ^ 2 ≤ 1 := by nlinarith
    have h3 : 0 ≤ u ^ 3 := by positivity
    have h1 : u ^ 2 * (1 - 1 / 8 * u - 3 / 128 * u ^ 2 - 15 / 1024 * u ^ 3) ≤ 1 := by nlinarith [sq_nonneg u]
    have h4 : 0 < 4 / π ^ 2 := by positivity
    have := four_pi_sq
    nlinarith
  refine ⟨by rw [small_eq 1 le_rfl]; norm_num, hlt, ?_⟩
  intro x hx
  have hx0 : 0 < x := by linarith
  unfold laueCoefficient sabineLarge
  rw [if_neg (by linarith)]
  have e : 1 - 1 / 8 / x - 3 / 128 * (1 / x) ^ 2 - 15 / 1024 * (1 / x) ^ 3 = 1 - 1 / (8 * x) - 3 / (128 * x ^ 2) - 15 / (1024 * x ^ 3) := by
    field_simp
  rw [e]
  have hpos : 0 < 1 - 1 / (8 * x) - 3 / (128 * x ^ 2) - 15 / (1024 * x ^ 3) := by
    rw [← e]
    have hu0 : 0 < 1 / x := by positivity
    have hu1 : 1 / x ≤ 1 := by rw [div_le_one (by linarith)]; linarith
    rw [div_div, show 1 / (8 * x) = 1 / 8 * (1 / x) by field_simp]
    generalize 1 / x = u at hu0 hu1 ⊢
    have u2 : u ^ 2 ≤ 1 := by nlinarith
    have u3 : u ^ 3 ≤ 1 := by nlinarith
    linarith
  apply mul_lt_mul_of_pos_right _ hpos
  have hz0 : 0 < 2 / (π * x) := by positivity
  have hz1 : 2 / (π * x) < 1 := by
    rw [div_lt_one (by positivity)]
    nlinarith
  rw [div_div]
  generalize 2 / (π * x) = z at hz0 hz1 ⊢
  apply lt_sqrt_of_sq_lt
  have : z ^ 2 < 1 := by nlinarith
  nlinarith [sq_nonneg z]

/-! ## Absorption -/

/-- C115, absorption of a plate at a right angle to the beam: the mean transmission over the depth. -/
theorem absorption_flat (a tth phi w : ℝ) (h : |radians phi| ≤ 1 / 1000) :
    absorption a tth phi w = some (Hexrd.Transmission.Spec.meanTransmission (a * w / cos (radians tth * (1 / 2))) (a * w / cos (radians tth * (1 / 2)))) := by
  unfold absorption
  simp only []
  rw [if_pos h]
  congr 1
  unfold Hexrd.Transmission.Spec.meanTransmission
  have : ∀ u : ℝ, exp (-(a * w / cos (radians tth * (1 / 2)) * u + a * w / cos (radians tth * (1 / 2)) * (1 - u))) =
      exp (-a * w / cos (radians tth * (1 / 2))) := by
    intro u
    congr 1
    ring
  simp only [this]
  simp

/-- C115, absorption of a tilted plate: the mean transmission over the depth, divided by the cosine of the angle of exit. -/
theorem absorption_tilted (a tth phi w : ℝ) (h : 1 / 1000 < |radians phi|) (ha : a * w ≠ 0)
    (hc1 : cos (radians tth * (1 / 2) + radians phi) ≠ 0) (hc2 : 1 / 1000 < |cos (radians tth * (1 / 2) - radians phi)|)
    (hne : cos (radians tth * (1 / 2) + radians phi) ≠ cos (radians tth * (1 / 2) - radians phi)) :
    absorption a tth phi w = some (Hexrd.Transmission.Spec.meanTransmission (a * w / cos (radians tth * (1 / 2) - radians phi))
      (a * w / cos (radians tth * (1 / 2) + radians phi)) / cos (radians tth * (1 / 2) + radians phi)) := by
  unfold absorption
  simp only []
  rw [if_neg (by linarith), if_pos hc2]
  generalize cos (radians tth * (1 / 2) + radians phi) = c1 at *
  generalize cos (radians tth * (1 / 2) - radians phi) = c2 at *
  have hc20 : c2 ≠ 0 := by
    rintro rfl
    rw [abs_zero] at hc2
    linarith
  have hf3 : -a * w * (1 - c1 / c2) ≠ 0 := by
    apply mul_ne_zero
    · rw [neg_mul]; exact neg_ne_zero.mpr ha
    · intro h0
      apply hne
      have : c1 / c2 = 1 := by linarith
      rwa [div_eq_one_iff_eq hc20] at this
  rw [if_neg hf3]
  congr 1
  have hpq : a * w / c2 ≠ a * w / c1 := by
    intro h0
    apply hne
    rw [div_eq_div_iff hc20 hc1] at h0
    exact mul_left_cancel₀ ha h0
  rw [Hexrd.Transmission.exp_integral _ _ hpq, div_div]
  rw [show -a * w / c1 = -(a * w / c1) by ring, show -a * w / c2 = -(a * w / c2) by ring]
  congr 1
  field_simp
  ring

/-- C115, where the absorption is wrong: behind a tilted plate that absorbs, more comes out than went in. -/
theorem absorption_amplifies : ∃ v, absorption (1 / 100) 60 30 1 = some v ∧ 1 < v := by
  have e1 : radians 60 * (1 / 2) + radians 30 = π / 3 := by unfold radians; ring
  have e2 : radians 60 * (1 / 2) - radians 30 = 0 := by unfold radians; ring
  have hr : radians 30 = π / 6 := by unfold radians; ring
  have hp := pi_gt_three
  have h := absorption_tilted (1 / 100) 60 30 1 (by rw [hr, abs_of_pos (by positivity)]; linarith) (by norm_num)
    (by rw [e1, cos_pi_div_three]; norm_num) (by rw [e2, cos_zero, abs_one]; norm_num)
    (by rw [e1, e2, cos_pi_div_three, cos_zero]; norm_num)
  refine ⟨_, h, ?_⟩
  rw [e1, e2, cos_pi_div_three, cos_zero, Hexrd.Transmission.exp_integral _ _ (by norm_num)]
  have a1 := add_one_le_exp (-(1 / 100 : ℝ))
  have a2 : exp (-(1 / 50 : ℝ)) = exp (-(1 / 100 : ℝ)) * exp (-(1 / 100 : ℝ)) := by rw [← exp_add]; norm_num
  have a3 : exp (-(1 / 100 : ℝ)) * exp (1 / 100 : ℝ) = 1 := by rw [← exp_add]; norm_num
  have a4 := add_one_le_exp (1 / 100 : ℝ)
  have a5 : exp (-(1 / 100 : ℝ)) ≤ 100 / 101 := by nlinarith [exp_pos (-(1 / 100 : ℝ))]
  norm_num
  norm_num at a1 a2 a5
  rw [a2]
  nlinarith

/-! ## Concrete cases -/

theorem bragg_sixty : Bragg 1 1 60 := by
  refine ⟨by norm_num, by norm_num, ?_⟩
  rw [show (60 : ℝ) / 2 * π / 180 = π / 6 by ring, sin_pi_div_six]
  norm_num

theorem bragg_ninety : Bragg 1 (√2 / 2) 90 := by
  refine ⟨by norm_num, by norm_num, ?_⟩
  rw [show (90 : ℝ) / 2 * π / 180 = π / 4 by ring, sin_pi_div_four]
  have : √2 * √2 = 2 := mul_self_sqrt (by norm_num)
  linarith

theorem sqrt_half_le : √2 / 2 ≤ 1 := by
  have : √2 ≤ 2 := by rw [sqrt_le_left (by norm_num)]; norm_num
  linarith

/-- Two reflections, at 60 and at 90 degrees. -/
noncomputable def pair : List Refl := [⟨1, 5⟩, ⟨√2 / 2, 7⟩]

theorem pair_pos : ∀ r ∈ pair, 0 < r.dsp := by
  intro r hr
  simp only [pair, List.mem_cons, List.not_mem_nil, or_false] at hr
  rcases hr with rfl | rfl <;> simp

theorem pair_sorted : pair.Pairwise fun a b => b.dsp ≤ a.dsp := by
  simp [pair, sqrt_half_le]

/-- Concrete case of `aligned_partial`: the window contains both reflections. -/
example : ∀ r ∈ pair, ∀ t, Bragg 1 r.dsp t → 50 ≤ t := by
  intro r hr t ht
  have hp := pair_pos r hr
  simp only [pair, List.mem_cons, List.not_mem_nil, or_false] at hr
  rcases hr with rfl | rfl
  · rw [bragg_unique 1 1 t 60 (by norm_num) hp ht bragg_sixty]; norm_num
  · rw [bragg_unique 1 _ t 90 (by norm_num) hp ht bragg_ninety]; norm_num

/-- C114, where the intensities are wrong: with the window from 70 to 100 degrees the reflection at 90 degrees gets the structure factor
of the one at 60 degrees. -/
theorem misaligned :
    inWindow 1 70 100 pair = [⟨√2 / 2, 7⟩] ∧
    computeIntensities 1 1 0 1 70 100 pair = [5 * lorentzPolarization 0 90] ∧
    ¬ List.Forall₂ (IsIntensity 1 1 0 1) (inWindow 1 70 100 pair) (computeIntensities 1 1 0 1 70 100 pair) := by
  have hn : ¬ InWindow 1 70 100 (1 : ℝ) := by
    rintro ⟨t, ht, h1, -⟩
    rw [bragg_unique 1 1 t 60 (by norm_num) (by norm_num) ht bragg_sixty] at h1
    norm_num at h1
  have hy : InWindow 1 70 100 (√2 / 2) := ⟨90, bragg_ninety, by norm_num, by norm_num⟩
  have hwin : inWindow 1 70 100 pair = [⟨√2 / 2, 7⟩] := by
    unfold pair
    rw [(inWindow_cons 1 70 100 ⟨1, 5⟩ _).2 hn, (inWindow_cons 1 70 100 ⟨√2 / 2, 7⟩ _).1 hy]
    rfl
  refine ⟨hwin, ?_, ?_⟩
  · obtain ⟨hl, hp⟩ := intensity_pairs 1 1 0 1 70 100 (by norm_num) pair pair_pos
    obtain ⟨t, ht, hc⟩ := hp 0 ⟨1, 5⟩ ⟨√2 / 2, 7⟩ rfl (by rw [hwin]; rfl)
    rw [bragg_unique 1 _ t 90 (by norm_num) (by positivity) ht bragg_ninety] at hc
    rw [hwin] at hl
    cases hx : computeIntensities 1 1 0 1 70 100 pair with
    | nil => rw [hx] at hl; simp at hl
    | cons a as =>
      rw [hx] at hl hc
      have : as = [] := by
        cases as with
        | nil => rfl
        | cons b bs => simp at hl
      subst this
      simp only [List.getElem?_cons_zero, Option.some.injEq] at hc
      rw [hc]
      norm_num
  · rw [aligned_iff 1 1 0 1 70 100 (by norm_num) le_rfl (by norm_num) (by norm_num) pair pair_pos]
    intro h
    have := h 0 ⟨1, 5⟩ ⟨√2 / 2, 7⟩ rfl (by rw [hwin]; rfl)
    norm_num at this

end Hexrd.Rietveld
