import Verif.Model.Transforms
import Verif.Spec.Transforms
import Mathlib.Analysis.Real.Pi.Bounds

/-!
C47: `validate_angle_ranges` marks an angle exactly when it lies on the arc of one of the ranges.
-/

namespace Hexrd.Transforms

open Spec

theorem twoPi_pos : 0 < 2 * Real.pi := by positivity

theorem whileNeg_spec (x : ℝ) : (∃ k : ℕ, whileNeg x = x + 2 * Real.pi * k) ∧ 0 ≤ whileNeg x ∧
    (0 ≤ x → whileNeg x = x) ∧ (x < 0 → whileNeg x < 2 * Real.pi) := by
  induction x using whileNeg.induct with
  | case1 x h ih =>
    rw [whileNeg, if_pos h]
    obtain ⟨⟨k, hk⟩, h0, h1, h2⟩ := ih
    refine ⟨⟨k + 1, by rw [hk]; push_cast; ring⟩, h0, fun hx => absurd h (not_lt.2 hx), fun _ => ?_⟩
    by_cases hx : x + 2 * Real.pi < 0
    · exact h2 hx
    · rw [h1 (not_lt.1 hx)]; linarith
  | case2 x h =>
    rw [whileNeg, if_neg h]
    exact ⟨⟨0, by simp⟩, not_lt.1 h, fun _ => rfl, fun hx => absurd hx h⟩

theorem whileOver_spec (x : ℝ) : (∃ k : ℕ, whileOver x = x - 2 * Real.pi * k) ∧ whileOver x ≤ 2 * Real.pi ∧
    (x ≤ 2 * Real.pi → whileOver x = x) ∧ (2 * Real.pi < x → 0 < whileOver x) := by
  induction x using whileOver.induct with
  | case1 x h ih =>
    rw [whileOver, if_pos h]
    obtain ⟨⟨k, hk⟩, h0, h1, h2⟩ := ih
    refine ⟨⟨k + 1, by rw [hk]; push_cast; ring⟩, h0, fun hx => absurd h (not_lt.2 hx), fun _ => ?_⟩
    by_cases hx : x - 2 * Real.pi > 2 * Real.pi
    · exact h2 hx
    · rw [h1 (not_lt.1 hx)]; linarith [h]
  | case2 x h =>
    rw [whileOver, if_neg h]
    exact ⟨⟨0, by simp⟩, not_lt.1 h, fun _ => rfl, fun hx => absurd hx h⟩

/-- The two loops together bring an angle into `[0, 2π]`. -/
noncomputable def wrap (x : ℝ) : ℝ := whileOver (whileNeg x)

theorem wrap_nonneg (x : ℝ) : 0 ≤ wrap x := by
  obtain ⟨-, h0, -, -⟩ := whileNeg_spec x
  obtain ⟨-, -, h1, h2⟩ := whileOver_spec (whileNeg x)
  unfold wrap
  by_cases h : whileNeg x ≤ 2 * Real.pi
  · rw [h1 h]; exact h0
  · exact (h2 (not_le.1 h)).le

theorem wrap_le (x : ℝ) : wrap x ≤ 2 * Real.pi := (whileOver_spec _).2.1

theorem wrap_same (x : ℝ) : ∃ k : ℤ, wrap x = x + 2 * Real.pi * k := by
  obtain ⟨⟨k, hk⟩, -⟩ := whileNeg_spec x
  obtain ⟨⟨m, hm⟩, -⟩ := whileOver_spec (whileNeg x)
  exact ⟨(k : ℤ) - m, by unfold wrap; rw [hm, hk]; push_cast; ring⟩

/-- Two numbers of `[0, 2π]` that differ by whole turns are equal or are the two ends. -/
theorem same_cases {a b : ℝ} (ha : 0 ≤ a) (ha' : a ≤ 2 * Real.pi) (hb : 0 ≤ b) (hb' : b ≤ 2 * Real.pi) {k : ℤ}
    (h : a = b + 2 * Real.pi * k) : a = b ∨ (a = 0 ∧ b = 2 * Real.pi) ∨ (a = 2 * Real.pi ∧ b = 0) := by
  have hp := twoPi_pos
  have h1 : (k : ℝ) ≤ 1 := by
    by_contra hk; push Not at hk
    nlinarith
  have h2 : (-1 : ℝ) ≤ k := by
    by_contra hk; push Not at hk
    nlinarith
  have h1' : k ≤ 1 := by exact_mod_cast h1
  have h2' : -1 ≤ k := by exact_mod_cast h2
  have : k = -1 ∨ k = 0 ∨ k = 1 := by omega
  rcases this with rfl | rfl | rfl
  · right; left
    push_cast at h
    constructor <;> linarith
  · left; push_cast at h; linarith
  · right; right
    push_cast at h
    constructor <;> linarith

/-- The wrapped value is the unique representative in `(0, 2π)`. -/
theorem wrap_eq_of_mem {x t : ℝ} (h0 : 0 < t) (h1 : t < 2 * Real.pi) (h : SameAngle x t) : wrap x = t := by
  obtain ⟨k, hk⟩ := h
  obtain ⟨m, hm⟩ := wrap_same x
  have : wrap x = t + 2 * Real.pi * ((k + m : ℤ) : ℝ) := by rw [hm, hk]; push_cast; ring
  rcases same_cases (wrap_nonneg x) (wrap_le x) h0.le h1.le this with h | h | h
  · exact h
  · linarith [h.2]
  · linarith [h.2]

/-- A whole number of turns is wrapped to `0` if it is not positive and to `2π` if it is positive. -/
theorem wrap_turns (m : ℤ) : wrap (2 * Real.pi * m) = if 0 < m then 2 * Real.pi else 0 := by
  have hp := twoPi_pos
  obtain ⟨k, hk⟩ := wrap_same (2 * Real.pi * m)
  have hz : wrap (2 * Real.pi * m) = 0 + 2 * Real.pi * ((m + k : ℤ) : ℝ) := by rw [hk]; push_cast; ring
  by_cases hm : 0 < m
  · rw [if_pos hm]
    have hpos : 0 < wrap (2 * Real.pi * m) := by
      have hm' : (1 : ℝ) ≤ m := by exact_mod_cast hm
      have hx : 0 ≤ 2 * Real.pi * (m : ℝ) := by positivity
      unfold wrap
      rw [(whileNeg_spec _).2.2.1 hx]
      by_cases h : 2 * Real.pi * (m : ℝ) ≤ 2 * Real.pi
      · rw [(whileOver_spec _).2.2.1 h]; nlinarith
      · exact (whileOver_spec _).2.2.2 (not_le.1 h)
    rcases same_cases (wrap_nonneg _) (wrap_le _) le_rfl hp.le hz with h | h | h
    · linarith
    · linarith [h.1]
    · exact h.1
  · rw [if_neg hm]
    have hlt : wrap (2 * Real.pi * m) < 2 * Real.pi := by
      have hm' : (m : ℝ) ≤ 0 := by exact_mod_cast not_lt.1 hm
      have hx : 2 * Real.pi * (m : ℝ) ≤ 0 := by nlinarith
      have hw : whileNeg (2 * Real.pi * (m : ℝ)) < 2 * Real.pi := by
        rcases lt_or_eq_of_le hx with h | h
        · exact (whileNeg_spec _).2.2.2 h
        · rw [h, (whileNeg_spec 0).2.2.1 le_rfl]; exact hp
      unfold wrap
      rw [(whileOver_spec _).2.2.1 hw.le]; exact hw
    rcases same_cases (wrap_nonneg _) (wrap_le _) le_rfl hp.le hz with h | h | h
    · exact h
    · exact h.1
    · linarith [h.1]

theorem inRange_eq (ccw : Bool) (ang mn mx : ℝ) :
    inRange ccw ang mn mx = true ↔
      let start := if ccw then mn else mx
      let stop := if ccw then mx else mn
      |wrap (stop - start)| < sqrtEpsf ∨
      (|wrap (stop - start) - 2 * Real.pi| < sqrtEpsf ∧ ((ccw = true ∧ mx > mn) ∨ (ccw = false ∧ mx < mn))) ∨
      wrap (ang - start) ≤ wrap (stop - start) + sqrtEpsf := by
  unfold inRange
  have wd : ∀ x, whileOver (whileNeg x) = wrap x := fun _ => rfl
  simp only [wd]
  have hn : ∀ x, wrap x ≥ -sqrtEpsf := fun x => by
    have := wrap_nonneg x
    have h : 0 < sqrtEpsf := by unfold sqrtEpsf; positivity
    linarith
  by_cases h1 : |wrap ((if ccw then mx else mn) - if ccw then mn else mx)| < sqrtEpsf
  · simp [h1]
  · by_cases h2 : |wrap ((if ccw then mx else mn) - if ccw then mn else mx) - 2 * Real.pi| < sqrtEpsf ∧
      ((ccw = true ∧ mx > mn) ∨ (ccw = false ∧ mx < mn))
    · rw [if_neg h1, if_pos h2]
      exact ⟨fun _ => Or.inr (Or.inl h2), fun _ => rfl⟩
    · rw [if_neg h1, if_neg h2, decide_eq_true_iff]
      exact ⟨fun h => Or.inr (Or.inr h.2), fun h => ⟨hn _, (h.resolve_left h1).resolve_left h2⟩⟩

/-- The inner loop over the ranges is a search for a matching range. -/
theorem inRanges_iff (ccw : Bool) (ang : ℝ) (rs : List (ℝ × ℝ)) :
    inRanges ccw ang rs = true ↔ ∃ r ∈ rs, inRange ccw ang r.1 r.2 = true := by
  induction rs with
  | nil => simp [inRanges]
  | cons r rs ih =>
    rw [inRanges]
    by_cases h : inRange ccw ang r.1 r.2 = true
    · simp [h]
    · simp [h, ih]

/-- The range is neither empty nor a full circle, by at least the tolerance: the two ends are apart. -/
def EndsApart (r : ℝ × ℝ) : Prop := ∀ k : ℤ, sqrtEpsf ≤ |r.2 - r.1 - 2 * Real.pi * k|

theorem wrap_apart {x : ℝ} (h : ∀ k : ℤ, sqrtEpsf ≤ |x - 2 * Real.pi * k|) :
    sqrtEpsf ≤ wrap x ∧ wrap x ≤ 2 * Real.pi - sqrtEpsf := by
  obtain ⟨k, hk⟩ := wrap_same x
  have h0 := h (-k)
  have h1 := h (1 - k)
  push_cast at h0 h1
  have e0 : x - 2 * Real.pi * (-(k : ℝ)) = wrap x := by rw [hk]; ring
  have e1 : x - 2 * Real.pi * (1 - (k : ℝ)) = wrap x - 2 * Real.pi := by rw [hk]; ring
  rw [e0, abs_of_nonneg (wrap_nonneg x)] at h0
  rw [e1, abs_of_nonpos (by linarith [wrap_le x])] at h1
  exact ⟨h0, by linarith⟩

theorem arcLength_wrap (a b : ℝ) : ArcLength a b (wrap (b - a)) := by
  obtain ⟨k, hk⟩ := wrap_same (b - a)
  exact ⟨wrap_nonneg _, wrap_le _, -k, by rw [hk]; push_cast; ring⟩

theorem onArc_wrap {a ang len : ℝ} (h : wrap (ang - a) ≤ len + sqrtEpsf) : OnArc sqrtEpsf a len ang := by
  obtain ⟨k, hk⟩ := wrap_same (ang - a)
  have hp : 0 < sqrtEpsf := by unfold sqrtEpsf; positivity
  exact ⟨wrap (ang - a), by linarith [wrap_nonneg (ang - a)], h, -k, by rw [hk]; push_cast; ring⟩

theorem endsApart_swap {a b : ℝ} (h : EndsApart (a, b)) (k : ℤ) : sqrtEpsf ≤ |a - b - 2 * Real.pi * k| := by
  have := h (-k)
  rw [← abs_neg]
  convert this using 2
  push_cast; ring

theorem inRange_apart {ccw : Bool} {ang a b : ℝ} (h : EndsApart (a, b)) :
    inRange ccw ang a b = true ↔
      wrap (ang - (if ccw then a else b)) ≤ wrap ((if ccw then b else a) - (if ccw then a else b)) + sqrtEpsf := by
  rw [inRange_eq]
  simp only
  have hw : sqrtEpsf ≤ wrap ((if ccw then b else a) - if ccw then a else b) ∧
      wrap ((if ccw then b else a) - if ccw then a else b) ≤ 2 * Real.pi - sqrtEpsf := by
    apply wrap_apart
    intro k
    cases ccw
    · simpa using endsApart_swap h k
    · simpa using h k
  constructor
  · rintro (h1 | h1 | h1)
    · rw [abs_of_nonneg (wrap_nonneg _)] at h1; linarith [hw.1]
    · have h2 := h1.1
      rw [abs_of_nonpos (by linarith [wrap_le ((if ccw then b else a) - if ccw then a else b)])] at h2
      linarith [hw.2]
    · exact h1
  · exact fun h1 => Or.inr (Or.inr h1)

/-- C47, only angles in a range are marked: if every range has its ends apart, a marked angle lies, within the
tolerance and modulo full turns, on the arc of one of the ranges, in the requested direction. -/
theorem marked_lies_in_a_range {angs : List ℝ} {ranges : List (ℝ × ℝ)} {ccw : Bool}
    (hr : ∀ r ∈ ranges, EndsApart r) {i : Nat} (hi : (validateAngleRanges angs ranges ccw)[i]? = some true) :
    ∃ ang, angs[i]? = some ang ∧ ∃ r ∈ ranges, Between sqrtEpsf ccw r.1 r.2 ang := by
  rw [validateAngleRanges, List.getElem?_map, Option.map_eq_some_iff] at hi
  obtain ⟨ang, ha, hi⟩ := hi
  obtain ⟨r, hrm, h⟩ := (inRanges_iff _ _ _).1 hi
  refine ⟨ang, ha, r, hrm, ?_⟩
  have h' := (inRange_apart (hr r hrm)).1 h
  cases ccw
  · simp only [Bool.false_eq_true, if_false] at h'
    simp only [Between, Bool.false_eq_true, if_false]
    exact ⟨_, arcLength_wrap _ _, onArc_wrap h'⟩
  · simp only [if_true] at h'
    simp only [Between, if_true]
    exact ⟨_, arcLength_wrap _ _, onArc_wrap h'⟩

/-- The end at which the arc begins when it is followed counter-clockwise. -/
def arcStart (ccw : Bool) (r : ℝ × ℝ) : ℝ := if ccw then r.1 else r.2

theorem wrap_le_of_onArc {a b ang len : ℝ} (hl : ArcLength a b len) (ho : OnArc 0 a len ang)
    (hne : ∀ m : ℤ, 0 < m → ang ≠ a + 2 * Real.pi * m) (hab : ∀ k : ℤ, sqrtEpsf ≤ |b - a - 2 * Real.pi * k|) :
    wrap (ang - a) ≤ wrap (b - a) + sqrtEpsf := by
  have hp : 0 < sqrtEpsf := by unfold sqrtEpsf; positivity
  obtain ⟨hl0, hl1, k, hk⟩ := hl
  obtain ⟨t, ht0, ht1, m, hm⟩ := ho
  have hlen : wrap (b - a) = len := by
    have h0 : 0 < len := by
      rcases lt_or_eq_of_le hl0 with h | h
      · exact h
      · have := hab k
        rw [hk, ← h] at this
        simp at this; linarith
    have h1 : len < 2 * Real.pi := by
      rcases lt_or_eq_of_le hl1 with h | h
      · exact h
      · have := hab (1 + k)
        rw [hk, h] at this
        push_cast at this
        rw [show a + 2 * Real.pi + 2 * Real.pi * (k : ℝ) - a - 2 * Real.pi * (1 + (k : ℝ)) = 0 by ring] at this
        simp at this; linarith
    exact wrap_eq_of_mem h0 h1 ⟨k, by rw [hk]; ring⟩
  rw [hlen]
  simp only [neg_zero, add_zero] at ht0 ht1
  have hlen2 := wrap_apart hab
  rw [hlen] at hlen2
  rcases lt_or_eq_of_le ht0 with h | h
  · rw [wrap_eq_of_mem h (by linarith [hlen2.2]) ⟨m, by rw [hm]; ring⟩]; linarith
  · have : ang - a = 2 * Real.pi * m := by rw [hm, ← h]; ring
    rw [this, wrap_turns]
    by_cases hmp : 0 < m
    · exact absurd (by rw [hm, ← h]; ring) (hne m hmp)
    · rw [if_neg hmp]; linarith

/-- C47, angles in a range are marked.  The full property has no exception; the code misses the first end of the
arc when the angle is given one or more full turns above it, so this theorem excludes those angles. -/
theorem in_range_marked_partial {angs : List ℝ} {ranges : List (ℝ × ℝ)} {ccw : Bool}
    {i : Nat} {ang : ℝ} (ha : angs[i]? = some ang) {r : ℝ × ℝ} (hr : r ∈ ranges) (hap : EndsApart r)
    (hb : Between 0 ccw r.1 r.2 ang) (hne : ∀ m : ℤ, 0 < m → ang ≠ arcStart ccw r + 2 * Real.pi * m) :
    (validateAngleRanges angs ranges ccw)[i]? = some true := by
  rw [validateAngleRanges, List.getElem?_map, ha, Option.map_some, Option.some.injEq, inRanges_iff]
  refine ⟨r, hr, (inRange_apart hap).2 ?_⟩
  cases ccw
  · simp only [Between, Bool.false_eq_true, if_false] at hb
    obtain ⟨len, hl, ho⟩ := hb
    simpa using wrap_le_of_onArc hl ho (by simpa [arcStart] using hne) (fun k => endsApart_swap hap k)
  · simp only [Between, if_true] at hb
    obtain ⟨len, hl, ho⟩ := hb
    simpa using wrap_le_of_onArc hl ho (by simpa [arcStart] using hne) (fun k => hap k)

/-- C47: a range that spans one or more full circles in the requested direction marks every angle. -/
theorem full_circle_marks_everything {angs : List ℝ} {ranges : List (ℝ × ℝ)} {ccw : Bool} {r : ℝ × ℝ}
    (hr : r ∈ ranges) {n : ℤ} (hn : r.2 = r.1 + 2 * Real.pi * n) {i : Nat} (hi : i < angs.length) :
    (validateAngleRanges angs ranges ccw)[i]? = some true := by
  rw [validateAngleRanges, List.getElem?_map, List.getElem?_eq_getElem hi, Option.map_some, Option.some.injEq,
    inRanges_iff]
  refine ⟨r, hr, ?_⟩
  have hp : 0 < sqrtEpsf := by unfold sqrtEpsf; positivity
  rw [inRange_eq]
  have key : ∀ m : ℤ, wrap (2 * Real.pi * m) = 0 ∨ (wrap (2 * Real.pi * m) = 2 * Real.pi ∧ 0 < m) := by
    intro m; rw [wrap_turns]; by_cases h : 0 < m <;> simp [h]
  cases ccw
  · have e : r.1 - r.2 = 2 * Real.pi * ((-n : ℤ) : ℝ) := by rw [hn]; push_cast; ring
    simp only [Bool.false_eq_true, if_false, e]
    rcases key (-n) with h | ⟨h, h2⟩
    · left; rw [h]; simpa using hp
    · right; right; rw [h]; linarith [wrap_le (angs[i] - r.2)]
  · have e : r.2 - r.1 = 2 * Real.pi * (n : ℝ) := by rw [hn]; ring
    simp only [if_true, e]
    rcases key n with h | ⟨h, h2⟩
    · left; rw [h]; simpa using hp
    · right; right; rw [h]; linarith [wrap_le (angs[i] - r.1)]

theorem sqrtEpsf_lt : sqrtEpsf < 1 := by unfold sqrtEpsf; norm_num

theorem half_circle_apart : EndsApart (-Real.pi, 0) := by
  intro k
  have h3 := Real.pi_gt_three
  have e : (0 : ℝ) - -Real.pi - 2 * Real.pi * k = Real.pi * (1 - 2 * k : ℤ) := by push_cast; ring
  simp only [e, abs_mul, abs_of_pos Real.pi_pos]
  have hk : (1 : ℤ) ≤ |1 - 2 * k| := Int.one_le_abs (by omega)
  have hk' : (1 : ℝ) ≤ |((1 - 2 * k : ℤ) : ℝ)| := by rw [← Int.cast_abs]; exact_mod_cast hk
  nlinarith [sqrtEpsf_lt]

/-- C47 is false as stated: the angle `π` is the first end `-π` of the range from `-π` to `0`, one full turn later,
and it is rejected, while `-π` itself is accepted. -/
theorem first_end_a_turn_later_is_rejected :
    Between 0 true (-Real.pi) 0 Real.pi ∧
      validateAngleRanges [Real.pi] [(-Real.pi, 0)] true = [false] ∧
      validateAngleRanges [-Real.pi] [(-Real.pi, 0)] true = [true] := by
  have h3 := Real.pi_gt_three
  have hp : 0 < sqrtEpsf := by unfold sqrtEpsf; positivity
  have w0 : wrap (0 - -Real.pi) = Real.pi :=
    wrap_eq_of_mem Real.pi_pos (by linarith) ⟨0, by push_cast; ring⟩
  refine ⟨?_, ?_, ?_⟩
  · simp only [Between, if_true]
    exact ⟨Real.pi, ⟨by positivity, by linarith, 0, by push_cast; ring⟩, 0, by simp, by simp; positivity, 1,
      by push_cast; ring⟩
  · have : inRange true Real.pi (-Real.pi) 0 = false := by
      rw [← Bool.not_eq_true, inRange_apart half_circle_apart]
      simp only [if_true]
      rw [w0, show Real.pi - -Real.pi = 2 * Real.pi * ((1 : ℤ) : ℝ) by push_cast; ring, wrap_turns]
      simp; linarith [sqrtEpsf_lt]
    simp [validateAngleRanges, inRanges, this]
  · have : inRange true (-Real.pi) (-Real.pi) 0 = true := by
      rw [inRange_apart half_circle_apart]
      simp only [if_true]
      rw [w0, show -Real.pi - -Real.pi = 2 * Real.pi * ((0 : ℤ) : ℝ) by push_cast; ring, wrap_turns]
      simp; linarith
    simp [validateAngleRanges, inRanges, this]

/-- C47 is false as stated: a range shorter than the tolerance accepts every angle, even the opposite one. -/
theorem short_range_accepts_everything (a len ang : ℝ) (h0 : 0 ≤ len) (h1 : len < sqrtEpsf) :
    validateAngleRanges [ang] [(a, a + len)] true = [true] := by
  have h3 := Real.pi_gt_three
  have : inRange true ang a (a + len) = true := by
    rw [inRange_eq]
    left
    simp only [if_true, add_sub_cancel_left]
    have : wrap len = len := by
      unfold wrap
      rw [(whileNeg_spec len).2.2.1 h0, (whileOver_spec len).2.2.1 (by linarith [sqrtEpsf_lt])]
    rw [this, abs_of_nonneg h0]; exact h1
  simp [validateAngleRanges, inRanges, this]

/-- … although the opposite angle is nowhere near such a range. -/
theorem short_range_opposite_not_between (a len : ℝ) (h0 : 0 ≤ len) (h1 : len < sqrtEpsf) :
    ¬ Between sqrtEpsf true a (a + len) (a + Real.pi) ∨ len = 0 := by
  have h3 := Real.pi_gt_three
  have h4 := Real.pi_le_four
  have hp := twoPi_pos
  rcases eq_or_lt_of_le h0 with h | hpos
  · exact Or.inr h.symm
  left
  simp only [Between, if_true]
  rintro ⟨l, ⟨hl0, hl1, k, hk⟩, t, ht0, ht1, m, hm⟩
  have hl : l = len := by
    rcases same_cases h0 (by linarith [sqrtEpsf_lt]) hl0 hl1 (k := k) (by linarith) with h | h | h
    · exact h.symm
    · linarith [h.1]
    · linarith [h.1, sqrtEpsf_lt]
  rw [hl] at ht1
  have e : Real.pi = t + 2 * Real.pi * m := by linarith
  have hs := sqrtEpsf_lt
  have hm0 : (0 : ℝ) < m := by
    by_contra hc; push Not at hc
    nlinarith
  have hm1 : (m : ℝ) < 1 := by
    by_contra hc; push Not at hc
    nlinarith
  have a1 : (0 : ℤ) < m := by exact_mod_cast hm0
  have a2 : m < (1 : ℤ) := by exact_mod_cast hm1
  omega

/-- Concrete cases: quarter and three-quarter arcs of the range from `-π` to `0`. -/
example : validateAngleRanges [-Real.pi / 2] [(-Real.pi, 0)] true = [true] := by
  have hpi := Real.pi_pos
  have := in_range_marked_partial (angs := [-Real.pi / 2]) (ranges := [(-Real.pi, 0)]) (ccw := true) (i := 0)
    (ang := -Real.pi / 2) rfl (List.mem_singleton.2 rfl) half_circle_apart
    (by
      simp only [Between, if_true]
      exact ⟨Real.pi, ⟨by positivity, by linarith, 0, by push_cast; ring⟩, Real.pi / 2, by simp; positivity,
        by linarith, 0, by push_cast; ring⟩)
    (by
      intro m hm h
      have hm' : (1 : ℝ) ≤ m := by exact_mod_cast hm
      simp [arcStart] at h
      nlinarith)
  simp [validateAngleRanges] at this ⊢
  exact this

end Hexrd.Transforms
