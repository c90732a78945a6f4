import Verif.Model.ColorSpace
import Verif.Spec.ColorSpace
import Mathlib.Tactic.Linarith
import Mathlib.Tactic.Ring
import Mathlib.Tactic.NormNum
import Mathlib.Tactic.FieldSimp
import Mathlib.Tactic.FinCases
import Mathlib.Tactic.IntervalCases
import Mathlib.Tactic.Push
import Mathlib.Data.Fin.VecNotation
import Mathlib.Data.Fintype.EquivFin

/-!
C135: the conversions between hue, saturation, lightness and red, green, blue.
-/

namespace Hexrd.ColorSpace

open Spec

/-- The three values of a row. -/
def Row.val (r : Row) : Fin 3 → ℝ := ![r.a, r.b, r.c]

/-- The three values are between 0 and 1. -/
def Unit3 (r : Row) : Prop := ∀ i, 0 ≤ r.val i ∧ r.val i ≤ 1

/-- A value is 0, or 1, or further than the tolerance from both. -/
def Settled (x : ℝ) : Prop := x = 0 ∨ x = 1 ∨ (eps ≤ |x| ∧ eps ≤ |x - 1|)

theorem eps_pos : 0 < eps := by unfold eps; norm_num

theorem eps_small : eps < 1 / 4 := by unfold eps; norm_num

theorem val_ext {r r' : Row} (h : ∀ i, r.val i = r'.val i) : r = r' := by
  obtain ⟨a, b, c⟩ := r
  obtain ⟨a', b', c'⟩ := r'
  have h0 := h 0
  have h1 := h 1
  have h2 := h 2
  simp [Row.val] at h0 h1 h2
  rw [h0, h1, h2]

theorem snap_settled {x : ℝ} (h : Settled x) : snap x = x := by
  have he := eps_pos
  have hs := eps_small
  unfold snap
  rcases h with rfl | rfl | ⟨h1, h2⟩
  · rw [if_pos (c := |(0 : ℝ)| < eps) (by simpa using he), if_neg]
    norm_num; linarith
  · rw [if_neg (c := |(1 : ℝ)| < eps) (by norm_num; linarith), if_pos (by simpa using he)]
  · rw [if_neg (c := |x| < eps) (not_lt.2 h1), if_neg (not_lt.2 h2)]

/-- What the snapping does. -/
theorem snap_cases (x : ℝ) : Settled (snap x) ∧ |snap x - x| < eps := by
  have he := eps_pos
  have hs := eps_small
  unfold snap
  by_cases h1 : |x| < eps
  · rw [if_pos h1, if_neg (by norm_num; linarith)]
    exact ⟨Or.inl rfl, by simpa using h1⟩
  · rw [if_neg h1]
    by_cases h2 : |x - 1| < eps
    · rw [if_pos h2]
      exact ⟨Or.inr (Or.inl rfl), by rwa [abs_sub_comm]⟩
    · rw [if_neg h2]
      exact ⟨Or.inr (Or.inr ⟨not_lt.1 h1, not_lt.1 h2⟩), by simpa using he⟩

theorem snap_range (x : ℝ) : (0 ≤ snap x ∧ snap x ≤ 1) ↔ -eps < x ∧ x < 1 + eps := by
  have he := eps_pos
  have hs := eps_small
  unfold snap
  by_cases h1 : |x| < eps
  · rw [if_pos h1, if_neg (by norm_num; linarith)]
    rw [abs_lt] at h1
    constructor
    · intro _; constructor <;> linarith [h1.1, h1.2]
    · intro _; norm_num
  · rw [if_neg h1]
    by_cases h2 : |x - 1| < eps
    · rw [if_pos h2]
      rw [abs_lt] at h2
      constructor
      · intro _; constructor <;> linarith [h2.1, h2.2]
      · intro _; norm_num
    · rw [if_neg h2]
      rw [abs_lt, not_and_or, not_lt, not_lt] at h1 h2
      constructor
      · rintro ⟨a, b⟩; constructor <;> linarith
      · rintro ⟨a, b⟩
        rcases h1 with h1 | h1 <;> rcases h2 with h2 | h2 <;> constructor <;> linarith

theorem clip_range (x : ℝ) : 0 ≤ clip x ∧ clip x ≤ 1 := by
  unfold clip
  by_cases h : x < 0
  · rw [if_pos h, if_neg (by norm_num)]; norm_num
  · rw [if_neg h]
    by_cases h1 : x > 1
    · rw [if_pos h1]; norm_num
    · rw [if_neg h1]; exact ⟨not_lt.1 h, not_lt.1 h1⟩

theorem clip_of {x : ℝ} (h0 : 0 ≤ x) (h1 : x ≤ 1) : clip x = x := by
  unfold clip
  rw [if_neg (not_lt.2 h0), if_neg (not_lt.2 h1)]

theorem fmod_floor {x : ℝ} {m : ℝ} {n : ℤ} (hm : 0 < m) (h : m * n ≤ x) (h' : x < m * (n + 1)) : fmod x m = x - m * n := by
  unfold fmod
  have : ⌊x / m⌋ = n := by
    rw [Int.floor_eq_iff]
    constructor
    · rw [le_div_iff₀ hm]; linarith
    · rw [div_lt_iff₀ hm]; linarith
  rw [this]

theorem fmod_range (x : ℝ) {m : ℝ} (hm : 0 < m) : 0 ≤ fmod x m ∧ fmod x m < m := by
  unfold fmod
  have h1 := Int.floor_le (x / m)
  have h2 := Int.lt_floor_add_one (x / m)
  rw [le_div_iff₀ hm] at h1
  rw [div_lt_iff₀ hm] at h2
  constructor <;> linarith

/-! ### The wheel -/

theorem corner_range (k : Fin 6) (i : Fin 3) : 0 ≤ corner k i ∧ corner k i ≤ 1 := by
  fin_cases k <;> fin_cases i <;> simp [corner]

theorem pure_range {h : ℝ} {p : Fin 3 → ℝ} (hp : Pure h p) (i : Fin 3) : 0 ≤ p i ∧ p i ≤ 1 := by
  obtain ⟨k, t, n, h0, h1, -, e⟩ := hp
  obtain ⟨a, b⟩ := corner_range k i
  obtain ⟨a', b'⟩ := corner_range (k + 1) i
  rw [e]
  constructor
  · have := mul_nonneg (sub_nonneg.2 h1) a
    have := mul_nonneg h0 a'
    linarith
  · have := mul_le_mul_of_nonneg_left b (sub_nonneg.2 h1)
    have := mul_le_mul_of_nonneg_left b' h0
    linarith

/-- A pure colour has a component 1 and a component 0. -/
theorem pure_extremes {h : ℝ} {p : Fin 3 → ℝ} (hp : Pure h p) : (∃ i, p i = 1) ∧ ∃ i, p i = 0 := by
  obtain ⟨k, t, n, h0, h1, -, e⟩ := hp
  fin_cases k <;> simp only [e] <;> constructor
  all_goals first
    | (refine ⟨0, ?_⟩; simp [corner]; done)
    | (refine ⟨1, ?_⟩; simp [corner]; done)
    | (refine ⟨2, ?_⟩; simp [corner])

/-- A hue has one pure colour. -/
theorem pure_unique {h : ℝ} {p p' : Fin 3 → ℝ} (hp : Pure h p) (hp' : Pure h p') : p = p' := by
  obtain ⟨k, t, n, h0, h1, e, f⟩ := hp
  obtain ⟨k', t', n', h0', h1', e', f'⟩ := hp'
  have hd : (((k'.val : ℤ) - k.val + 6 * (n' - n) : ℤ) : ℝ) = t - t' := by push_cast; linarith
  generalize hD : ((k'.val : ℤ) - k.val + 6 * (n' - n) : ℤ) = d at hd
  have d1 : d ≤ 1 := by
    have : (d : ℝ) ≤ 1 := by linarith
    exact_mod_cast this
  have d2 : -1 ≤ d := by
    have : (-1 : ℝ) ≤ d := by linarith
    exact_mod_cast this
  ext i
  rw [f, f']
  clear f f' e e'
  have hd3 : d = -1 ∨ d = 0 ∨ d = 1 := by omega
  rcases hd3 with rfl | rfl | rfl
  · have : t = 0 ∧ t' = 1 := by constructor <;> push_cast at hd <;> linarith
    obtain ⟨rfl, rfl⟩ := this
    fin_cases k <;> fin_cases k' <;> first | (exfalso; simp at hD; omega) | (fin_cases i <;> simp [corner])
  · have : t' = t := by push_cast at hd; linarith
    subst this
    fin_cases k <;> fin_cases k' <;> first | rfl | (exfalso; simp at hD; omega)
  · have : t = 1 ∧ t' = 0 := by constructor <;> push_cast at hd <;> linarith
    obtain ⟨rfl, rfl⟩ := this
    fin_cases k <;> fin_cases k' <;> first | (exfalso; simp at hD; omega) | (fin_cases i <;> simp [corner])

/-- A pure colour has one hue, up to turns. -/
theorem hue_unique {h h' : ℝ} {p : Fin 3 → ℝ} (hp : Pure h p) (hp' : Pure h' p) : ∃ n : ℤ, h = h' + n := by
  obtain ⟨k, t, n, h0, h1, e, f⟩ := hp
  obtain ⟨k', t', n', h0', h1', e', f'⟩ := hp'
  have g : ∀ i, (1 - t) * corner k i + t * corner (k + 1) i = (1 - t') * corner k' i + t' * corner (k' + 1) i := by
    intro i; rw [← f, ← f']
  have g0 := g 0
  have g1 := g 1
  have g2 := g 2
  clear f f' g
  fin_cases k <;> fin_cases k' <;> simp [corner] at g0 g1 g2 e e' <;>
    first
    | (exfalso; linarith)
    | (refine ⟨n - n', ?_⟩; push_cast; linarith)
    | (refine ⟨n - n' + 1, ?_⟩; push_cast; linarith)
    | (refine ⟨n - n' - 1, ?_⟩; push_cast; linarith)

/-- The same colour, as an interval that the pure colour is mapped to. -/
theorem isColor_iff {h s l : ℝ} {c : Fin 3 → ℝ} :
    IsColor h s l c ↔ ∃ p, Pure h p ∧ ∀ i, c i = l - (1 - |2 * l - 1|) * s / 2 + (1 - |2 * l - 1|) * s * p i := by
  unfold IsColor
  refine exists_congr fun p => and_congr_right fun _ => ?_
  constructor
  · rintro (⟨hl, e⟩ | ⟨hl, e⟩) i
    · rw [e, abs_of_nonpos (by linarith)]; ring
    · rw [e, abs_of_nonneg (by linarith)]; ring
  · intro e
    rcases le_total l (1 / 2) with hl | hl
    · refine Or.inl ⟨hl, fun i => ?_⟩
      rw [e, abs_of_nonpos (by linarith)]; ring
    · refine Or.inr ⟨hl, fun i => ?_⟩
      rw [e, abs_of_nonneg (by linarith)]; ring

theorem color_unique {h s l : ℝ} {c c' : Fin 3 → ℝ} (hc : IsColor h s l c) (hc' : IsColor h s l c') : c = c' := by
  rw [isColor_iff] at hc hc'
  obtain ⟨p, hp, e⟩ := hc
  obtain ⟨p', hp', e'⟩ := hc'
  ext i
  rw [e, e', pure_unique hp hp']

/-! ### To red, green, blue -/

theorem chroma_range {s l : ℝ} (hs0 : 0 ≤ s) (hs1 : s ≤ 1) (h0 : 0 ≤ l) (h1 : l ≤ 1) :
    0 ≤ (1 - |2 * l - 1|) * s ∧ 0 ≤ l - (1 - |2 * l - 1|) * s / 2 ∧ l + (1 - |2 * l - 1|) * s / 2 ≤ 1 := by
  rcases le_total l (1 / 2) with hl | hl
  · rw [abs_of_nonpos (by linarith)]
    have := mul_nonneg h0 hs0
    have := mul_le_mul_of_nonneg_left hs1 h0
    refine ⟨?_, ?_, ?_⟩ <;> linarith
  · rw [abs_of_nonneg (by linarith)]
    have := mul_nonneg (sub_nonneg.2 h1) hs0
    have := mul_le_mul_of_nonneg_left hs1 (sub_nonneg.2 h1)
    refine ⟨?_, ?_, ?_⟩ <;> linarith

theorem toRgb_color {r : Row} (hr : Unit3 r) : IsColor r.a r.b r.c (toRgb r).val := by
  obtain ⟨a, b, c⟩ := r
  obtain ⟨a0, a1⟩ := hr 0
  obtain ⟨b0, b1⟩ := hr 1
  obtain ⟨c0, c1⟩ := hr 2
  simp only [Row.val, Matrix.cons_val_zero, Matrix.cons_val_one, Matrix.cons_val] at a0 a1 b0 b1 c0 c1
  rw [isColor_iff]
  obtain ⟨k1, k2, k3⟩ := chroma_range b0 b1 c0 c1
  simp only [toRgb]
  generalize (1 - |2 * c - 1|) * b = cc at *
  have n0 : 0 ≤ ⌊6 * a⌋ := Int.floor_nonneg.2 (by linarith)
  have n1 : ⌊6 * a⌋ ≤ 6 := by
    rw [← Int.cast_le (R := ℝ)]
    exact (Int.floor_le _).trans (by push_cast; linarith)
  have f1 := Int.floor_le (6 * a)
  have f2 := Int.lt_floor_add_one (6 * a)
  generalize ⌊6 * a⌋ = n at *
  have key : ∀ x, 0 ≤ x → x ≤ 1 → clip (x * cc + (c - cc / 2)) = c - cc / 2 + cc * x := by
    intro x hx0 hx1
    have h1 := mul_nonneg hx0 k1
    have h2 := mul_le_mul_of_nonneg_right hx1 k1
    rw [clip_of (by linarith) (by linarith)]; ring
  have key1 : clip (cc + (c - cc / 2)) = c - cc / 2 + cc * 1 := by
    have := key 1 (by norm_num) le_rfl; rwa [one_mul] at this
  have key0 : clip (c - cc / 2) = c - cc / 2 + cc * 0 := by
    have := key 0 le_rfl (by norm_num); rwa [zero_mul, zero_add] at this
  interval_cases n
  · have e : fmod (6 * a) 2 = 6 * a - 2 * (0 : ℤ) := fmod_floor (by norm_num) (by push_cast at *; linarith) (by push_cast at *; linarith)
    rw [e]; push_cast at *
    rw [show 1 - |6 * a - 2 * 0 - 1| = 6 * a by rw [abs_of_nonpos (by linarith)]; ring]
    refine ⟨fun i => (1 - (6 * a)) * corner 0 i + (6 * a) * corner (0 + 1) i, ⟨0, 6 * a, 0, by linarith, by linarith, by simp, fun _ => rfl⟩, ?_⟩
    intro i
    fin_cases i <;> simp [Row.val, corner, key1, key0, key (6 * a) (by linarith) (by linarith)]
  · have e : fmod (6 * a) 2 = 6 * a - 2 * (0 : ℤ) := fmod_floor (by norm_num) (by push_cast at *; linarith) (by push_cast at *; linarith)
    rw [e]; push_cast at *
    rw [show 1 - |6 * a - 2 * 0 - 1| = 2 - 6 * a by rw [abs_of_nonneg (by linarith)]; ring]
    refine ⟨fun i => (1 - (6 * a - 1)) * corner 1 i + (6 * a - 1) * corner (1 + 1) i, ⟨1, 6 * a - 1, 0, by linarith, by linarith, by simp, fun _ => rfl⟩, ?_⟩
    intro i
    fin_cases i <;> simp [Row.val, corner, key1, key0, key (2 - 6 * a) (by linarith) (by linarith)] <;>
      first | ring1 | (left; ring1)
  · have e : fmod (6 * a) 2 = 6 * a - 2 * (1 : ℤ) := fmod_floor (by norm_num) (by push_cast at *; linarith) (by push_cast at *; linarith)
    rw [e]; push_cast at *
    rw [show 1 - |6 * a - 2 * 1 - 1| = 6 * a - 2 by rw [abs_of_nonpos (by linarith)]; ring]
    refine ⟨fun i => (1 - (6 * a - 2)) * corner 2 i + (6 * a - 2) * corner (2 + 1) i, ⟨2, 6 * a - 2, 0, by linarith, by linarith, by simp, fun _ => rfl⟩, ?_⟩
    intro i
    fin_cases i <;> simp [Row.val, corner, key1, key0, key (6 * a - 2) (by linarith) (by linarith)]
  · have e : fmod (6 * a) 2 = 6 * a - 2 * (1 : ℤ) := fmod_floor (by norm_num) (by push_cast at *; linarith) (by push_cast at *; linarith)
    rw [e]; push_cast at *
    rw [show 1 - |6 * a - 2 * 1 - 1| = 4 - 6 * a by rw [abs_of_nonneg (by linarith)]; ring]
    refine ⟨fun i => (1 - (6 * a - 3)) * corner 3 i + (6 * a - 3) * corner (3 + 1) i, ⟨3, 6 * a - 3, 0, by linarith, by linarith, by simp, fun _ => rfl⟩, ?_⟩
    intro i
    fin_cases i <;> simp [Row.val, corner, key1, key0, key (4 - 6 * a) (by linarith) (by linarith)] <;>
      first | ring1 | (left; ring1)
  · have e : fmod (6 * a) 2 = 6 * a - 2 * (2 : ℤ) := fmod_floor (by norm_num) (by push_cast at *; linarith) (by push_cast at *; linarith)
    rw [e]; push_cast at *
    rw [show 1 - |6 * a - 2 * 2 - 1| = 6 * a - 4 by rw [abs_of_nonpos (by linarith)]; ring]
    refine ⟨fun i => (1 - (6 * a - 4)) * corner 4 i + (6 * a - 4) * corner (4 + 1) i, ⟨4, 6 * a - 4, 0, by linarith, by linarith, by simp, fun _ => rfl⟩, ?_⟩
    intro i
    fin_cases i <;> simp [Row.val, corner, key1, key0, key (6 * a - 4) (by linarith) (by linarith)]
  · have e : fmod (6 * a) 2 = 6 * a - 2 * (2 : ℤ) := fmod_floor (by norm_num) (by push_cast at *; linarith) (by push_cast at *; linarith)
    rw [e]; push_cast at *
    rw [show 1 - |6 * a - 2 * 2 - 1| = 6 - 6 * a by rw [abs_of_nonneg (by linarith)]; ring]
    refine ⟨fun i => (1 - (6 * a - 5)) * corner 5 i + (6 * a - 5) * corner (5 + 1) i, ⟨5, 6 * a - 5, 0, by linarith, by linarith, by simp, fun _ => rfl⟩, ?_⟩
    intro i
    fin_cases i <;> simp [Row.val, corner, key1, key0, key (6 - 6 * a) (by linarith) (by linarith)] <;>
      first | ring1 | (left; ring1)
  · have ha : a = 1 := by push_cast at *; linarith
    subst ha
    have e : fmod (6 * 1) 2 = 6 * 1 - 2 * (3 : ℤ) := fmod_floor (by norm_num) (by norm_num) (by norm_num)
    rw [e]; push_cast
    refine ⟨fun i => (1 - 0) * corner 0 i + 0 * corner (0 + 1) i, ⟨0, 0, 1, le_rfl, by norm_num, by simp, fun _ => rfl⟩, ?_⟩
    intro i
    norm_num
    fin_cases i <;> simp [Row.val, corner, key1, key0]

/-- C135: an array is refused exactly if it is empty or has a value outside the range by the tolerance or more. -/
theorem refused_iff (rows : List Row) :
    (hsl2rgb rows).1 = none ↔ rows = [] ∨ ∃ r ∈ rows, ∃ i, r.val i ≤ -eps ∨ 1 + eps ≤ r.val i := by
  have key : ∀ r : Row, inRange (snapRow r) = true ↔ ∀ i, -eps < r.val i ∧ r.val i < 1 + eps := by
    intro r
    unfold inRange snapRow
    rw [decide_eq_true_iff]
    have h0 := snap_range r.a
    have h1 := snap_range r.b
    have h2 := snap_range r.c
    constructor
    · rintro ⟨a1, a2, a3, a4, a5, a6⟩ i
      fin_cases i
      · exact h0.1 ⟨a1, a2⟩
      · exact h1.1 ⟨a3, a4⟩
      · exact h2.1 ⟨a5, a6⟩
    · intro h
      obtain ⟨a1, a2⟩ := h0.2 (h 0)
      obtain ⟨a3, a4⟩ := h1.2 (h 1)
      obtain ⟨a5, a6⟩ := h2.2 (h 2)
      exact ⟨a1, a2, a3, a4, a5, a6⟩
  unfold hsl2rgb
  simp only []
  by_cases h : (!(rows.map snapRow).isEmpty && (rows.map snapRow).all inRange) = true
  · rw [if_pos h]
    simp only [Bool.and_eq_true, Bool.not_eq_true', List.isEmpty_eq_false_iff, List.all_eq_true, List.mem_map,
      forall_exists_index, and_imp, forall_apply_eq_imp_iff₂, key] at h
    constructor
    · intro h'; cases h'
    · rintro (rfl | ⟨r, hr, i, hi⟩)
      · exact absurd rfl h.1
      · have := h.2 r hr i
        rcases hi with hi | hi <;> linarith [this.1, this.2]
  · rw [if_neg h]
    simp only [Bool.and_eq_true, Bool.not_eq_true', List.isEmpty_eq_false_iff, List.all_eq_true, List.mem_map,
      forall_exists_index, and_imp, forall_apply_eq_imp_iff₂, key] at h
    refine ⟨fun _ => ?_, fun _ => rfl⟩
    by_contra hc
    push Not at hc
    apply h
    refine ⟨by simpa using hc.1, fun r hr i => ?_⟩
    obtain ⟨h1, h2⟩ := hc.2 r hr i
    exact ⟨h1, h2⟩

theorem snapRow_settled {r : Row} (hs : ∀ i, Settled (r.val i)) : snapRow r = r := by
  unfold snapRow
  have h0 : snap r.a = r.a := snap_settled (hs 0)
  have h1 : snap r.b = r.b := snap_settled (hs 1)
  have h2 : snap r.c = r.c := snap_settled (hs 2)
  rw [h0, h1, h2]

theorem inRange_iff (r : Row) : inRange r = true ↔ Unit3 r := by
  unfold inRange Unit3
  rw [decide_eq_true_iff]
  constructor
  · rintro ⟨a1, a2, a3, a4, a5, a6⟩ i
    fin_cases i
    · exact ⟨a1, a2⟩
    · exact ⟨a3, a4⟩
    · exact ⟨a5, a6⟩
  · intro h
    exact ⟨(h 0).1, (h 0).2, (h 1).1, (h 1).2, (h 2).1, (h 2).2⟩

/-- C135: whenever the array is accepted, every row of the result has values between 0 and 1 and is the colour of the
row asked for, up to the tolerance: the colour of a row that differs by less than the tolerance in each value. -/
theorem hsl2rgb_color {rows out : List Row} (h : (hsl2rgb rows).1 = some out) :
    out.length = rows.length ∧ ∀ (n : ℕ) (r c : Row), rows[n]? = some r → out[n]? = some c →
      Unit3 c ∧ ∃ r' : Row, IsColor r'.a r'.b r'.c c.val ∧ (∀ i, |r'.val i - r.val i| < eps) ∧
        ((∀ i, Settled (r.val i)) → r' = r) := by
  unfold hsl2rgb at h
  simp only at h
  split at h
  · rename_i hc
    cases h
    simp only [Bool.and_eq_true, List.all_eq_true] at hc
    refine ⟨by simp, fun n r c hr hc' => ?_⟩
    simp only [List.getElem?_map, hr, Option.map_some, Option.some.injEq] at hc'
    subst hc'
    have hu : Unit3 (snapRow r) := (inRange_iff _).1 (hc.2 _ (List.mem_map_of_mem (List.mem_of_getElem? hr)))
    refine ⟨?_, snapRow r, toRgb_color hu, ?_, snapRow_settled⟩
    · intro i
      fin_cases i <;> exact clip_range _
    · intro i
      fin_cases i <;> exact (snap_cases _).2
  · cases h

/-! ### From red, green, blue -/

theorem clip_row {a b c : ℝ} (h : Unit3 ⟨a, b, c⟩) : (⟨clip a, clip b, clip c⟩ : Row) = ⟨a, b, c⟩ := by
  have h0 : clip a = a := clip_of (h 0).1 (h 0).2
  have h1 : clip b = b := clip_of (h 1).1 (h 1).2
  have h2 : clip c = c := clip_of (h 2).1 (h 2).2
  rw [h0, h1, h2]

theorem pure_of_fmod {x : ℝ} {p : Fin 3 → ℝ} {k : Fin 6} {t : ℝ} {n : ℤ} (h0 : 0 ≤ t) (h1 : t ≤ 1)
    (hx : x = k.val + t + 6 * n) (hp : ∀ i, p i = (1 - t) * corner k i + t * corner (k + 1) i) : Pure (fmod x 6 / 6) p := by
  refine ⟨k, t, n - ⌊x / 6⌋, h0, h1, ?_, hp⟩
  unfold fmod
  push_cast
  linarith

/-- The greatest and the least of the three values. -/
theorem extremes {r : Row} {M m : ℝ} (hM : max (max r.a r.b) r.c = M) (hm : min (min r.a r.b) r.c = m) :
    (r.a ≤ M ∧ r.b ≤ M ∧ r.c ≤ M) ∧ (m ≤ r.a ∧ m ≤ r.b ∧ m ≤ r.c) ∧ (r.a = M ∨ r.b = M ∨ r.c = M) ∧
      (r.a = m ∨ r.b = m ∨ r.c = m) := by
  refine ⟨⟨?_, ?_, ?_⟩, ⟨?_, ?_, ?_⟩, ?_, ?_⟩
  · rw [← hM]; exact (le_max_left _ _).trans (le_max_left _ _)
  · rw [← hM]; exact (le_max_right _ _).trans (le_max_left _ _)
  · rw [← hM]; exact le_max_right _ _
  · rw [← hm]; exact (min_le_left _ _).trans (min_le_left _ _)
  · rw [← hm]; exact (min_le_left _ _).trans (min_le_right _ _)
  · rw [← hm]; exact min_le_right _ _
  · rcases max_choice (max r.a r.b) r.c with h | h
    · rcases max_choice r.a r.b with h' | h'
      · exact Or.inl (by rw [← hM, h, h'])
      · exact Or.inr (Or.inl (by rw [← hM, h, h']))
    · exact Or.inr (Or.inr (by rw [← hM, h]))
  · rcases min_choice (min r.a r.b) r.c with h | h
    · rcases min_choice r.a r.b with h' | h'
      · exact Or.inl (by rw [← hm, h, h'])
      · exact Or.inr (Or.inl (by rw [← hm, h, h']))
    · exact Or.inr (Or.inr (by rw [← hm, h]))

/-- The hue of `toHsl`. -/
noncomputable def hueOf (r : Row) (M D : ℝ) : ℝ :=
  open Classical in
  if r.c = M then fmod ((r.a - r.b) / D + 4) 6 / 6
  else if r.b = M then fmod ((r.c - r.a) / D + 2) 6 / 6 else fmod ((r.b - r.c) / D) 6 / 6

theorem hueOf_pure {r : Row} {M m : ℝ} (hM : max (max r.a r.b) r.c = M) (hm : min (min r.a r.b) r.c = m) (hd : m < M) :
    Pure (hueOf r M (M - m)) fun i => (r.val i - m) / (M - m) := by
  obtain ⟨⟨u1, u2, u3⟩, ⟨l1, l2, l3⟩, hu, hl⟩ := extremes hM hm
  have hD : 0 < M - m := by linarith
  have hD0 := hD.ne'
  obtain ⟨a, b, c⟩ := r
  simp only at u1 u2 u3 l1 l2 l3 hu hl
  clear hM hm
  unfold hueOf
  simp only
  by_cases hc : c = M
  · rw [if_pos hc]
    subst hc
    rcases le_total b a with hba | hba
    · have hbm : b = m := by rcases hl with h | h | h <;> linarith
      subst hbm
      refine pure_of_fmod (k := 4) (t := (a - b) / (c - b)) (n := 0) (div_nonneg (by linarith) hD.le)
        ((div_le_one hD).2 (by linarith)) (by push_cast; simp; ring) ?_
      intro i; fin_cases i <;> simp [Row.val, corner] <;> (try field_simp) <;>
        first | ring1 | exact hD0
    · have ham : a = m := by rcases hl with h | h | h <;> linarith
      subst ham
      refine pure_of_fmod (k := 3) (t := 1 + (a - b) / (c - a)) (n := 0) ?_ ?_ (by push_cast; simp; ring) ?_
      · have : -1 ≤ (a - b) / (c - a) := by rw [le_div_iff₀ hD]; linarith
        linarith
      · have : (a - b) / (c - a) ≤ 0 := div_nonpos_of_nonpos_of_nonneg (by linarith) hD.le
        linarith
      · intro i; fin_cases i <;> simp [Row.val, corner] <;> (try field_simp) <;>
        first | ring1 | exact hD0
  · rw [if_neg hc]
    by_cases hb : b = M
    · rw [if_pos hb]
      subst hb
      rcases le_total a c with hac | hac
      · have ham : a = m := by rcases hl with h | h | h <;> linarith
        subst ham
        refine pure_of_fmod (k := 2) (t := (c - a) / (b - a)) (n := 0) (div_nonneg (by linarith) hD.le)
          ((div_le_one hD).2 (by linarith)) (by push_cast; simp; ring) ?_
        intro i; fin_cases i <;> simp [Row.val, corner] <;> (try field_simp) <;>
        first | ring1 | exact hD0
      · have hcm : c = m := by rcases hl with h | h | h <;> linarith
        subst hcm
        refine pure_of_fmod (k := 1) (t := 1 + (c - a) / (b - c)) (n := 0) ?_ ?_ (by push_cast; simp; ring) ?_
        · have : -1 ≤ (c - a) / (b - c) := by rw [le_div_iff₀ hD]; linarith
          linarith
        · have : (c - a) / (b - c) ≤ 0 := div_nonpos_of_nonpos_of_nonneg (by linarith) hD.le
          linarith
        · intro i; fin_cases i <;> simp [Row.val, corner] <;> (try field_simp) <;>
        first | ring1 | exact hD0
    · rw [if_neg hb]
      have ha : a = M := by tauto
      subst ha
      rcases le_total c b with hcb | hcb
      · have hcm : c = m := by rcases hl with h | h | h <;> linarith
        subst hcm
        refine pure_of_fmod (k := 0) (t := (b - c) / (a - c)) (n := 0) (div_nonneg (by linarith) hD.le)
          ((div_le_one hD).2 (by linarith)) (by push_cast; simp) ?_
        intro i; fin_cases i <;> simp [Row.val, corner] <;> (try field_simp) <;>
        first | ring1 | exact hD0
      · have hbm : b = m := by rcases hl with h | h | h <;> linarith
        subst hbm
        refine pure_of_fmod (k := 5) (t := 1 + (b - c) / (a - b)) (n := -1) ?_ ?_ (by push_cast; simp; ring) ?_
        · have : -1 ≤ (b - c) / (a - b) := by rw [le_div_iff₀ hD]; linarith
          linarith
        · have : (b - c) / (a - b) ≤ 0 := div_nonpos_of_nonpos_of_nonneg (by linarith) hD.le
          linarith
        · intro i; fin_cases i <;> simp [Row.val, corner] <;> (try field_simp) <;>
        first | ring1 | exact hD0

theorem hueOf_range (r : Row) (M D : ℝ) : 0 ≤ hueOf r M D ∧ hueOf r M D < 1 := by
  have key : ∀ x, 0 ≤ fmod x 6 / 6 ∧ fmod x 6 / 6 < 1 := by
    intro x
    obtain ⟨h1, h2⟩ := fmod_range x (m := 6) (by norm_num)
    constructor <;> linarith
  unfold hueOf
  split
  · exact key _
  · split <;> exact key _

theorem sat_range {M m : ℝ} (h0 : 0 ≤ m) (h1 : M ≤ 1) (hd : m < M) :
    0 < 1 - |2 * (1 / 2 * (M + m)) - 1| ∧ M - m ≤ 1 - |2 * (1 / 2 * (M + m)) - 1| := by
  rcases le_total (M + m) 1 with h | h
  · rw [abs_of_nonpos (by linarith)]; constructor <;> linarith
  · rw [abs_of_nonneg (by linarith)]; constructor <;> linarith

/-- The row for a colour that is not grey. -/
theorem toHsl_color {r : Row} {M m : ℝ} (hr : Unit3 r) (hM : max (max r.a r.b) r.c = M) (hm : min (min r.a r.b) r.c = m)
    (hd : eps ≤ M - m) :
    toHsl r = ⟨hueOf r M (M - m), (M - m) / (1 - |2 * (1 / 2 * (M + m)) - 1|), 1 / 2 * (M + m)⟩ := by
  obtain ⟨-, -, hu, hl⟩ := extremes hM hm
  have he := eps_pos
  have h0 : 0 ≤ m := by
    rcases hl with h | h | h
    · rw [← h]; exact (hr 0).1
    · rw [← h]; exact (hr 1).1
    · rw [← h]; exact (hr 2).1
  have h1 : M ≤ 1 := by
    rcases hu with h | h | h
    · rw [← h]; exact (hr 0).2
    · rw [← h]; exact (hr 1).2
    · rw [← h]; exact (hr 2).2
  obtain ⟨s1, s2⟩ := sat_range h0 h1 (by linarith)
  have hz : ¬ |M - m| < eps := by rw [abs_of_nonneg (by linarith)]; exact not_lt.2 hd
  unfold toHsl
  simp only [hM, hm, hz, not_false_eq_true, and_true, if_false]
  have hh : (open Classical in if r.c = M then fmod ((r.a - r.b) / (M - m) + 4) 6 / 6
      else if r.b = M then fmod ((r.c - r.a) / (M - m) + 2) 6 / 6
      else if r.a = M then fmod ((r.b - r.c) / (M - m)) 6 / 6 else 0) = hueOf r M (M - m) := by
    unfold hueOf
    by_cases hc : r.c = M
    · rw [if_pos hc, if_pos hc]
    · rw [if_neg hc, if_neg hc]
      by_cases hb : r.b = M
      · rw [if_pos hb, if_pos hb]
      · rw [if_neg hb, if_neg hb, if_pos (by tauto)]
  rw [hh]
  apply clip_row
  intro i
  have hR := hueOf_range r M (M - m)
  fin_cases i
  · exact ⟨hR.1, hR.2.le⟩
  · exact ⟨div_nonneg (by linarith) s1.le, (div_le_one s1).2 s2⟩
  · show 0 ≤ 1 / 2 * (M + m) ∧ 1 / 2 * (M + m) ≤ 1
    constructor <;> linarith

/-- The row for a grey. -/
theorem toHsl_grey {r : Row} {M m : ℝ} (hr : Unit3 r) (hM : max (max r.a r.b) r.c = M) (hm : min (min r.a r.b) r.c = m)
    (hd : M - m < eps) : toHsl r = ⟨0, 0, 1 / 2 * (M + m)⟩ := by
  obtain ⟨⟨u1, u2, u3⟩, ⟨l1, l2, l3⟩, hu, hl⟩ := extremes hM hm
  have he := eps_pos
  have hz : |M - m| < eps := by rw [abs_of_nonneg (by linarith)]; exact hd
  have a0 : 0 ≤ r.a ∧ r.a ≤ 1 := hr 0
  have b0 : 0 ≤ r.b ∧ r.b ≤ 1 := hr 1
  have c0 : 0 ≤ r.c ∧ r.c ≤ 1 := hr 2
  unfold toHsl
  simp only [hM, hm, hz, not_true_eq_false, and_false, if_false, if_true]
  apply clip_row
  intro i
  fin_cases i
  · simp [Row.val]
  · simp [Row.val]
  · show 0 ≤ 1 / 2 * (M + m) ∧ 1 / 2 * (M + m) ≤ 1
    constructor
    · rcases hl with h | h | h <;> rcases hu with h' | h' | h' <;> linarith
    · rcases hl with h | h | h <;> rcases hu with h' | h' | h' <;> linarith

/-- The spread of the three values. -/
noncomputable def spread (r : Row) : ℝ := max (max r.a r.b) r.c - min (min r.a r.b) r.c

/-- C135: a colour that is grey, or whose values spread by at least the tolerance, is given a hue, saturation and
lightness between 0 and 1 of which it is the colour. -/
theorem rgb2hsl_color {r : Row} (hr : Unit3 r) (hd : spread r = 0 ∨ eps ≤ spread r) :
    Unit3 (toHsl r) ∧ IsColor (toHsl r).a (toHsl r).b (toHsl r).c r.val := by
  refine ⟨fun i => by fin_cases i <;> exact clip_range _, ?_⟩
  unfold spread at hd
  generalize hM : max (max r.a r.b) r.c = M at hd
  generalize hm : min (min r.a r.b) r.c = m at hd
  rw [isColor_iff]
  rcases hd with hd | hd
  · rw [toHsl_grey hr hM hm (by rw [hd]; exact eps_pos)]
    refine ⟨corner 0, ⟨0, 0, 0, le_rfl, by norm_num, by simp, fun i => by simp⟩, fun i => ?_⟩
    obtain ⟨⟨u1, u2, u3⟩, ⟨l1, l2, l3⟩, -, -⟩ := extremes hM hm
    fin_cases i <;> simp [Row.val] <;> linarith
  · have he := eps_pos
    have hlt : m < M := by linarith
    rw [toHsl_color hr hM hm hd]
    refine ⟨_, hueOf_pure hM hm hlt, fun i => ?_⟩
    obtain ⟨-, -, hu, hl⟩ := extremes hM hm
    have h0 : 0 ≤ m := by
      rcases hl with h | h | h
      · rw [← h]; exact (hr 0).1
      · rw [← h]; exact (hr 1).1
      · rw [← h]; exact (hr 2).1
    have h1 : M ≤ 1 := by
      rcases hu with h | h | h
      · rw [← h]; exact (hr 0).2
      · rw [← h]; exact (hr 1).2
      · rw [← h]; exact (hr 2).2
    obtain ⟨s1, -⟩ := sat_range h0 h1 hlt
    simp only
    rw [mul_div_cancel₀ _ s1.ne', mul_div_cancel₀ _ (sub_pos.2 hlt).ne']
    ring

/-- C135: there and back, from red, green, blue. -/
theorem rgb_round_trip {r : Row} (hr : Unit3 r) (hd : spread r = 0 ∨ eps ≤ spread r)
    (hs : ∀ i, Settled ((toHsl r).val i)) : (hsl2rgb (rgb2hsl [r])).1 = some [r] := by
  obtain ⟨hu, hc⟩ := rgb2hsl_color hr hd
  unfold hsl2rgb rgb2hsl
  simp only [List.map_cons, List.map_nil, snapRow_settled hs, List.isEmpty_cons, Bool.not_false, List.all_cons,
    List.all_nil, Bool.and_true, (inRange_iff _).2 hu, if_true]
  rw [val_ext (r' := r) fun i => congrFun (color_unique (toRgb_color hu) hc) i]

/-- C135: a colour that is nearly grey comes back as the grey of its lightness, off by less than the tolerance. -/
theorem near_grey {r : Row} (hr : Unit3 r) (hd : spread r < eps) (hs : Settled (toHsl r).c) :
    ∃ c, (hsl2rgb (rgb2hsl [r])).1 = some [c] ∧ c.a = c.b ∧ c.b = c.c ∧ ∀ i, |c.val i - r.val i| < eps := by
  unfold spread at hd
  generalize hM : max (max r.a r.b) r.c = M at hd
  generalize hm : min (min r.a r.b) r.c = m at hd
  have hg := toHsl_grey hr hM hm hd
  have hu : Unit3 (toHsl r) := fun i => by fin_cases i <;> exact clip_range _
  have hset : ∀ i, Settled ((toHsl r).val i) := by
    intro i
    rw [hg] at hs ⊢
    fin_cases i
    · exact Or.inl rfl
    · exact Or.inl rfl
    · exact hs
  have hc := toRgb_color hu
  refine ⟨toRgb (toHsl r), ?_, ?_⟩
  · unfold hsl2rgb rgb2hsl
    simp only [List.map_cons, List.map_nil, snapRow_settled hset, List.isEmpty_cons, Bool.not_false, List.all_cons,
      List.all_nil, Bool.and_true, (inRange_iff _).2 hu, if_true]
  · rw [isColor_iff] at hc
    obtain ⟨p, -, e⟩ := hc
    have e' : ∀ i, (toRgb (toHsl r)).val i = 1 / 2 * (M + m) := by
      intro i; rw [e, hg]; ring
    refine ⟨(e' 0).trans (e' 1).symm, (e' 1).trans (e' 2).symm, fun i => ?_⟩
    rw [e']
    obtain ⟨⟨u1, u2, u3⟩, ⟨l1, l2, l3⟩, -, -⟩ := extremes hM hm
    have he := eps_pos
    rw [abs_lt]
    fin_cases i <;> simp [Row.val] <;> constructor <;> linarith

/-- C135: there and back, from hue, saturation and lightness: if the colour is not too near to a grey and the hue is not
a full turn. -/
theorem hsl_round_trip {r : Row} (hr : Unit3 r) (hs : ∀ i, Settled (r.val i)) (ht : r.a < 1)
    (hd : eps ≤ (1 - |2 * r.c - 1|) * r.b) : ((hsl2rgb [r]).1).map rgb2hsl = some [r] := by
  have hc := toRgb_color hr
  have hU : Unit3 (toRgb r) := fun i => by fin_cases i <;> exact clip_range _
  unfold hsl2rgb
  simp only [List.map_cons, List.map_nil, snapRow_settled hs, List.isEmpty_cons, Bool.not_false, List.all_cons,
    List.all_nil, Bool.and_true, (inRange_iff _).2 hr, if_true, Option.map_some, rgb2hsl]
  congr 2
  have he := eps_pos
  rw [isColor_iff] at hc
  obtain ⟨p, hp, e⟩ := hc
  have hr2 : 0 ≤ r.c ∧ r.c ≤ 1 := hr 2
  generalize hq : toRgb r = q at *
  generalize hM : max (max q.a q.b) q.c = M
  generalize hm : min (min q.a q.b) q.c = m
  obtain ⟨⟨u1, u2, u3⟩, ⟨l1, l2, l3⟩, hu, hl⟩ := extremes hM hm
  have u : ∀ i, q.val i ≤ M := by intro i; fin_cases i <;> assumption
  have l : ∀ i, m ≤ q.val i := by intro i; fin_cases i <;> assumption
  have hu' : ∃ i, q.val i = M := by
    rcases hu with h | h | h
    · exact ⟨0, h⟩
    · exact ⟨1, h⟩
    · exact ⟨2, h⟩
  have hl' : ∃ i, q.val i = m := by
    rcases hl with h | h | h
    · exact ⟨0, h⟩
    · exact ⟨1, h⟩
    · exact ⟨2, h⟩
  generalize hcc : (1 - |2 * r.c - 1|) * r.b = cc at *
  obtain ⟨⟨i1, p1⟩, i0, p0⟩ := pure_extremes hp
  have eM : M = r.c + cc / 2 := by
    obtain ⟨i, hi⟩ := hu'
    have a1 := u i1
    rw [e, p1] at a1
    rw [e] at hi
    have := mul_le_mul_of_nonneg_left (pure_range hp i).2 (by linarith : (0 : ℝ) ≤ cc)
    linarith
  have em : m = r.c - cc / 2 := by
    obtain ⟨i, hi⟩ := hl'
    have a1 := l i0
    rw [e, p0] at a1
    rw [e] at hi
    have := mul_nonneg (by linarith : (0 : ℝ) ≤ cc) (pure_range hp i).1
    linarith
  have hlt : m < M := by linarith
  have hpp := hueOf_pure hM hm hlt
  have epp : (fun i => (q.val i - m) / (M - m)) = p := by
    ext i
    rw [e, eM, em]
    have : cc ≠ 0 := by linarith
    rw [show r.c - cc / 2 + cc * p i - (r.c - cc / 2) = cc * p i by ring, show r.c + cc / 2 - (r.c - cc / 2) = cc by ring,
      mul_div_cancel_left₀ _ this]
  rw [epp] at hpp
  obtain ⟨n, hn⟩ := hue_unique hpp hp
  have hR := hueOf_range q M (M - m)
  have hr0 : 0 ≤ r.a := (hr 0).1
  have hn0 : n = 0 := by
    have h1 : (n : ℝ) < 1 := by linarith
    have h2 : (-1 : ℝ) < n := by linarith
    have h1' : n < 1 := by exact_mod_cast h1
    have h2' : -1 < n := by exact_mod_cast h2
    omega
  rw [toHsl_color hU hM hm (by linarith)]
  have hl3 : 1 / 2 * (M + m) = r.c := by linarith
  have hne : 1 - |2 * r.c - 1| ≠ 0 := by
    intro h0
    rw [h0, zero_mul] at hcc
    linarith
  have hb : (M - m) / (1 - |2 * r.c - 1|) = r.b := by
    rw [show M - m = (1 - |2 * r.c - 1|) * r.b by linarith, mul_div_cancel_left₀ _ hne]
  have ha : hueOf q M (M - m) = r.a := by rw [hn, hn0]; simp
  rw [hl3, hb, ha]

/-- C135: the two ends of the hue are the same colour. -/
theorem hue_periodic (s l : ℝ) (hs : 0 ≤ s ∧ s ≤ 1) (hl : 0 ≤ l ∧ l ≤ 1) : toRgb ⟨0, s, l⟩ = toRgb ⟨1, s, l⟩ := by
  have h0 : Unit3 ⟨0, s, l⟩ := by intro i; fin_cases i <;> simp [Row.val, hs, hl]
  have h1 : Unit3 ⟨1, s, l⟩ := by intro i; fin_cases i <;> simp [Row.val, hs, hl]
  have c0 := toRgb_color h0
  have c1 := toRgb_color h1
  have c1' : IsColor 0 s l (toRgb ⟨1, s, l⟩).val := by
    obtain ⟨p, ⟨k, t, n, a, b, c, d⟩, h⟩ := c1
    exact ⟨p, ⟨k, t, n - 1, a, b, by push_cast; simp at c ⊢; linarith, d⟩, h⟩
  exact val_ext fun i => congrFun (color_unique c0 c1') i

/-- C135, disagreement: the conversion changes the array of the caller. -/
theorem argument_changed_fails : ∃ rows : List Row, (hsl2rgb rows).2 ≠ rows := by
  refine ⟨[⟨eps / 2, 1, 1 / 2⟩], ?_⟩
  have he := eps_pos
  have hs := eps_small
  intro h
  simp only [hsl2rgb, List.map_cons, List.map_nil, snapRow, List.cons.injEq, Row.mk.injEq, and_true] at h
  have h1 := (snap_cases (eps / 2)).1
  rw [h.1] at h1
  rcases h1 with h1 | h1 | ⟨h1, -⟩
  · linarith
  · linarith
  · rw [abs_of_pos (by linarith)] at h1; linarith

/-- A dark orange meets the hypotheses of the round trips. -/
example : (hsl2rgb (rgb2hsl [⟨3 / 4, 1 / 2, 1 / 4⟩])).1 = some [⟨3 / 4, 1 / 2, 1 / 4⟩] := by
  have hs := eps_small
  have he := eps_pos
  have hU : Unit3 ⟨3 / 4, 1 / 2, 1 / 4⟩ := by intro i; fin_cases i <;> norm_num [Row.val]
  have hM : max (max (3 / 4 : ℝ) (1 / 2)) (1 / 4) = 3 / 4 := by norm_num
  have hm : min (min (3 / 4 : ℝ) (1 / 2)) (1 / 4) = 1 / 4 := by norm_num
  have e := toHsl_color hU hM hm (by linarith)
  have e' : toHsl ⟨3 / 4, 1 / 2, 1 / 4⟩ = ⟨1 / 12, 1 / 2, 1 / 2⟩ := by
    rw [e]
    have hh : hueOf ⟨3 / 4, 1 / 2, 1 / 4⟩ (3 / 4) (3 / 4 - 1 / 4) = 1 / 12 := by
      unfold hueOf
      rw [if_neg (by norm_num), if_neg (by norm_num), fmod_floor (n := 0) (by norm_num) (by norm_num) (by norm_num)]
      norm_num
    rw [hh]; norm_num
  refine rgb_round_trip hU (Or.inr ?_) ?_
  · unfold spread; simp only [hM, hm]; linarith
  · intro i
    rw [e']
    have : eps < 1 / 12 := by unfold eps; norm_num
    fin_cases i <;> refine Or.inr (Or.inr ⟨?_, ?_⟩) <;> simp [Row.val] <;> norm_num [abs_of_neg, abs_of_pos] <;> linarith

end Hexrd.ColorSpace
