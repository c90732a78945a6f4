import Verif.Model.Angles
import Mathlib.Tactic.FieldSimp
import Mathlib.Tactic.Linarith
import Mathlib.Tactic.Push

/-!
# Angle mapping (C31) and angular differences (C32)
-/
namespace Hexrd.Angles

namespace Spec

/-- Two angles differ by a whole number of periods. -/
def Congr (p a b : ℝ) : Prop := ∃ k : Int, a = b + k * p

/-- `x` is the distance of `a` and `b` on the circle: the smallest `|a - b + k p|`. -/
def CircleDist (p a b x : ℝ) : Prop := (∃ k : Int, x = |a - b + k * p|) ∧ ∀ k : Int, x ≤ |a - b + k * p|

end Spec

open Spec

theorem npMod_range (x : ℝ) {p : ℝ} (hp : 0 < p) : 0 ≤ npMod x p ∧ npMod x p < p := by
  unfold npMod
  have h1 := Int.floor_le (x / p)
  have h2 := Int.lt_floor_add_one (x / p)
  rw [le_div_iff₀ hp] at h1
  rw [div_lt_iff₀ hp] at h2
  constructor <;> nlinarith

theorem npMod_congr (x p : ℝ) : npMod x p = x + ((-⌊x / p⌋ : Int) : ℝ) * p := by
  unfold npMod; push_cast; ring

theorem period_pos {u : AngUnit} {p : ℝ} (h : period u = some p) : 0 < p := by
  cases u
  · rw [← Option.some.inj h]; norm_num
  · rw [← Option.some.inj h]; exact Real.two_pi_pos
  · cases h

theorem mapInto_spec (a : ℝ) {lo hi : ℝ} (h : lo < hi) :
    lo ≤ mapInto a lo hi ∧ mapInto a lo hi ≤ hi ∧ Congr (hi - lo) (mapInto a lo hi) a := by
  have hp : 0 < hi - lo := by linarith
  have hr := npMod_range (a - lo) hp
  have hc := npMod_congr (a - lo) (hi - lo)
  unfold mapInto
  simp only
  split
  · rename_i hv
    refine ⟨h.le, le_rfl, -⌊(a - lo) / (hi - lo)⌋ + 1, ?_⟩
    have := hv.1
    rw [hc] at this
    push_cast at this ⊢
    linarith
  · refine ⟨by linarith, by linarith, -⌊(a - lo) / (hi - lo)⌋, ?_⟩
    rw [hc]; push_cast; ring

/-- The result is below the upper end except for angles above the interval's start that are
congruent to it. -/
theorem mapInto_end (a : ℝ) {lo hi : ℝ} (h : lo < hi) :
    mapInto a lo hi = hi ↔ Congr (hi - lo) a lo ∧ lo < a := by
  have hp : 0 < hi - lo := by linarith
  have hr := npMod_range (a - lo) hp
  have hc := npMod_congr (a - lo) (hi - lo)
  unfold mapInto
  simp only
  split
  · rename_i hv
    refine ⟨fun _ => ⟨⟨⌊(a - lo) / (hi - lo)⌋, ?_⟩, hv.2⟩, fun _ => rfl⟩
    have := hv.1
    rw [hc] at this
    push_cast at this
    linarith
  · rename_i hv
    constructor
    · intro e; linarith
    · rintro ⟨⟨k, hk⟩, hlt⟩
      exfalso
      refine hv ⟨?_, hlt⟩
      have : (a - lo) / (hi - lo) = k := by rw [hk]; field_simp; ring
      unfold npMod
      rw [this, Int.floor_intCast, hk]; ring

theorem mapInto_idem (a : ℝ) {lo hi : ℝ} (h : lo < hi) : mapInto (mapInto a lo hi) lo hi = mapInto a lo hi := by
  have hp : 0 < hi - lo := by linarith
  obtain ⟨h1, h2, -⟩ := mapInto_spec a h
  generalize mapInto a lo hi = b at h1 h2
  rcases h2.lt_or_eq with hb | hb
  · have hf : ⌊(b - lo) / (hi - lo)⌋ = 0 := by
      rw [Int.floor_eq_iff]
      constructor
      · push_cast; exact div_nonneg (by linarith) hp.le
      · push_cast; rw [div_lt_iff₀ hp]; linarith
    unfold mapInto
    simp only [npMod, hf]
    split
    · rename_i hv
      obtain ⟨e, l⟩ := hv
      push_cast at e
      linarith
    · push_cast; ring
  · rw [hb]
    exact (mapInto_end hi h).2 ⟨⟨1, by push_cast; ring⟩, h⟩

/-- The interval `mapAngle` works with: the default one, or the range given. -/
def Interval (range : Option (List ℝ)) (p lo hi : ℝ) : Prop :=
  match range with
  | none => lo = -p / 2 ∧ hi = p / 2
  | some l => lo ∈ l ∧ hi ∈ l ∧ ∀ x ∈ l, lo ≤ x ∧ x ≤ hi

theorem min?_spec {l : List ℝ} {lo : ℝ} (h : l.min? = some lo) : lo ∈ l ∧ ∀ x ∈ l, lo ≤ x :=
  List.min?_eq_some_iff.1 h

theorem max?_spec {l : List ℝ} {hi : ℝ} (h : l.max? = some hi) : hi ∈ l ∧ ∀ x ∈ l, x ≤ hi :=
  List.max?_eq_some_iff.1 h

theorem mapAngle_eq {ang : Option ℝ} {range : Option (List ℝ)} {u : AngUnit} {r : ℝ}
    (h : mapAngle ang range u = some r) :
    ∃ p lo hi, period u = some p ∧ Interval range p lo hi ∧ allclose (hi - lo) p ∧ r = mapInto (ang.getD 0) lo hi := by
  unfold mapAngle at h
  cases hp : period u with
  | none => rw [hp] at h; cases h
  | some p =>
    rw [hp] at h
    have pp := period_pos hp
    cases range with
    | none =>
      refine ⟨p, -p / 2, p / 2, rfl, ⟨rfl, rfl⟩, ?_, (Option.some.inj h).symm⟩
      have : p / 2 - -p / 2 - p = 0 := by ring
      unfold allclose; rw [this, abs_zero]; positivity
    | some l =>
      cases hlo : l.min? with
      | none => simp [hlo] at h
      | some lo =>
        cases hhi : l.max? with
        | none => simp [hlo, hhi] at h
        | some hi =>
          simp only [hlo, hhi, Option.bind_eq_bind, Option.bind_some] at h
          split at h
          · rename_i hc
            have m1 := min?_spec hlo
            have m2 := max?_spec hhi
            exact ⟨p, lo, hi, rfl, ⟨m1.1, m2.1, fun x hx => ⟨m1.2 x hx, m2.2 x hx⟩⟩, hc, (Option.some.inj h).symm⟩
          · cases h

theorem interval_lt {u : AngUnit} {p lo hi : ℝ} (hp : period u = some p)
    (hc : allclose (hi - lo) p) : lo < hi := by
  have pp := period_pos hp
  have p1 : 1 < p := by
    cases u
    · rw [← Option.some.inj hp]; norm_num
    · rw [← Option.some.inj hp]; have := Real.two_le_pi; linarith
    · cases hp
  unfold allclose at hc
  rw [abs_of_pos pp, abs_le] at hc
  linarith

/-- C31: with the default interval or a range whose ends are one period apart, the result
is in the interval and differs from the angle by a whole number of periods. (NaN counts
as 0.) -/
theorem mapAngle_spec (ang : Option ℝ) (range : Option (List ℝ)) (u : AngUnit) (p lo hi r : ℝ)
    (hp : period u = some p) (hi' : Interval range p lo hi) (hw : hi - lo = p) (h : mapAngle ang range u = some r) :
    lo ≤ r ∧ r ≤ hi ∧ Congr p r (ang.getD 0) := by
  obtain ⟨p', lo', hi2, e1, e2, e3, rfl⟩ := mapAngle_eq h
  rw [hp] at e1
  cases e1
  have e : lo' = lo ∧ hi2 = hi := by
    cases range with
    | none => exact ⟨e2.1.trans hi'.1.symm, e2.2.trans hi'.2.symm⟩
    | some l =>
      exact ⟨le_antisymm (e2.2.2 _ hi'.1).1 (hi'.2.2 _ e2.1).1, le_antisymm (hi'.2.2 _ e2.2.1).2 (e2.2.2 _ hi'.2.1).2⟩
  obtain ⟨rfl, rfl⟩ := e
  have := mapInto_spec (ang.getD 0) (interval_lt hp e3)
  rw [hw] at this
  exact this

/-- C31: without a range the result is within half a period of 0; every real angle has a
result. -/
theorem mapAngle_default (a : ℝ) (u : AngUnit) (p : ℝ) (hp : period u = some p) :
    ∃ r, mapAngle (some a) none u = some r ∧ -p / 2 ≤ r ∧ r ≤ p / 2 ∧ Congr p r a := by
  have h : mapAngle (some a) none u = some (mapInto a (-p / 2) (p / 2)) := by
    unfold mapAngle; rw [hp]; rfl
  exact ⟨_, h, mapAngle_spec (some a) none u p _ _ _ hp ⟨rfl, rfl⟩ (by ring) h⟩

/-- C31: mapping twice changes nothing, for every range that is accepted. -/
theorem mapAngle_idempotent (ang : Option ℝ) (range : Option (List ℝ)) (u : AngUnit) (r : ℝ)
    (h : mapAngle ang range u = some r) : mapAngle (some r) range u = some r := by
  obtain ⟨p, lo, hi, hp, hint, hc, rfl⟩ := mapAngle_eq h
  have hlt := interval_lt hp hc
  cases range with
  | none =>
    obtain ⟨rfl, rfl⟩ := hint
    have : mapAngle (some (mapInto (ang.getD 0) (-p / 2) (p / 2))) none u =
        some (mapInto (mapInto (ang.getD 0) (-p / 2) (p / 2)) (-p / 2) (p / 2)) := by
      unfold mapAngle; rw [hp]; rfl
    rw [this, mapInto_idem _ hlt]
  | some l =>
    have h1 : l.min? = some lo := List.min?_eq_some_iff.2 ⟨hint.1, fun x hx => (hint.2.2 x hx).1⟩
    have h2 : l.max? = some hi := List.max?_eq_some_iff.2 ⟨hint.2.1, fun x hx => (hint.2.2 x hx).2⟩
    unfold mapAngle
    simp only [hp, h1, h2, Option.bind_eq_bind, Option.bind_some, if_pos hc, Option.getD_some]
    rw [mapInto_idem _ hlt]; rfl

/-- C31: which ranges are rejected: the empty one and those whose ends are not one period
apart up to a relative 1e-5 (and 1e-8). -/
theorem mapAngle_rejects (ang : Option ℝ) (l : List ℝ) (u : AngUnit) (p : ℝ) (hp : period u = some p) :
    mapAngle ang (some l) u = none ↔
      l = [] ∨ ∃ lo hi, Interval (some l) p lo hi ∧ 1 / 10 ^ 8 + 1 / 10 ^ 5 * p < |hi - lo - p| := by
  have pp := period_pos hp
  constructor
  · intro h
    cases hlo : l.min? with
    | none => left; exact List.min?_eq_none_iff.1 hlo
    | some lo =>
      cases hhi : l.max? with
      | none => left; exact List.max?_eq_none_iff.1 hhi
      | some hi =>
        right
        refine ⟨lo, hi, ?_, ?_⟩
        · have m1 := min?_spec hlo
          have m2 := max?_spec hhi
          exact ⟨m1.1, m2.1, fun x hx => ⟨m1.2 x hx, m2.2 x hx⟩⟩
        · unfold mapAngle at h
          simp only [hp, hlo, hhi, Option.bind_eq_bind, Option.bind_some] at h
          split at h
          · cases h
          · rename_i hc
            unfold allclose at hc
            rw [abs_of_pos pp] at hc
            exact not_le.1 hc
  · rintro (rfl | ⟨lo, hi, hint, hw⟩)
    · unfold mapAngle; simp
    · by_contra hne
      obtain ⟨r, hr⟩ := Option.ne_none_iff_exists'.1 hne
      obtain ⟨p', lo', hi', e1, e2, e3, -⟩ := mapAngle_eq hr
      rw [hp] at e1
      cases e1
      have a1 : lo' = lo := le_antisymm (e2.2.2 _ hint.1).1 (hint.2.2 _ e2.1).1
      have a2 : hi' = hi := le_antisymm (hint.2.2 _ e2.2.1).2 (e2.2.2 _ hint.2.1).2
      rw [a1, a2] at e3
      unfold allclose at e3
      rw [abs_of_pos pp] at e3
      linarith

/-- C31, disagreement: a range given in the wrong order is accepted and used as if it were
in order. -/
theorem reversed_accepted (ang : Option ℝ) (lo hi : ℝ) (u : AngUnit) :
    mapAngle ang (some [hi, lo]) u = mapAngle ang (some [lo, hi]) u := by
  have h1 : ∀ x y : ℝ, [x, y].min? = some (min x y) := fun x y => rfl
  have h2 : ∀ x y : ℝ, [x, y].max? = some (max x y) := fun x y => rfl
  unfold mapAngle
  simp only [h1, h2, min_comm hi lo, max_comm hi lo]

/-- C31, disagreement: within the tolerance, the result differs from the angle by a multiple
of the width of the range, not of the period: with the range [0, 360.001] in degrees the
angle 720 is mapped to 359.999. -/
theorem width_not_period :
    mapAngle (some 720) (some [0, 360.001]) .degrees = some 359.999 ∧ ¬ Congr 360 359.999 720 := by
  constructor
  · have h1 : ([0, 360.001] : List ℝ).min? = some 0 := by
      rw [List.min?_eq_some_iff]; refine ⟨by simp, ?_⟩; intro x hx
      rcases List.mem_cons.1 hx with rfl | hx
      · exact le_rfl
      · rw [List.mem_singleton.1 hx]; norm_num
    have h2 : ([0, 360.001] : List ℝ).max? = some 360.001 := by
      rw [List.max?_eq_some_iff]; refine ⟨by simp, ?_⟩; intro x hx
      rcases List.mem_cons.1 hx with rfl | hx
      · norm_num
      · rw [List.mem_singleton.1 hx]
    have h3 : allclose (360.001 - 0) 360 := by
      unfold allclose
      rw [abs_of_pos (by norm_num), abs_of_pos (by norm_num)]
      norm_num
    have h4 : ⌊(720 - 0 : ℝ) / (360.001 - 0)⌋ = 1 := by rw [Int.floor_eq_iff]; norm_num
    unfold mapAngle
    simp only [period, h1, h2, Option.bind_eq_bind, Option.bind_some, if_pos h3, Option.getD_some, mapInto, npMod, h4]
    norm_num
  · rintro ⟨k, hk⟩
    have : (k : ℝ) * 360 = -360.001 := by linarith
    have h1 : (k : ℝ) < -1 := by linarith
    have h2 : (-2 : ℝ) < k := by linarith
    have h1' : k < -1 := by exact_mod_cast h1
    have h2' : -2 < k := by exact_mod_cast h2
    omega

/-- C31: the version used by the indexer maps into the half-open interval that starts at
the offset. -/
theorem indexerMapAngle_spec (a o : ℝ) :
    o ≤ indexerMapAngle a o ∧ indexerMapAngle a o < o + 2 * Real.pi ∧ Congr (2 * Real.pi) (indexerMapAngle a o) a := by
  have hr := npMod_range (a - o) Real.two_pi_pos
  refine ⟨by unfold indexerMapAngle; linarith, by unfold indexerMapAngle; linarith, -⌊(a - o) / (2 * Real.pi)⌋, ?_⟩
  unfold indexerMapAngle
  rw [npMod_congr]; ring

/-! ## C32 -/

/-- C32: the distance on the circle is symmetric, between 0 and half a period, and 0 exactly
for congruent angles. -/
theorem circleDist_facts {p a b x : ℝ} (hp : 0 < p) (h : CircleDist p a b x) :
    CircleDist p b a x ∧ 0 ≤ x ∧ x ≤ p / 2 ∧ (x = 0 ↔ Congr p a b) := by
  obtain ⟨⟨k, hk⟩, hmin⟩ := h
  refine ⟨⟨⟨-k, ?_⟩, fun j => ?_⟩, ?_, ?_, ?_⟩
  · rw [hk, ← abs_neg]; congr 1; push_cast; ring
  · have := hmin (-j)
    rw [← abs_neg] at this
    have e : -(a - b + ((-j : Int) : ℝ) * p) = b - a + j * p := by push_cast; ring
    rwa [e] at this
  · rw [hk]; exact abs_nonneg _
  · have h1 := hmin (k + 1)
    have h2 := hmin (k - 1)
    push_cast at h1 h2
    have e1 : a - b + ((k : ℝ) + 1) * p = a - b + k * p + p := by ring
    have e2 : a - b + ((k : ℝ) - 1) * p = a - b + k * p - p := by ring
    rw [e1] at h1
    rw [e2] at h2
    rw [hk] at h1 h2 ⊢
    generalize a - b + (k : ℝ) * p = y at *
    rcases le_total 0 y with hy | hy
    · rw [abs_of_nonneg hy] at h2 ⊢
      rcases le_total 0 (y - p) with h' | h'
      · rw [abs_of_nonneg h'] at h2; linarith
      · rw [abs_of_nonpos h'] at h2; linarith
    · rw [abs_of_nonpos hy] at h1 ⊢
      rcases le_total 0 (y + p) with h' | h'
      · rw [abs_of_nonneg h'] at h1; linarith
      · rw [abs_of_nonpos h'] at h1; linarith
  · constructor
    · intro h0
      rw [h0] at hk
      have := abs_eq_zero.1 hk.symm
      exact ⟨-k, by push_cast; linarith⟩
    · rintro ⟨j, hj⟩
      have h1 := hmin (-j)
      have e : a - b + ((-j : Int) : ℝ) * p = 0 := by rw [hj]; push_cast; ring
      rw [e, abs_zero] at h1
      exact le_antisymm h1 (by rw [hk]; exact abs_nonneg _)

/-- C32: the triangle inequality on the circle. -/
theorem circleDist_triangle {p a b c x y z : ℝ} (hx : CircleDist p a b x) (hy : CircleDist p b c y)
    (hz : CircleDist p a c z) : z ≤ x + y := by
  obtain ⟨⟨k, hk⟩, -⟩ := hx
  obtain ⟨⟨l, hl⟩, -⟩ := hy
  have h := hz.2 (k + l)
  have e : a - c + ((k + l : Int) : ℝ) * p = (a - b + k * p) + (b - c + l * p) := by push_cast; ring
  rw [e] at h
  rw [hk, hl]
  exact h.trans (abs_add_le _ _)

/-- A number in half a period around 0 is the closest of its class to 0. -/
theorem circleDist_of_half {p a b y : ℝ} (hy : |y| ≤ p / 2) (k : Int) (hk : y = a - b + k * p) :
    CircleDist p a b |y| := by
  refine ⟨⟨k, by rw [hk]⟩, fun j => ?_⟩
  by_cases hj : j = k
  · rw [hj, ← hk]
  · have hp : 0 ≤ p := by have := abs_nonneg y; linarith
    have e : a - b + (j : ℝ) * p = y + ((j - k : Int) : ℝ) * p := by rw [hk]; push_cast; ring
    rw [e]
    have h1 : (1 : ℝ) ≤ |((j - k : Int) : ℝ)| := by
      have : 1 ≤ |j - k| := Int.one_le_abs (sub_ne_zero.2 hj)
      exact_mod_cast this
    have h2 : p ≤ |((j - k : Int) : ℝ) * p| := by
      rw [abs_mul, abs_of_nonneg hp]; nlinarith
    have h3 := abs_sub_abs_le_abs_sub (((j - k : Int) : ℝ) * p) (-y)
    rw [abs_neg, sub_neg_eq_add, add_comm] at h3
    linarith

/-- C32: the original version is the distance on the circle, for all angles. -/
theorem angularDifferenceOrig_spec (a b : ℝ) (u : AngUnit) (p : ℝ) (hp : period u = some p) :
    ∃ x, angularDifferenceOrig a b u = some x ∧ CircleDist p a b x := by
  have pp := period_pos hp
  refine ⟨_, by unfold angularDifferenceOrig; rw [hp]; rfl, ?_⟩
  have hr := npMod_range (a - b + 1 / 2 * p) pp
  refine circleDist_of_half ?_ (-⌊(a - b + 1 / 2 * p) / p⌋) ?_
  · rw [abs_le]; constructor <;> linarith
  · rw [npMod_congr]; ring

/-- C32, proved part: the exported version is the distance on the circle for angles at most
one period apart. Missing: angles further apart, where it is negative
(`angularDifference_negative`). -/
theorem angularDifference_partial (a b : ℝ) (u : AngUnit) (p : ℝ) (hp : period u = some p) (h : |a - b| ≤ p) :
    ∃ x, angularDifference a b u = some x ∧ CircleDist p a b x := by
  have pp := period_pos hp
  refine ⟨_, by unfold angularDifference; rw [hp]; rfl, ?_⟩
  rw [abs_sub_comm] at h
  rcases le_total |b - a| (p - |b - a|) with hd | hd
  · rw [min_eq_left hd, abs_sub_comm]
    refine circleDist_of_half (by rw [abs_sub_comm]; linarith) 0 (by push_cast; ring)
  · rw [min_eq_right hd]
    have e : p - |b - a| = |(p - |b - a|)| := (abs_of_nonneg (by linarith)).symm
    rw [e]
    rcases le_total 0 (b - a) with hs | hs
    · rw [abs_of_nonneg hs] at hd h ⊢
      refine circleDist_of_half ?_ 1 (by push_cast; ring)
      rw [abs_of_nonneg (by linarith)]; linarith
    · rw [abs_of_nonpos hs] at hd h ⊢
      rw [← abs_neg]
      refine circleDist_of_half ?_ (-1) (by push_cast; ring)
      rw [abs_neg, abs_of_nonneg (by linarith)]; linarith

/-- C32, disagreement: for angles more than one period apart the exported version is
negative, hence not a distance. -/
theorem angularDifference_negative (a b : ℝ) (u : AngUnit) (p : ℝ) (hp : period u = some p) (h : p < |a - b|) :
    ∃ x, angularDifference a b u = some x ∧ x < 0 ∧ ¬ CircleDist p a b x := by
  refine ⟨_, by unfold angularDifference; rw [hp]; rfl, ?_, ?_⟩
  · rw [abs_sub_comm] at h
    exact (min_le_right _ _).trans_lt (by linarith)
  · intro hc
    have := (circleDist_facts (period_pos hp) hc).2.1
    rw [abs_sub_comm] at h
    have h2 : min |b - a| (p - |b - a|) < 0 := (min_le_right _ _).trans_lt (by linarith)
    linarith

/-- Concrete case: 350 and 10 degrees are 20 degrees apart. -/
example : angularDifference 350 10 .degrees = some 20 := by
  have h1 : |(10 : ℝ) - 350| = 340 := by rw [abs_of_neg] <;> norm_num
  simp only [angularDifference, period, Option.bind_eq_bind, Option.bind_some, h1]
  norm_num

/-- Concrete case of `mapAngle_spec`: 190 degrees in the default interval. -/
example : mapAngle (some 190) none .degrees = some (-170) := by
  have h4 : ⌊(190 - -360 / 2 : ℝ) / (360 / 2 - -360 / 2)⌋ = 1 := by rw [Int.floor_eq_iff]; norm_num
  unfold mapAngle
  simp only [period, Option.bind_eq_bind, Option.bind_some, Option.getD_some, mapInto, npMod, h4]
  norm_num

end Hexrd.Angles
