import Verif.Spec.RFZ
import Verif.Props.Laue
import Mathlib.Tactic.Linarith
import Mathlib.Tactic.Ring
import Mathlib.Tactic.NormNum
import Mathlib.Tactic.Positivity
import Mathlib.Tactic.IntervalCases

/-!
C108: the test for the Rodrigues fundamental zone.
-/

namespace Hexrd.RFZ
open Hexrd.Rotations Hexrd.Rotations.Spec Quat

variable (sigma : ℕ → ℝ)

/-- The condition that one symmetry puts on a Rodrigues vector, if the scalar part may grow by the factor `b`. -/
def Cond (b r0 r1 r2 : ℝ) (g : Quat ℝ) : Prop := |g.w - (r0 * g.x + r1 * g.y + r2 * g.z)| ≤ b

theorem abs_same {p q : Quat ℝ} (h : SameUpToSign p q) : |p.w| = |q.w| := by
  rcases h with rfl | rfl
  · rfl
  · simp [qneg]

theorem mul_same {p q g : Quat ℝ} (h : SameUpToSign p g) : |(qmul q p).w| = |(qmul q g).w| := by
  rcases h with rfl | rfl
  · rfl
  · simp only [qmul, qneg]
    rw [← abs_neg]; congr 1; ring

theorem forall_same {L M : List (Quat ℝ)} (h : List.Forall₂ SameUpToSign L M) (P : Quat ℝ → Prop)
    (hP : ∀ a b, SameUpToSign a b → (P a ↔ P b)) : (∀ g ∈ L, P g) ↔ ∀ g ∈ M, P g := by
  induction h with
  | nil => simp
  | cons h1 _ ih => simp only [List.forall_mem_cons, hP _ _ h1, ih]

theorem reduced_group (G : List (Quat ℝ)) (q : Quat ℝ) : Reduced G q ↔ ∀ g ∈ G, |(qmul q g).w| ≤ |q.w| := by
  constructor
  · intro h g hg; exact h _ ⟨g, hg, Or.inl rfl⟩
  · rintro h p ⟨g, hg, hs⟩
    rw [abs_same hs]; exact h g hg

theorem reduced_table {L M : List (Quat ℝ)} (h : List.Forall₂ SameUpToSign L M) (q : Quat ℝ) :
    Reduced L q ↔ ∀ g ∈ M, |(qmul q g).w| ≤ |q.w| := by
  rw [reduced_group]
  exact forall_same h _ fun a b hab => by rw [mul_same hab]

theorem mul_w {q g : Quat ℝ} {t x y z : ℝ} (h1 : q.x = q.w * (t * x)) (h2 : q.y = q.w * (t * y)) (h3 : q.z = q.w * (t * z)) :
    |(qmul q g).w| = |q.w| * |g.w - (x * t * g.x + y * t * g.y + z * t * g.z)| := by
  rw [← abs_mul]
  congr 1
  simp only [qmul, h1, h2, h3]; ring

theorem reduced_some {L M : List (Quat ℝ)} (h : List.Forall₂ SameUpToSign L M) {ro : Ro} {q : Quat ℝ} {t : ℝ} (hr : Represents ro q)
    (ht : ro.t = some t) : Reduced L q ↔ ∀ g ∈ M, Cond 1 (ro.x * t) (ro.y * t) (ro.z * t) g := by
  rw [reduced_table h]
  obtain ⟨-, -, h3⟩ := hr
  rw [ht] at h3
  obtain ⟨h0, h1, h2, h3⟩ := h3
  have hpos := abs_pos.2 h0
  refine forall₂_congr fun g _ => ?_
  rw [mul_w h1 h2 h3]
  unfold Cond
  constructor
  · intro hl; by_contra hc
    have := mul_lt_mul_of_pos_left (not_le.1 hc) hpos
    linarith
  · intro hl
    have := mul_le_mul_of_nonneg_left hl hpos.le
    linarith

theorem reduced_none {L M : List (Quat ℝ)} (h : List.Forall₂ SameUpToSign L M) {ro : Ro} {q : Quat ℝ} (hr : Represents ro q)
    (ht : ro.t = none) : Reduced L q ↔ ∀ g ∈ M, ro.x * g.x + ro.y * g.y + ro.z * g.z = 0 := by
  rw [reduced_table h]
  obtain ⟨-, -, h3⟩ := hr
  rw [ht] at h3
  have h0 : |q.w| = 0 := by rw [abs_same h3]; simp
  refine forall₂_congr fun g _ => ?_
  have e : |(qmul q g).w| = |ro.x * g.x + ro.y * g.y + ro.z * g.z| := by
    rcases h3 with rfl | rfl
    · simp only [qmul]; rw [← abs_neg]; congr 1; ring
    · simp only [qmul, qneg]; congr 1; ring
  rw [h0, e]
  exact abs_nonpos_iff

/-- The tables of the groups, as used below. -/
theorem sq2 : √(2 : ℝ) * √2 = 2 ∧ 1.4142 < √(2 : ℝ) ∧ √(2 : ℝ) < 1.4143 := by
  refine ⟨Real.mul_self_sqrt (by norm_num), ?_, ?_⟩
  · rw [Real.lt_sqrt (by norm_num)]; norm_num
  · rw [Real.sqrt_lt' (by norm_num)]; norm_num

theorem sq3 : √(3 : ℝ) * √3 = 3 ∧ 1.732 < √(3 : ℝ) ∧ √(3 : ℝ) < 1.7321 := by
  refine ⟨Real.mul_self_sqrt (by norm_num), ?_, ?_⟩
  · rw [Real.lt_sqrt (by norm_num)]; norm_num
  · rw [Real.sqrt_lt' (by norm_num)]; norm_num

theorem inv_sqrt3 : 1 / √(3 : ℝ) = √3 / 3 := by
  have := sq3
  field_simp
  rw [sq]; linarith

theorem inv_sqrt2 : 1 / √(2 : ℝ) = √2 / 2 := by
  have := sq2
  field_simp
  rw [sq]; linarith

theorem h4' (r : ℝ) : (|√2 / 2 - r * (√2 / 2)| ≤ 1 ∧ |-√2 / 2 - r * (√2 / 2)| ≤ 1) ↔ |r| ≤ √2 - 1 := by
  obtain ⟨a, b, c⟩ := sq2
  simp only [abs_le]
  constructor
  · rintro ⟨⟨h1, h2⟩, h3, h4⟩
    constructor <;> nlinarith
  · rintro ⟨h1, h2⟩
    refine ⟨⟨?_, ?_⟩, ?_, ?_⟩ <;> nlinarith

theorem h3 (r : ℝ) : (|2⁻¹ - r * (√3 / 2)| ≤ 1 ∧ |-1 / 2 - r * (√3 / 2)| ≤ 1) ↔ |r| ≤ 1 / √3 := by
  obtain ⟨a, b, c⟩ := sq3
  rw [inv_sqrt3]
  simp only [abs_le]
  constructor
  · rintro ⟨⟨h1, h2⟩, h3, h4⟩
    constructor <;> nlinarith
  · rintro ⟨h1, h2⟩
    refine ⟨⟨?_, ?_⟩, ?_, ?_⟩ <;> nlinarith

theorem h6 (r : ℝ) : (|√3 / 2 - r * 2⁻¹| ≤ 1 ∧ |-√3 / 2 - r * 2⁻¹| ≤ 1) ↔ |r| ≤ 2 - √3 := by
  obtain ⟨a, b, c⟩ := sq3
  simp only [abs_le]
  constructor
  · rintro ⟨⟨h1, h2⟩, h3, h4⟩
    constructor <;> linarith
  · rintro ⟨h1, h2⟩
    refine ⟨⟨?_, ?_⟩, ?_, ?_⟩ <;> linarith

theorem cond_c2h (r0 r1 r2 : ℝ) : (∀ g ∈ table_c2h.map (evalQ (d := 2) (by norm_num)), Cond 1 r0 r1 r2 g) ↔ |r1| ≤ 1 := by
  simp [table_c2h, evalQ, Zsqrtd.toReal, Cond]

theorem cond_c4h (r0 r1 r2 : ℝ) : (∀ g ∈ table_c4h.map (evalQ (d := 2) (by norm_num)), Cond 1 r0 r1 r2 g) ↔ |r2| ≤ √2 - 1 := by
  obtain ⟨a, b, c⟩ := sq2
  refine Iff.trans (b := |√2 / 2 - r2 * (√2 / 2)| ≤ 1 ∧ |r2| ≤ 1 ∧ |-√2 / 2 - r2 * (√2 / 2)| ≤ 1)
    (by simp [table_c4h, evalQ, Zsqrtd.toReal, Cond, -neg_add_rev]) ?_
  rw [← h4' r2]
  constructor
  · rintro ⟨h1, h2, h3⟩; exact ⟨h1, h3⟩
  · rintro ⟨h1, h2⟩
    have := (h4' r2).1 ⟨h1, h2⟩
    exact ⟨h1, by linarith, h2⟩

theorem cond_c3i (r0 r1 r2 : ℝ) : (∀ g ∈ table_c3i.map (evalQ (d := 3) (by norm_num)), Cond 1 r0 r1 r2 g) ↔ |r2| ≤ 1 / √3 := by
  rw [← h3 r2]
  simp [table_c3i, evalQ, Zsqrtd.toReal, Cond]

theorem cond_c6h (r0 r1 r2 : ℝ) : (∀ g ∈ table_c6h.map (evalQ (d := 3) (by norm_num)), Cond 1 r0 r1 r2 g) ↔ |r2| ≤ 2 - √3 := by
  obtain ⟨a, b, c⟩ := sq3
  refine Iff.trans (b := |√3 / 2 - r2 * 2⁻¹| ≤ 1 ∧ |2⁻¹ - r2 * (√3 / 2)| ≤ 1 ∧ |r2| ≤ 1 ∧ |-1 / 2 - r2 * (√3 / 2)| ≤ 1 ∧
      |-√3 / 2 - r2 * 2⁻¹| ≤ 1) (by simp [table_c6h, evalQ, Zsqrtd.toReal, Cond, -neg_add_rev]) ?_
  rw [← h6 r2]
  constructor
  · rintro ⟨h1, h2, h3, h4, h5⟩; exact ⟨h1, h5⟩
  · rintro ⟨h1, h2⟩
    have hr := (h6 r2).1 ⟨h1, h2⟩
    obtain ⟨k1, k2⟩ := (h3 r2).2 (by rw [inv_sqrt3]; linarith)
    exact ⟨h1, k1, by linarith, k2, h2⟩

theorem cond_d4h (r0 r1 r2 : ℝ) : (∀ g ∈ table_d4h.map (evalQ (d := 2) (by norm_num)), Cond 1 r0 r1 r2 g) ↔
    |r2| ≤ √2 - 1 ∧ (|r0| ≤ 1 ∧ |r1| ≤ 1) ∧ 1 / √2 * |r0 + r1| ≤ 1 ∧ 1 / √2 * |r0 - r1| ≤ 1 := by
  obtain ⟨a, b, c⟩ := sq2
  have hp : (0 : ℝ) < √2 / 2 := by positivity
  have e1 : |r0 * (√2 / 2) + r1 * (√2 / 2)| = 1 / √2 * |r0 + r1| := by
    rw [inv_sqrt2, ← add_mul, abs_mul, abs_of_pos hp, mul_comm]
  have e2 : |r0 * (-√2 / 2) + r1 * (√2 / 2)| = 1 / √2 * |r0 - r1| := by
    rw [inv_sqrt2, show r0 * (-√2 / 2) + r1 * (√2 / 2) = -((r0 - r1) * (√2 / 2)) by ring, abs_neg, abs_mul, abs_of_pos hp, mul_comm]
  rw [← h4' r2, ← e1, ← e2]
  simp [table_d4h, evalQ, Zsqrtd.toReal, -neg_add_rev, Cond]
  constructor
  · rintro ⟨h1, h2, h3, h4, h5, h6, h7⟩; exact ⟨⟨h1, h3⟩, ⟨h4, h5⟩, h6, h7⟩
  · rintro ⟨⟨h1, h3⟩, ⟨h4, h5⟩, h6, h7⟩
    have := (h4' r2).1 ⟨h1, h3⟩
    exact ⟨h1, by linarith, h3, h4, h5, h6, h7⟩

/-- The conditions of the group with the main axis of order six. -/
theorem cond_d6h (r0 r1 r2 : ℝ) : (∀ g ∈ table_d6h.map (evalQ (d := 3) (by norm_num)), Cond 1 r0 r1 r2 g) ↔
    |r2| ≤ 2 - √3 ∧ |1 / 2 * r0 + √3 / 2 * r1| ≤ 1 ∧ |√3 / 2 * r0 + 1 / 2 * r1| ≤ 1 ∧ |1 / 2 * r0 - √3 / 2 * r1| ≤ 1 ∧
      |√3 / 2 * r0 - 1 / 2 * r1| ≤ 1 ∧ |r0| ≤ 1 ∧ |r1| ≤ 1 := by
  obtain ⟨a, b, c⟩ := sq3
  have e1 : |r0 * (-1 / 2) + r1 * (√3 / 2)| = |1 / 2 * r0 - √3 / 2 * r1| := by rw [← abs_neg]; congr 1; ring
  have e2 : |r0 * (-1 / 2) + r1 * (-√3 / 2)| = |1 / 2 * r0 + √3 / 2 * r1| := by rw [← abs_neg]; congr 1; ring
  have e3 : |r0 * (√3 / 2) + r1 * 2⁻¹| = |√3 / 2 * r0 + 1 / 2 * r1| := by congr 1; ring
  have e4 : |r0 * (-√3 / 2) + r1 * 2⁻¹| = |√3 / 2 * r0 - 1 / 2 * r1| := by rw [← abs_neg]; congr 1; ring
  rw [← h6 r2, ← e1, ← e2, ← e3, ← e4]
  simp [table_d6h, evalQ, Zsqrtd.toReal, -neg_add_rev, Cond]
  constructor
  · rintro ⟨h1, h2, h3, h4, h5, h6, h7, h8, h9, h10, h11⟩
    exact ⟨⟨h1, h5⟩, h8, h9, h7, h11, h6, h10⟩
  · rintro ⟨⟨h1, h5⟩, h8, h9, h7, h11, h6', h10⟩
    have hr := (h6 r2).1 ⟨h1, h5⟩
    obtain ⟨k1, k2⟩ := (h3 r2).2 (by rw [inv_sqrt3]; linarith)
    exact ⟨h1, k1, by linarith, k2, h5, h6', h7, h8, h9, h10, h11⟩

theorem cond_d3d (r0 r1 r2 : ℝ) : (∀ g ∈ table_d3d.map (evalQ (d := 3) (by norm_num)), Cond 1 r0 r1 r2 g) ↔
    |r2| ≤ 1 / √3 ∧ |r0| ≤ 1 ∧ |1 / 2 * r0 - √3 / 2 * r1| ≤ 1 ∧ |1 / 2 * r0 + √3 / 2 * r1| ≤ 1 := by
  have e1 : |r0 * (-1 / 2) + r1 * (√3 / 2)| = |1 / 2 * r0 - √3 / 2 * r1| := by rw [← abs_neg]; congr 1; ring
  have e2 : |r0 * (-1 / 2) + r1 * (-√3 / 2)| = |1 / 2 * r0 + √3 / 2 * r1| := by rw [← abs_neg]; congr 1; ring
  rw [← h3 r2, ← e1, ← e2]
  simp [table_d3d, evalQ, Zsqrtd.toReal, -neg_add_rev, Cond]
  tauto

theorem abs_sum {r0 r1 r2 d : ℝ} (h1 : r0 + r1 + r2 ≤ d) (h2 : -(r0 + r1 + r2) ≤ d) (h3 : -r0 + r1 + r2 ≤ d) (h4 : -(-r0 + r1 + r2) ≤ d)
    (h5 : -r0 - r1 + r2 ≤ d) (h6 : -(-r0 - r1 + r2) ≤ d) (h7 : r0 - r1 + r2 ≤ d) (h8 : -(r0 - r1 + r2) ≤ d) : |r0| + |r1| + |r2| ≤ d := by
  rcases abs_cases r0 with ⟨e0, -⟩ | ⟨e0, -⟩ <;> rcases abs_cases r1 with ⟨e1, -⟩ | ⟨e1, -⟩ <;>
    rcases abs_cases r2 with ⟨e2, -⟩ | ⟨e2, -⟩ <;> rw [e0, e1, e2] <;> linarith

theorem cond_th (b r0 r1 r2 : ℝ) (hb : 1 ≤ b) : (∀ g ∈ table_th.map (evalQ (d := 2) (by norm_num)), Cond b r0 r1 r2 g) ↔
    |r0| + |r1| + |r2| ≤ 2 * b - 1 ∧ |r0| ≤ b ∧ |r1| ≤ b ∧ |r2| ≤ b := by
  simp [table_th, evalQ, Zsqrtd.toReal, -neg_add_rev, Cond, hb]
  constructor
  · rintro ⟨a0, a1, a2, h1, h2, h3, h4, h5, h6, h7, h8⟩
    rw [abs_le] at h1 h2 h3 h4 h5 h6 h7 h8
    exact ⟨abs_sum (by linarith) (by linarith) (by linarith) (by linarith) (by linarith) (by linarith) (by linarith) (by linarith),
      a0, a1, a2⟩
  · rintro ⟨h, a0, a1, a2⟩
    refine ⟨a0, a1, a2, ?_⟩
    have i0 := neg_abs_le r0
    have j0 := le_abs_self r0
    have i1 := neg_abs_le r1
    have j1 := le_abs_self r1
    have i2 := neg_abs_le r2
    have j2 := le_abs_self r2
    simp only [abs_le]
    refine ⟨⟨?_, ?_⟩, ⟨?_, ?_⟩, ⟨?_, ?_⟩, ⟨?_, ?_⟩, ⟨?_, ?_⟩, ⟨?_, ?_⟩, ⟨?_, ?_⟩, ⟨?_, ?_⟩⟩ <;> linarith

/-- The conditions of the full cubic group follow from those on the single components and on their sum. -/
theorem cond_oh_of (b r0 r1 r2 : ℝ) (hb : 1 ≤ b) (h : |r0| + |r1| + |r2| ≤ 2 * b - 1) (hb' : b ≤ 1.1) (e : ℝ) (he : e ≤ 1.4142 * (b - 1))
    (a0 : |r0| ≤ √2 - 1 + e) (a1 : |r1| ≤ √2 - 1 + e) (a2 : |r2| ≤ √2 - 1 + e) :
    ∀ g ∈ table_oh.map (evalQ (d := 2) (by norm_num)), Cond b r0 r1 r2 g := by
  obtain ⟨s1, s2, s3⟩ := sq2
  have i0 := neg_abs_le r0
  have j0 := le_abs_self r0
  have i1 := neg_abs_le r1
  have j1 := le_abs_self r1
  have i2 := neg_abs_le r2
  have j2 := le_abs_self r2
  have quarter : ∀ r : ℝ, |r| ≤ √2 - 1 + e → |√2 / 2 - r * (√2 / 2)| ≤ b ∧ |-√2 / 2 - r * (√2 / 2)| ≤ b ∧ |r| ≤ b ∧ |r * (√2 / 2)| ≤ b / 2 := by
    intro r hr
    have k1 := neg_abs_le r
    have k2 := le_abs_self r
    have n0 := abs_nonneg r
    have m1 : |r| * (√2 / 2) ≤ b - √2 / 2 := by
      have : |r| * (√2 / 2) ≤ (√2 - 1 + 1.4142 * (b - 1)) * (√2 / 2) := mul_le_mul_of_nonneg_right (by linarith) (by positivity)
      nlinarith
    have m2 : -(|r| * (√2 / 2)) ≤ r * (√2 / 2) ∧ r * (√2 / 2) ≤ |r| * (√2 / 2) := ⟨by nlinarith, by nlinarith⟩
    have m3 : 0 ≤ |r| * (√2 / 2) := by positivity
    simp only [abs_le]
    refine ⟨⟨by linarith, by linarith⟩, ⟨by linarith, by linarith⟩, ⟨by linarith, by linarith⟩, by linarith, by linarith⟩
  obtain ⟨q0, q1, q2, q3⟩ := quarter r0 a0
  obtain ⟨t0, t1, t2, t3⟩ := quarter r1 a1
  obtain ⟨u0, u1, u2, u3⟩ := quarter r2 a2
  simp [table_oh, evalQ, Zsqrtd.toReal, -neg_add_rev, Cond, hb]
  rw [abs_le] at q3 t3 u3
  refine ⟨q0, q2, q1, t0, t2, t1, u0, u2, u1, ?_⟩
  simp only [abs_le]
  have n : ∀ r : ℝ, r * (-√2 / 2) = -(r * (√2 / 2)) := fun r => by ring
  simp only [n]
  refine ⟨⟨?_, ?_⟩, ⟨?_, ?_⟩, ⟨?_, ?_⟩, ⟨?_, ?_⟩, ⟨?_, ?_⟩, ⟨?_, ?_⟩, ⟨?_, ?_⟩, ⟨?_, ?_⟩, ⟨?_, ?_⟩, ⟨?_, ?_⟩, ⟨?_, ?_⟩, ⟨?_, ?_⟩, ⟨?_, ?_⟩, ⟨?_, ?_⟩⟩ <;> linarith

theorem cond_oh_imp (r0 r1 r2 : ℝ) (h : ∀ g ∈ table_oh.map (evalQ (d := 2) (by norm_num)), Cond 1 r0 r1 r2 g) :
    |r0| + |r1| + |r2| ≤ 1 ∧ |r0| ≤ √2 - 1 ∧ |r1| ≤ √2 - 1 ∧ |r2| ≤ √2 - 1 := by
  simp [table_oh, evalQ, Zsqrtd.toReal, -neg_add_rev, Cond] at h
  obtain ⟨q0, -, q1, t0, -, t1, u0, -, u1, h1, h2, h3, h4, h5, h6, h7, h8, -⟩ := h
  rw [abs_le] at h1 h2 h3 h4 h5 h6 h7 h8
  exact ⟨abs_sum (by linarith) (by linarith) (by linarith) (by linarith) (by linarith) (by linarith) (by linarith) (by linarith),
    (h4' r0).1 ⟨q0, q1⟩, (h4' r1).1 ⟨t0, t1⟩, (h4' r2).1 ⟨u0, u1⟩⟩

theorem forall2_of (hs : ∀ i, sigma i = 1 ∨ sigma i = -1) : 
    List.Forall₂ SameUpToSign (quatOfLaueGroup sigma .ci) (table_ci.map (evalQ (d := 2) (by norm_num))) ∧
    List.Forall₂ SameUpToSign (quatOfLaueGroup sigma .c2h) (table_c2h.map (evalQ (d := 2) (by norm_num))) ∧
    List.Forall₂ SameUpToSign (quatOfLaueGroup sigma .c4h) (table_c4h.map (evalQ (d := 2) (by norm_num))) ∧
    List.Forall₂ SameUpToSign (quatOfLaueGroup sigma .d4h) (table_d4h.map (evalQ (d := 2) (by norm_num))) ∧
    List.Forall₂ SameUpToSign (quatOfLaueGroup sigma .c3i) (table_c3i.map (evalQ (d := 3) (by norm_num))) ∧
    List.Forall₂ SameUpToSign (quatOfLaueGroup sigma .d3d) (table_d3d.map (evalQ (d := 3) (by norm_num))) ∧
    List.Forall₂ SameUpToSign (quatOfLaueGroup sigma .c6h) (table_c6h.map (evalQ (d := 3) (by norm_num))) ∧
    List.Forall₂ SameUpToSign (quatOfLaueGroup sigma .d6h) (table_d6h.map (evalQ (d := 3) (by norm_num))) ∧
    List.Forall₂ SameUpToSign (quatOfLaueGroup sigma .th) (table_th.map (evalQ (d := 2) (by norm_num))) ∧
    List.Forall₂ SameUpToSign (quatOfLaueGroup sigma .oh) (table_oh.map (evalQ (d := 2) (by norm_num))) :=
  ⟨forall2_ci sigma hs, forall2_c2h sigma hs, forall2_c4h sigma hs, forall2_d4h sigma hs, forall2_c3i sigma hs,
    forall2_d3d sigma hs, forall2_c6h sigma hs, forall2_d6h sigma hs, forall2_th sigma hs, forall2_oh sigma hs⟩

theorem tan_sq {ro : Ro} {q : Quat ℝ} (h : Represents ro q) (t : ℝ) :
    (ro.x * t) ^ 2 + (ro.y * t) ^ 2 + (ro.z * t) ^ 2 = t ^ 2 := by
  have := h.1
  calc _ = (ro.x ^ 2 + ro.y ^ 2 + ro.z ^ 2) * t ^ 2 := by ring
    _ = _ := by rw [this, one_mul]

theorem lt_sqrt3 {t : ℝ} (h : t ^ 2 < 3) : ¬ √3 ≤ |t| := by
  intro hc
  have h0 := Real.sqrt_nonneg 3
  have := mul_self_le_mul_self h0 hc
  rw [sq3.1, abs_mul_abs_self] at this
  nlinarith

theorem sq_le_of_abs {r b : ℝ} (h : |r| ≤ b) : r ^ 2 ≤ b ^ 2 := by
  rw [← sq_abs r]
  exact pow_le_pow_left₀ (abs_nonneg r) h 2

theorem dihedral4 (ro : Ro) (t : ℝ) : insideDihedral ro t 4 ↔ ¬ √3 ≤ |t| ∧ |ro.z * t| ≤ √2 - 1 ∧
    ((|ro.x * t| ≤ 1 ∧ |ro.y * t| ≤ 1) ∧ 1 / √2 * |ro.x * t + ro.y * t| ≤ 1 ∧ 1 / √2 * |ro.x * t - ro.y * t| ≤ 1) := by
  unfold insideDihedral
  by_cases h1 : √3 ≤ |t|
  · simp [h1]
  · by_cases h2 : |ro.z * t| ≤ √2 - 1 <;> simp [h1, h2, bp]

theorem dihedral6 (ro : Ro) (t : ℝ) : insideDihedral ro t 6 ↔ ¬ √3 ≤ |t| ∧ |ro.z * t| ≤ 2 - √3 ∧
    ((((|1 / 2 * (ro.x * t) + √3 / 2 * (ro.y * t)| < 1 ∧ |√3 / 2 * (ro.x * t) + 1 / 2 * (ro.y * t)| < 1) ∧
          |1 / 2 * (ro.x * t) - √3 / 2 * (ro.y * t)| < 1) ∧
        |√3 / 2 * (ro.x * t) - 1 / 2 * (ro.y * t)| < 1) ∧
      |ro.x * t| ≤ 1 ∧ |ro.y * t| ≤ 1) := by
  unfold insideDihedral
  by_cases h1 : √3 ≤ |t|
  · simp [h1]
  · by_cases h2 : |ro.z * t| ≤ 2 - √3 <;> simp [h1, h2, bp]

/-- C108: for the point groups of the Laue classes -1, 2/m, 4/m, 4/mmm, -3 and 6/m, the test accepts exactly the orientations
of which no equivalent has a smaller rotation angle. -/
theorem inside_exact_partial (hs : ∀ i, sigma i = 1 ∨ sigma i = -1) (ro : Ro) (q : Quat ℝ) (h : Represents ro q) (pg : ℕ)
    (hpg : pg ∈ [1, 2, 3, 4, 5, 9, 10, 11, 12, 13, 14, 15, 16, 17, 21, 22, 23]) :
    insideFZ ro pg ↔ Reduced (quatOfLaueGroup sigma (laueOf pg)) q := by
  obtain ⟨f1, f2, f4, fd4, f3, -, f6, -⟩ := forall2_of sigma hs
  have g1 : True ↔ Reduced (quatOfLaueGroup sigma .ci) q := by
    rw [reduced_table f1]; simp [table_ci, evalQ, Zsqrtd.toReal, qmul]
  have g2 : insideCyclic ro 2 ↔ Reduced (quatOfLaueGroup sigma .c2h) q := by
    unfold insideCyclic
    split
    · next ht => rw [reduced_none f2 h ht]; simp [table_c2h, evalQ, Zsqrtd.toReal]
    · next ht => rw [reduced_some f2 h ht, cond_c2h]; simp [bp]
  have g4 : insideCyclic ro 4 ↔ Reduced (quatOfLaueGroup sigma .c4h) q := by
    unfold insideCyclic
    split
    · next ht => rw [reduced_none f4 h ht]; simp [table_c4h, evalQ, Zsqrtd.toReal]
    · next ht => rw [reduced_some f4 h ht, cond_c4h]; simp [bp]
  have g3 : insideCyclic ro 3 ↔ Reduced (quatOfLaueGroup sigma .c3i) q := by
    unfold insideCyclic
    split
    · next ht => rw [reduced_none f3 h ht]; simp [table_c3i, evalQ, Zsqrtd.toReal]
    · next ht => rw [reduced_some f3 h ht, cond_c3i]; simp [bp]
  have g6 : insideCyclic ro 6 ↔ Reduced (quatOfLaueGroup sigma .c6h) q := by
    unfold insideCyclic
    split
    · next ht => rw [reduced_none f6 h ht]; simp [table_c6h, evalQ, Zsqrtd.toReal]
    · next ht => rw [reduced_some f6 h ht, cond_c6h]; simp [bp]
  have gd4 : (match ro.t with | none => False | some t => insideDihedral ro t 4) ↔ Reduced (quatOfLaueGroup sigma .d4h) q := by
    split
    · next ht =>
      rw [reduced_none fd4 h ht]
      simp [table_d4h, evalQ, Zsqrtd.toReal]
      intro hz hx hy _ _
      have := h.1
      simp [hx, hy, hz] at this
    · next t ht =>
      rw [reduced_some fd4 h ht, cond_d4h]
      have e := tan_sq h t
      rw [dihedral4]
      constructor
      · exact fun hi => hi.2
      · rintro ⟨h1, h2⟩
        have s2 := sq2
        have a0 := sq_le_of_abs h2.1.1
        have a1 := sq_le_of_abs h2.1.2
        have a2 := sq_le_of_abs (h1.trans (by linarith : √2 - 1 ≤ 0.5))
        exact ⟨lt_sqrt3 (by nlinarith), h1, h2⟩
  simp only [List.mem_cons, List.not_mem_nil, or_false] at hpg
  rcases hpg with rfl | rfl | rfl | rfl | rfl | rfl | rfl | rfl | rfl | rfl | rfl | rfl | rfl | rfl | rfl | rfl | rfl
  · exact g1
  · exact g1
  · exact g2
  · exact g2
  · exact g2
  · exact g4
  · exact g4
  · exact g4
  · exact gd4
  · exact gd4
  · exact gd4
  · exact gd4
  · exact g3
  · exact g3
  · exact g6
  · exact g6
  · exact g6

/-- C108: for the Laue class 6/mmm every orientation that is accepted is in the fundamental zone, and every orientation
inside the zone (not on its boundary) is accepted. -/
theorem inside_hexagonal_partial (hs : ∀ i, sigma i = 1 ∨ sigma i = -1) (ro : Ro) (q : Quat ℝ) (h : Represents ro q) (pg : ℕ)
    (hpg : 24 ≤ pg ∧ pg ≤ 27) :
    (insideFZ ro pg → Reduced (quatOfLaueGroup sigma (laueOf pg)) q) ∧
      (StrictlyReduced (quatOfLaueGroup sigma (laueOf pg)) q → insideFZ ro pg) := by
  obtain ⟨-, -, -, -, -, -, -, f, -⟩ := forall2_of sigma hs
  have key : ((match ro.t with | none => False | some t => insideDihedral ro t 6) → Reduced (quatOfLaueGroup sigma .d6h) q) ∧
      (StrictlyReduced (quatOfLaueGroup sigma .d6h) q → (match ro.t with | none => False | some t => insideDihedral ro t 6)) := by
    constructor
    · split
      · exact False.elim
      · next t ht =>
        rw [reduced_some f h ht, cond_d6h]
        intro hi
        obtain ⟨-, hb, ⟨⟨⟨a, b⟩, c⟩, d⟩, e1, e2⟩ := (dihedral6 ro t).1 hi
        exact ⟨hb, a.le, b.le, c.le, d.le, e1, e2⟩
    · intro hst
      have hst' : ∀ g ∈ table_d6h.map (evalQ (d := 3) (by norm_num)), SameUpToSign g qone ∨ |(qmul q g).w| < |q.w| := by
        refine (forall_same f (fun g => SameUpToSign g qone ∨ |(qmul q g).w| < |q.w|) ?_).1 hst
        intro a b hab
        rw [mul_same hab]
        have : SameUpToSign a qone ↔ SameUpToSign b qone := by
          rcases hab with rfl | rfl
          · rfl
          · unfold SameUpToSign
            constructor
            · rintro (h | h)
              · right; rw [← h]; ext <;> simp [qneg]
              · left
                have := congrArg qneg h
                have e : ∀ x : Quat ℝ, qneg (qneg x) = x := fun x => by ext <;> simp [qneg]
                rwa [e, e] at this
            · rintro (h | h)
              · right; rw [h]
              · left; rw [h]; ext <;> simp [qneg]
        rw [this]
      have hred : Reduced (quatOfLaueGroup sigma .d6h) q := by
        rw [reduced_table f]
        intro g hg
        rcases hst' g hg with h1 | h1
        · have : |(qmul q g).w| = |q.w| := by rw [mul_same h1]; simp [qmul, qone]
          rw [this]
        · exact h1.le
      split
      · next ht =>
        rw [reduced_none f h ht] at hred
        simp [table_d6h, evalQ, Zsqrtd.toReal] at hred
        have := h.1
        obtain ⟨hz, hx, -, -, -, hy, -⟩ := hred
        simp [hx, hy, hz] at this
      · next t ht =>
        have hred2 := hred
        rw [reduced_some f h ht, cond_d6h] at hred2
        obtain ⟨b0, -, -, -, -, b1, b2⟩ := hred2
        have strict : ∀ g ∈ table_d6h.map (evalQ (d := 3) (by norm_num)), SameUpToSign g qone ∨
            |g.w - (ro.x * t * g.x + ro.y * t * g.y + ro.z * t * g.z)| < 1 := by
          intro g hg
          refine (hst' g hg).imp id fun h1 => ?_
          have h3 := h.2.2
          rw [ht] at h3
          obtain ⟨w0, w1, w2, w3⟩ := h3
          rw [mul_w w1 w2 w3] at h1
          have := abs_pos.2 w0
          by_contra hc
          nlinarith [not_lt.1 hc]
        have ne : ∀ g : Quat ℝ, g.w = 0 → ¬ SameUpToSign g qone := by
          rintro g hg (h1 | h1) <;> rw [h1] at hg <;> simp [qone, qneg] at hg
        have st : ∀ g : Quat ℝ, g ∈ table_d6h.map (evalQ (d := 3) (by norm_num)) → g.w = 0 → g.z = 0 → |ro.x * t * g.x + ro.y * t * g.y| < 1 := by
          intro g hg hw hz
          have := (strict g hg).resolve_left (ne g hw)
          rw [hw, hz] at this
          rw [← abs_neg]
          convert this using 2; ring
        have sqp := sq3
        have c1 := st (evalQ (d := 3) (by norm_num) ⟨⟨0, 0⟩, ⟨-1, 0⟩, ⟨0, -1⟩, ⟨0, 0⟩⟩) (List.mem_map_of_mem (by simp [table_d6h])) (by simp [evalQ, Zsqrtd.toReal]) (by simp [evalQ, Zsqrtd.toReal])
        have c2 := st (evalQ (d := 3) (by norm_num) ⟨⟨0, 0⟩, ⟨0, 1⟩, ⟨1, 0⟩, ⟨0, 0⟩⟩) (List.mem_map_of_mem (by simp [table_d6h])) (by simp [evalQ, Zsqrtd.toReal]) (by simp [evalQ, Zsqrtd.toReal])
        have c3 := st (evalQ (d := 3) (by norm_num) ⟨⟨0, 0⟩, ⟨-1, 0⟩, ⟨0, 1⟩, ⟨0, 0⟩⟩) (List.mem_map_of_mem (by simp [table_d6h])) (by simp [evalQ, Zsqrtd.toReal]) (by simp [evalQ, Zsqrtd.toReal])
        have c4 := st (evalQ (d := 3) (by norm_num) ⟨⟨0, 0⟩, ⟨0, -1⟩, ⟨1, 0⟩, ⟨0, 0⟩⟩) (List.mem_map_of_mem (by simp [table_d6h])) (by simp [evalQ, Zsqrtd.toReal]) (by simp [evalQ, Zsqrtd.toReal])
        simp [evalQ, Zsqrtd.toReal, -neg_add_rev] at c1 c2 c3 c4
        have a0 := sq_le_of_abs b1
        have a1 := sq_le_of_abs b2
        have a2 := sq_le_of_abs (b0.trans (by linarith : 2 - √3 ≤ 0.5))
        have e := tan_sq h t
        rw [dihedral6]
        refine ⟨lt_sqrt3 (by nlinarith), b0, ⟨⟨⟨?_, ?_⟩, ?_⟩, ?_⟩, b1, b2⟩
        · rw [← abs_neg]; convert c1 using 2; ring
        · convert c2 using 2; ring
        · rw [← abs_neg]; convert c3 using 2; ring
        · rw [← abs_neg]; convert c4 using 2; ring
  obtain ⟨h1, h2⟩ := hpg
  interval_cases pg <;> exact key

/-- C108: for the cubic point groups other than -43m every orientation of the fundamental zone is accepted, and an accepted
orientation is in the zone up to the tolerance: no equivalent has a scalar part larger by more than the factor 1 + 1e-8. -/
theorem inside_cubic_partial (hs : ∀ i, sigma i = 1 ∨ sigma i = -1) (ro : Ro) (q : Quat ℝ) (h : Represents ro q) (pg : ℕ)
    (hpg : pg ∈ [28, 29, 30, 32]) :
    (Reduced (quatOfLaueGroup sigma (laueOf pg)) q → insideFZ ro pg) ∧
      (insideFZ ro pg → ∀ p, Equivalent (quatOfLaueGroup sigma (laueOf pg)) p q → |p.w| ≤ (1 + 1e-8) * |q.w|) := by
  obtain ⟨-, -, -, -, -, -, -, -, ft, fo⟩ := forall2_of sigma hs
  have relax : ∀ {L M : List (Quat ℝ)}, List.Forall₂ SameUpToSign L M → ∀ t, ro.t = some t →
      (∀ g ∈ M, Cond (1 + 1e-8) (ro.x * t) (ro.y * t) (ro.z * t) g) → ∀ p, Equivalent L p q → |p.w| ≤ (1 + 1e-8) * |q.w| := by
    rintro L M hf t ht hM p ⟨g, hg, hp⟩
    have h3 := h.2.2
    rw [ht] at h3
    obtain ⟨w0, w1, w2, w3⟩ := h3
    have := (forall_same hf (fun g => |(qmul q g).w| ≤ (1 + 1e-8) * |q.w|) (fun a b hab => by rw [mul_same hab])).2 (by
      intro g hg
      rw [mul_w w1 w2 w3, mul_comm]
      exact mul_le_mul_of_nonneg_right (hM g hg) (abs_nonneg _)) g hg
    rwa [abs_same hp]
  have kt : (Reduced (quatOfLaueGroup sigma .th) q → match ro.t with | none => False | some t => insideCubic ro t false) ∧
      ((match ro.t with | none => False | some t => insideCubic ro t false) → ∀ p, Equivalent (quatOfLaueGroup sigma .th) p q → |p.w| ≤ (1 + 1e-8) * |q.w|) := by
    split
    · next ht =>
      refine ⟨fun hr => ?_, False.elim⟩
      rw [reduced_none ft h ht] at hr
      simp [table_th, evalQ, Zsqrtd.toReal] at hr
      have := h.1
      obtain ⟨hx, hy, hz, -⟩ := hr
      simp [hx, hy, hz] at this
    · next t ht =>
      constructor
      · intro hr
        rw [reduced_some ft h ht, cond_th 1 _ _ _ le_rfl] at hr
        refine ⟨by simp, ?_⟩
        have := hr.1
        linarith
      · rintro ⟨-, hc⟩
        refine relax ft t ht ?_
        rw [cond_th _ _ _ _ (by norm_num)]
        have n0 := abs_nonneg (ro.x * t)
        have n1 := abs_nonneg (ro.y * t)
        have n2 := abs_nonneg (ro.z * t)
        refine ⟨?_, ?_, ?_, ?_⟩ <;> linarith
  have ko : (Reduced (quatOfLaueGroup sigma .oh) q → match ro.t with | none => False | some t => insideCubic ro t true) ∧
      ((match ro.t with | none => False | some t => insideCubic ro t true) → ∀ p, Equivalent (quatOfLaueGroup sigma .oh) p q → |p.w| ≤ (1 + 1e-8) * |q.w|) := by
    split
    · next ht =>
      refine ⟨fun hr => ?_, False.elim⟩
      rw [reduced_none fo h ht] at hr
      simp [table_oh, evalQ, Zsqrtd.toReal] at hr
      have := h.1
      obtain ⟨hx, hy, hz, -⟩ := hr
      simp [hx, hy, hz] at this
    · next t ht =>
      constructor
      · intro hr
        rw [reduced_some fo h ht] at hr
        obtain ⟨a, b0, b1, b2⟩ := cond_oh_imp _ _ _ hr
        refine ⟨?_, by linarith⟩
        simp only [if_true, bp]
        have := max_le (max_le b0 b1) b2
        linarith
      · rintro ⟨hm, hc⟩
        simp only [if_true, bp] at hm
        refine relax fo t ht (cond_oh_of _ _ _ _ (by norm_num) (by linarith) (by norm_num) 1e-8 (by norm_num) ?_ ?_ ?_)
        · have := (le_max_left _ _).trans (le_max_left (max |ro.x * t| |ro.y * t|) |ro.z * t|)
          linarith
        · have := (le_max_right _ _).trans (le_max_left (max |ro.x * t| |ro.y * t|) |ro.z * t|)
          linarith
        · have := le_max_right (max |ro.x * t| |ro.y * t|) |ro.z * t|
          linarith
  simp only [List.mem_cons, List.not_mem_nil, or_false] at hpg
  rcases hpg with rfl | rfl | rfl | rfl
  · exact kt
  · exact kt
  · exact ko
  · exact ko

/-- C108: with a point group of the Laue class mmm nothing is accepted, because the function ends without a result. -/
theorem inside_orthorhombic (ro : Ro) (pg : ℕ) (hpg : 6 ≤ pg ∧ pg ≤ 8) : ¬ insideFZ ro pg := by
  obtain ⟨h1, h2⟩ := hpg
  have : ¬ (match ro.t with | none => False | some t => insideDihedral ro t 2) := by
    split
    · exact id
    · unfold insideDihedral
      split
      · exact id
      · simp only []
        split <;> exact id
  interval_cases pg <;> exact this

/-- Every unit quaternion has a Rodrigues vector. -/
theorem exists_represents (q : Quat ℝ) (hq : UnitQ q) : ∃ ro, Represents ro q := by
  have hn : q.w ^ 2 + q.x ^ 2 + q.y ^ 2 + q.z ^ 2 = 1 := by
    have := hq; unfold UnitQ norm2 at this; linarith [this]
  by_cases hw : q.w = 0
  · refine ⟨⟨q.x, q.y, q.z, none⟩, ?_, hq, Or.inl ?_⟩
    · simp only []
      rw [hw] at hn; linarith
    · ext <;> simp [hw]
  · by_cases hv : q.x ^ 2 + q.y ^ 2 + q.z ^ 2 = 0
    · have hx : q.x = 0 := by nlinarith [sq_nonneg q.x, sq_nonneg q.y, sq_nonneg q.z]
      have hy : q.y = 0 := by nlinarith [sq_nonneg q.x, sq_nonneg q.y, sq_nonneg q.z]
      have hz : q.z = 0 := by nlinarith [sq_nonneg q.x, sq_nonneg q.y, sq_nonneg q.z]
      exact ⟨⟨0, 0, 1, some 0⟩, by norm_num, hq, hw, by simp [hx], by simp [hy], by simp [hz]⟩
    · have hp : 0 < q.x ^ 2 + q.y ^ 2 + q.z ^ 2 := lt_of_le_of_ne (by positivity) (Ne.symm hv)
      have hs := Real.sqrt_pos.2 hp
      have hss := Real.sq_sqrt hp.le
      set m := √(q.x ^ 2 + q.y ^ 2 + q.z ^ 2) with hm
      refine ⟨⟨q.x / m, q.y / m, q.z / m, some (m / q.w)⟩, ?_, hq, hw, ?_, ?_, ?_⟩
      · simp only [div_pow, hss]
        rw [← add_div, ← add_div, div_self hv]
      all_goals simp only []; field_simp

/-- C108: for these point groups every orientation has an equivalent that is accepted, so that the accepted orientations
cover the whole orientation space. -/
theorem inside_covers_partial (hs : ∀ i, sigma i = 1 ∨ sigma i = -1) (q : Quat ℝ) (hq : UnitQ q) (pg : ℕ)
    (hpg : pg ∈ [1, 2, 3, 4, 5, 9, 10, 11, 12, 13, 14, 15, 16, 17, 21, 22, 23, 28, 29, 30, 32]) :
    ∃ p ro, Equivalent (quatOfLaueGroup sigma (laueOf pg)) p q ∧ Represents ro p ∧ insideFZ ro pg := by
  have hG := (laue_group sigma hs (laueOf pg)).1
  obtain ⟨p, -, up, ep, hmax⟩ := fundamental_spec _ hG q hq
  obtain ⟨ro, hro⟩ := exists_represents p up
  have hr : Reduced (quatOfLaueGroup sigma (laueOf pg)) p := by
    intro p' h'
    exact (hmax p' (equivalent_trans hG h' ep)).trans (le_abs_self _)
  refine ⟨p, ro, ep, hro, ?_⟩
  have hpg' : pg ∈ [1, 2, 3, 4, 5, 9, 10, 11, 12, 13, 14, 15, 16, 17, 21, 22, 23] ∨ pg ∈ [28, 29, 30, 32] := by
    simp only [List.mem_cons, List.not_mem_nil, or_false] at hpg ⊢
    omega
  rcases hpg' with h | h
  · exact (inside_exact_partial sigma hs ro p hro pg h).2 hr
  · exact (inside_cubic_partial sigma hs ro p hro pg h).1 hr

theorem sq_of_abs_mul {a b w : ℝ} (h : |a| ≤ b) : (w * a) ^ 2 ≤ b ^ 2 * w ^ 2 := by
  have := sq_le_of_abs h
  calc (w * a) ^ 2 = a ^ 2 * w ^ 2 := by ring
    _ ≤ _ := mul_le_mul_of_nonneg_right this (sq_nonneg w)

theorem inside3 {ro : Ro} {p : Quat ℝ} (h : Represents ro p) (hi : match ro.t with | none => False | some t => insideDihedral ro t 3) :
    3 * p.z ^ 2 ≤ p.w ^ 2 ∧ (√3 * p.x + p.y) ^ 2 ≤ 4 * p.w ^ 2 ∧ (√3 * p.x - p.y) ^ 2 ≤ 4 * p.w ^ 2 ∧ p.y ^ 2 ≤ p.w ^ 2 := by
  split at hi
  · exact hi.elim
  · next t ht =>
    have h3 := h.2.2
    rw [ht] at h3
    obtain ⟨-, h1, h2, h3⟩ := h3
    unfold insideDihedral at hi
    split at hi
    · exact hi.elim
    · simp only [] at hi
      split at hi
      · next hb =>
        have hs3 : (1 / √3) ^ 2 = 1 / 3 := by rw [div_pow, Real.sq_sqrt (by norm_num)]; norm_num
        have b1 := sq_of_abs_mul (w := p.w) hb
        have b2 := sq_of_abs_mul (w := p.w) hi.1
        have b3 := sq_of_abs_mul (w := p.w) hi.2.1
        have b4 := sq_of_abs_mul (w := p.w) hi.2.2
        refine ⟨?_, ?_, ?_, ?_⟩
        · rw [h3]; simp only [bp, hs3] at b1; linarith
        · rw [h1, h2]; linarith
        · rw [h1, h2]; linarith
        · rw [h2]; linarith
      · exact hi.elim

theorem toReal_mk {d : ℤ} (h : 0 ≤ d) (a b : ℤ) : Zsqrtd.toReal h (⟨a, b⟩ : ℤ√d) = a + b * √(d : ℝ) := by
  simp [Zsqrtd.toReal]

def F3 (p : Quat ℝ) : Prop :=
  3 * p.z ^ 2 ≤ p.w ^ 2 ∧ (√3 * p.x + p.y) ^ 2 ≤ 4 * p.w ^ 2 ∧ (√3 * p.x - p.y) ^ 2 ≤ 4 * p.w ^ 2 ∧ p.y ^ 2 ≤ p.w ^ 2

theorem f3_table : ∀ g ∈ table_d3d.map (evalQ (d := 3) (by norm_num)), ¬ F3 (qmul ⟨2 / 9, 5 / 9, 4 / 9, 6 / 9⟩ g) := by
  have s3 := sq3
  have s3' : √3 ^ 2 = 3 := Real.sq_sqrt (by norm_num)
  simp only [table_d3d, List.map_cons, List.map_nil, List.forall_mem_cons, evalQ, toReal_mk, qmul, F3]
  push_cast
  refine ⟨fun h => ?_, fun h => ?_, fun h => ?_, fun h => ?_, fun h => ?_, fun h => ?_, by simp⟩
  · have := h.1; ring_nf at this; linarith
  · have := h.1; ring_nf at this; linarith
  · have := h.2.2.2; ring_nf at this; linarith
  · have := h.1; ring_nf at this; linarith
  · have := h.1; ring_nf at this; linarith
  · have := h.2.2.1; ring_nf at this
    have c4 : √3 ^ 4 = 9 := by rw [show √3 ^ 4 = (√3 ^ 2) ^ 2 by ring, s3']; norm_num
    rw [c4] at this; linarith

/-- C108 is false for the point groups of the Laue class -3m: the zone of the test is turned by 30° against the symmetry
operations of `quatOfLaueGroup`, and this orientation has no accepted equivalent. -/
theorem inside_trigonal_gap (hs : ∀ i, sigma i = 1 ∨ sigma i = -1) (pg : ℕ) (hpg : 18 ≤ pg ∧ pg ≤ 20) :
    ∃ q : Quat ℝ, UnitQ q ∧ ∀ p ro, Equivalent (quatOfLaueGroup sigma (laueOf pg)) p q → Represents ro p → ¬ insideFZ ro pg := by
  obtain ⟨-, -, -, -, -, f, -⟩ := forall2_of sigma hs
  have key : ∀ p ro, Equivalent (quatOfLaueGroup sigma .d3d) p ⟨2 / 9, 5 / 9, 4 / 9, 6 / 9⟩ → Represents ro p →
      ¬ (match ro.t with | none => False | some t => insideDihedral ro t 3) := by
    rintro p ro ⟨g, hg, hp⟩ hro hi
    have hin : F3 p := inside3 hro hi
    have hq := (forall_same f (fun g => ¬ F3 (qmul ⟨2 / 9, 5 / 9, 4 / 9, 6 / 9⟩ g)) (by
      rintro a b (rfl | rfl)
      · rfl
      · simp only [qmul, qneg, F3]
        ring_nf)).2 f3_table
    refine hq g hg ?_
    rcases hp with rfl | rfl
    · exact hin
    · have e : ∀ x : Quat ℝ, F3 (qneg x) → F3 x := by
        rintro x ⟨h1, h2, h3, h4⟩
        simp only [qneg] at h1 h2 h3 h4
        exact ⟨by linarith, by linarith, by linarith, by linarith⟩
      exact e _ hin
  refine ⟨⟨2 / 9, 5 / 9, 4 / 9, 6 / 9⟩, by norm_num [UnitQ, norm2], ?_⟩
  obtain ⟨h1, h2⟩ := hpg
  interval_cases pg <;> exact key

def F6 (p : Quat ℝ) : Prop := p.z ^ 2 ≤ (2 - √3) ^ 2 * p.w ^ 2 ∧ (p.x + √3 * p.y) ^ 2 < 4 * p.w ^ 2

theorem inside6 {ro : Ro} {p : Quat ℝ} (h : Represents ro p) (hi : match ro.t with | none => False | some t => insideDihedral ro t 6) :
    F6 p := by
  split at hi
  · exact hi.elim
  · next t ht =>
    have h3 := h.2.2
    rw [ht] at h3
    obtain ⟨h0, h1, h2, h3⟩ := h3
    obtain ⟨-, hb, ⟨⟨⟨a, -⟩, -⟩, -⟩, -⟩ := (dihedral6 ro t).1 hi
    have b1 := sq_of_abs_mul (w := p.w) hb
    refine ⟨by rw [h3]; linarith, ?_⟩
    have hw : 0 < p.w ^ 2 := by positivity
    have a2 : (1 / 2 * (ro.x * t) + √3 / 2 * (ro.y * t)) ^ 2 < 1 := by
      rw [← sq_abs]
      nlinarith [abs_nonneg (1 / 2 * (ro.x * t) + √3 / 2 * (ro.y * t))]
    rw [h1, h2]
    have := mul_lt_mul_of_pos_right a2 hw
    linarith

theorem f6_table : ∀ g ∈ table_d6h.map (evalQ (d := 3) (by norm_num)), ¬ F6 (qmul ⟨√2 / 2, √2 / 4, √2 * √3 / 4, 0⟩ g) := by
  have s3 := sq3
  have s3' : √3 ^ 2 = 3 := Real.sq_sqrt (by norm_num)
  have s2' : √2 ^ 2 = 2 := Real.sq_sqrt (by norm_num)
  have c3 : √3 ^ 3 = 3 * √3 := by rw [pow_succ, s3']
  have c4 : √3 ^ 4 = 9 := by rw [show √3 ^ 4 = (√3 ^ 2) ^ 2 by ring, s3']; norm_num
  have c5 : √3 ^ 5 = 9 * √3 := by rw [pow_succ, c4]
  simp only [table_d6h, List.map_cons, List.map_nil, List.forall_mem_cons, evalQ, toReal_mk, qmul, F6]
  push_cast
  refine ⟨fun h => ?_, fun h => ?_, fun h => ?_, fun h => ?_, fun h => ?_, fun h => ?_, fun h => ?_, fun h => ?_, fun h => ?_,
    fun h => ?_, fun h => ?_, fun h => ?_, by simp⟩
  · have := h.2; ring_nf at this; rw [s2', c4, s3'] at this; linarith
  · have := h.1; ring_nf at this; simp only [s2', c3, c4, s3', c5] at this; linarith
  · have := h.1; ring_nf at this; simp only [s2', c3, c4, s3', c5] at this; linarith
  · have := h.1; ring_nf at this; simp only [s2', c3, c4, s3', c5] at this; linarith
  · have := h.1; ring_nf at this; simp only [s2', c3, c4, s3', c5] at this; linarith
  · have := h.1; ring_nf at this; simp only [s2', c3, c4, s3', c5] at this; linarith
  · have := h.1; ring_nf at this; simp only [s2', c3, c4, s3', c5] at this; linarith
  · have := h.1; ring_nf at this; simp only [s2', c3, c4, s3', c5] at this; linarith
  · have := h.2; ring_nf at this; simp only [s2', c3, c4, s3', c5] at this; linarith
  · have := h.1; ring_nf at this; simp only [s2', c3, c4, s3', c5] at this; linarith
  · have := h.1; ring_nf at this; simp only [s2', c3, c4, s3', c5] at this; linarith
  · have := h.1; ring_nf at this; simp only [s2', c3, c4, s3', c5] at this; linarith

/-- C108 fails on the boundary for the point groups of the Laue class 6/mmm: four pairs of faces are left out on both sides, so
that a quarter turn about one of the two-fold axes has no accepted equivalent. -/
theorem inside_hexagonal_boundary (hs : ∀ i, sigma i = 1 ∨ sigma i = -1) (pg : ℕ) (hpg : 24 ≤ pg ∧ pg ≤ 27) :
    ∃ q : Quat ℝ, UnitQ q ∧ ∀ p ro, Equivalent (quatOfLaueGroup sigma (laueOf pg)) p q → Represents ro p → ¬ insideFZ ro pg := by
  obtain ⟨-, -, -, -, -, -, -, f, -⟩ := forall2_of sigma hs
  have key : ∀ p ro, Equivalent (quatOfLaueGroup sigma .d6h) p ⟨√2 / 2, √2 / 4, √2 * √3 / 4, 0⟩ → Represents ro p →
      ¬ (match ro.t with | none => False | some t => insideDihedral ro t 6) := by
    rintro p ro ⟨g, hg, hp⟩ hro hi
    have hin : F6 p := inside6 hro hi
    have hq := (forall_same f (fun g => ¬ F6 (qmul ⟨√2 / 2, √2 / 4, √2 * √3 / 4, 0⟩ g)) (by
      rintro a b (rfl | rfl)
      · rfl
      · simp only [qmul, qneg, F6]
        ring_nf)).2 f6_table
    refine hq g hg ?_
    rcases hp with rfl | rfl
    · exact hin
    · have e : ∀ x : Quat ℝ, F6 (qneg x) → F6 x := by
        rintro x ⟨h1, h2⟩
        simp only [qneg] at h1 h2
        exact ⟨by linarith, by linarith⟩
      exact e _ hin
  refine ⟨⟨√2 / 2, √2 / 4, √2 * √3 / 4, 0⟩, ?_, ?_⟩
  · have s3' : √3 ^ 2 = 3 := Real.sq_sqrt (by norm_num)
    have s2' : √2 ^ 2 = 2 := Real.sq_sqrt (by norm_num)
    simp only [UnitQ, norm2]
    ring_nf; rw [s2', s3']; norm_num
  obtain ⟨h1, h2⟩ := hpg
  interval_cases pg <;> exact key

/-- C108: with the point group -43m the zone of the group 23 is used, although the Laue class is m-3m: every orientation of the
fundamental zone is accepted, but so are others. -/
theorem inside_43m (hs : ∀ i, sigma i = 1 ∨ sigma i = -1) :
    (∀ ro q, Represents ro q → Reduced (quatOfLaueGroup sigma (laueOf 31)) q → insideFZ ro 31) ∧
      ∃ ro q p, Represents ro q ∧ insideFZ ro 31 ∧ Equivalent (quatOfLaueGroup sigma (laueOf 31)) p q ∧ 1.2 * |q.w| ≤ |p.w| := by
  constructor
  · intro ro q h hr
    have : insideFZ ro 32 := (inside_cubic_partial sigma hs ro q h 32 (by simp)).1 hr
    have e : (match ro.t with | none => False | some t => insideCubic ro t true) → (match ro.t with | none => False | some t => insideCubic ro t false) := by
      split
      · exact id
      · exact fun h => ⟨by simp, h.2⟩
    exact e this
  · obtain ⟨-, -, -, -, -, -, -, -, -, f⟩ := forall2_of sigma hs
    have hr : Represents ⟨0, 0, 1, some (3 / 4)⟩ ⟨4 / 5, 0, 0, 3 / 5⟩ := by
      refine ⟨by norm_num, by norm_num [UnitQ, norm2], by norm_num, by norm_num, by norm_num, by norm_num⟩
    have hn : ¬ ∀ g ∈ quatOfLaueGroup sigma .oh, |(qmul ⟨4 / 5, 0, 0, 3 / 5⟩ g).w| < 1.2 * (4 / 5) := by
      rw [forall_same f (fun g => |(qmul ⟨4 / 5, 0, 0, 3 / 5⟩ g).w| < 1.2 * (4 / 5)) (fun a b hab => by rw [mul_same hab])]
      intro hc
      have := hc (evalQ (d := 2) (by norm_num) ⟨⟨0, -1⟩, ⟨0, 0⟩, ⟨0, 0⟩, ⟨0, 1⟩⟩) (List.mem_map_of_mem (by simp [table_oh]))
      simp only [evalQ, toReal_mk, qmul] at this
      push_cast at this
      rw [abs_lt] at this
      have := sq2
      linarith
    push Not at hn
    obtain ⟨g, hg, hw⟩ := hn
    refine ⟨_, _, _, hr, ?_, ⟨g, hg, Or.inl rfl⟩, ?_⟩
    · show insideCubic _ _ false
      refine ⟨by simp, ?_⟩
      norm_num [abs_of_pos]
    · rw [show |(4 : ℝ) / 5| = 4 / 5 from abs_of_pos (by norm_num)]
      exact hw

example : ∃ ro q, Represents ro q ∧ insideFZ ro 32 ∧ q.z ≠ 0 := by
  refine ⟨⟨0, 0, 1, some (1 / 3)⟩, ⟨3 / √10, 0, 0, 1 / √10⟩, ?_, ?_, ?_⟩
  · have : √10 ^ 2 = 10 := Real.sq_sqrt (by norm_num)
    refine ⟨by norm_num, ?_, by positivity, by simp, by simp, by simp; ring⟩
    simp only [UnitQ, norm2]
    field_simp; rw [this]; norm_num
  · show insideCubic _ _ true
    have := sq2
    refine ⟨?_, by norm_num [abs_of_pos]⟩
    simp [bp, abs_of_pos]
    linarith
  · positivity

end Hexrd.RFZ
