import Verif.Model.Snip
import Verif.Spec.Snip
import Mathlib.Tactic.Linarith
import Mathlib.Tactic.Positivity
import Mathlib.Tactic.Ring
import Mathlib.Tactic.FieldSimp
import Mathlib.Tactic.NormNum

/-!
# Lemmas about background estimation
-/
namespace Hexrd.Snip

open Finset Hexrd.Snip.Spec

/-! ### Scaling -/

theorem scale_nonneg {m y : ℝ} : 0 ≤ scale m y := by
  have h := Real.sqrt_nonneg (y - m)
  have h1 : 0 ≤ Real.log (√(y - m) + 1) := Real.log_nonneg (by linarith)
  exact Real.log_nonneg (by linarith)

theorem unscale_scale {m y : ℝ} (h : m ≤ y) : unscale m (scale m y) = y := by
  have h0 := Real.sqrt_nonneg (y - m)
  have h1 : 0 ≤ Real.log (√(y - m) + 1) := Real.log_nonneg (by linarith)
  unfold unscale scale
  rw [Real.exp_log (by linarith), add_sub_cancel_right, Real.exp_log (by linarith), add_sub_cancel_right,
    Real.sq_sqrt (by linarith)]
  ring

theorem unscale_mono {m z z' : ℝ} (h0 : 0 ≤ z) (h : z ≤ z') : unscale m z ≤ unscale m z' := by
  have h1 : 1 ≤ Real.exp z := Real.one_le_exp h0
  have h2 : Real.exp z ≤ Real.exp z' := Real.exp_le_exp.2 h
  have h3 : 1 ≤ Real.exp (Real.exp z - 1) := Real.one_le_exp (by linarith)
  have h4 : Real.exp (Real.exp z - 1) ≤ Real.exp (Real.exp z' - 1) := Real.exp_le_exp.2 (by linarith)
  have h5 : (Real.exp (Real.exp z - 1) - 1) ^ 2 ≤ (Real.exp (Real.exp z' - 1) - 1) ^ 2 :=
    pow_le_pow_left₀ (by linarith) (by linarith) 2
  unfold unscale
  linarith

theorem le_unscale (m z : ℝ) : m ≤ unscale m z := by
  have := sq_nonneg (Real.exp (Real.exp z - 1) - 1)
  unfold unscale
  linarith

theorem mem_values {rows cols : Nat} {y : Image} {v : ℝ} :
    v ∈ values rows cols y ↔ ∃ r < rows, ∃ c < cols, y r c = some v := by
  simp [values, List.mem_flatMap, List.mem_filterMap]

theorem nanmin_least {rows cols : Nat} {y : Image} {r c : Nat} {v : ℝ} (hr : r < rows) (hc : c < cols)
    (hv : y r c = some v) : ∃ m, nanmin rows cols y = some m ∧ m ≤ v := by
  have hm := mem_values.2 ⟨r, hr, c, hc, hv⟩
  unfold nanmin
  cases h : (values rows cols y).min? with
  | none => rw [List.min?_eq_none_iff] at h; rw [h] at hm; simp at hm
  | some m => exact ⟨m, rfl, (List.min?_eq_some_iff.1 h).2 v hm⟩

theorem nanmin_mem {rows cols : Nat} {y : Image} {m : ℝ} (h : nanmin rows cols y = some m) :
    (∃ r < rows, ∃ c < cols, y r c = some m) ∧ ∀ r < rows, ∀ c < cols, ∀ v, y r c = some v → m ≤ v := by
  have := List.min?_eq_some_iff.1 h
  exact ⟨mem_values.1 this.1, fun r hr c hc v hv => this.2 v (mem_values.2 ⟨r, hr, c, hc, hv⟩)⟩

/-! ### The convolution with the two-point kernel -/

theorem sum_ends {p : Nat} (hp : 1 ≤ p) (F : Nat → ℝ) (h : ∀ k, 0 < k → k < 2 * p → F k = 0) :
    ∑ k ∈ range (2 * p + 1), F k = F 0 + F (2 * p) := by
  rw [sum_range_succ]
  congr 1
  refine sum_eq_single 0 (fun k hk h0 => h k (by omega) (mem_range.1 hk)) (fun h => absurd (mem_range.2 (by omega)) h)

theorem kernel_sum {p : Nat} (hp : 1 ≤ p) : ∑ k ∈ range (2 * p + 1), kernel p k = 1 := by
  rw [sum_ends hp _ (fun k h0 h1 => by simp [kernel]; omega)]
  norm_num [kernel]

theorem padEdge_left (n p i : Nat) (hi : i < n) (z : Row) : padEdge n p z (i + 0) = z (left i p) := by
  unfold padEdge left
  congr 1
  split <;> omega

theorem padEdge_right (n p i : Nat) (z : Row) : padEdge n p z (i + 2 * p) = z (right n i p) := by
  unfold padEdge right
  congr 1
  split <;> omega

theorem padEdge_self (n p i : Nat) (hi : i < n) (z : Row) : padEdge n p z (i + p) = z i := by
  unfold padEdge
  congr 1
  omega

/-- The weight with which a value enters. -/
noncomputable def half : Option ℝ → ℝ
  | some _ => 1 / 2
  | none => 0

/-- Half of a value. -/
noncomputable def halfVal : Option ℝ → ℝ
  | some v => v * (1 / 2)
  | none => 0

theorem bot_kernel {n p i : Nat} (hp : 1 ≤ p) (hi : i < n) (a : Row) :
    bot (2 * p + 1) (kernel p) (padEdge n p a) i = half (a (left i p)) + half (a (right n i p)) := by
  unfold bot
  rw [sum_ends hp, padEdge_left n p i hi, padEdge_right]
  · congr 1
    · cases a (left i p) <;> simp [half, kernel]
    · cases a (right n i p) <;> simp [half, kernel]
  · intro k h0 h1
    have : ¬ (2 * p - k = 0 ∨ 2 * p - k = 2 * p) := by omega
    cases padEdge n p a (i + k) <;> simp [kernel, this]

theorem top_kernel {n p i : Nat} (hp : 1 ≤ p) (hi : i < n) (a : Row) :
    top (2 * p + 1) (kernel p) (padEdge n p a) i = halfVal (a (left i p)) + halfVal (a (right n i p)) := by
  unfold top
  rw [sum_ends hp, padEdge_left n p i hi, padEdge_right]
  · congr 1
    · cases a (left i p) <;> simp [halfVal, kernel]
    · cases a (right n i p) <;> simp [halfVal, kernel]
  · intro k h0 h1
    have : ¬ (2 * p - k = 0 ∨ 2 * p - k = 2 * p) := by omega
    cases padEdge n p a (i + k) <;> simp [kernel, this]

theorem left_lt {n i p : Nat} (hi : i < n) : left i p < n := by unfold left; split <;> omega

theorem right_lt {n i p : Nat} (hi : i < n) : right n i p < n := by unfold right; split <;> omega

/-- The convolution is the mean of the pixels at distance `p` that have a value, the pixel's own value if there is
none. -/
theorem convolve_kernel {n p i : Nat} (hp : 1 ≤ p) (hi : i < n) (z : Row) (mask : Nat → Bool) {v : ℝ}
    (hv : masked z mask i = some v) :
    ∃ c, convolve n z (2 * p + 1) (kernel p) mask i = some c ∧
      (IsMean n (masked z mask) i p c ∨
        (masked z mask (left i p) = none ∧ masked z mask (right n i p) = none ∧ c = v)) := by
  set a := masked z mask with ha
  have hw : (2 * p + 1) / 2 = p := by omega
  unfold convolve
  rw [← ha, hw, if_neg (by rw [hv]; simp)]
  split
  · rename_i hn
    unfold convolve1d
    rw [if_pos rfl, hw, padEdge_self n p i hi, bot_kernel hp hi, top_kernel hp hi, hv]
    cases hl : a (left i p) with
    | none =>
      cases hr : a (right n i p) with
      | none => exact ⟨v, by simp [half], Or.inr ⟨rfl, rfl, rfl⟩⟩
      | some u =>
        refine ⟨u, ?_, Or.inl (Or.inr (Or.inr ⟨hl, hr⟩))⟩
        simp [half, halfVal]
    | some u =>
      cases hr : a (right n i p) with
      | none =>
        refine ⟨u, ?_, Or.inl (Or.inr (Or.inl ⟨hl, hr⟩))⟩
        simp [half, halfVal]
      | some u' =>
        refine ⟨(u + u') / 2, ?_, Or.inl (Or.inl ⟨u, u', hl, hr, rfl⟩)⟩
        have : (half (some u) + half (some u') : ℝ) = 1 := by norm_num [half]
        rw [this, if_neg (by norm_num)]
        simp only [halfVal, Option.some.injEq]
        ring
  · rename_i hn
    simp only [decide_eq_true_eq, not_exists, not_and] at hn
    unfold convolve1d
    simp only [Bool.false_eq_true, if_false, Option.map_some]
    rw [kernel_sum hp, top_kernel hp hi]
    obtain ⟨u, hu⟩ := Option.ne_none_iff_exists'.1 (hn _ (left_lt (p := p) hi))
    obtain ⟨u', hu'⟩ := Option.ne_none_iff_exists'.1 (hn _ (right_lt (p := p) hi))
    refine ⟨(u + u') / 2, ?_, Or.inl (Or.inl ⟨u, u', hu, hu', rfl⟩)⟩
    rw [hu, hu']
    simp only [halfVal, Option.some.injEq]
    ring

theorem convolve_none {n p i : Nat} (z : Row) (mask : Nat → Bool) (hv : masked z mask i = none) :
    convolve n z (2 * p + 1) (kernel p) mask i = none := by
  unfold convolve
  rw [if_pos hv]

theorem convolve_congr {n nk : Nat} {g : Nat → ℝ} {z z' : Row} {mask mask' : Nat → Bool} (hn : 0 < n)
    (h : ∀ i < n, masked z mask i = masked z' mask' i) {i : Nat} (hi : i < n) :
    convolve n z nk g mask i = convolve n z' nk g mask' i := by
  have he : (∃ i < n, masked z mask i = none) ↔ ∃ i < n, masked z' mask' i = none := by
    constructor <;> rintro ⟨j, hj, hj'⟩ <;> exact ⟨j, hj, by rw [h j hj] at *; exact hj'⟩
  have hf : padEdge n (nk / 2) (masked z mask) = padEdge n (nk / 2) (masked z' mask') := by
    funext j
    exact h _ (by omega)
  unfold convolve
  rw [h i hi, hf]
  simp only [he]

end Hexrd.Snip
