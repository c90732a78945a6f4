import Verif.Model.Fiber
import Verif.Spec.Fiber
import Verif.Lemmas.Laue
import Verif.Props.Quat
import Mathlib.Algebra.Order.Round
import Mathlib.Analysis.SpecialFunctions.Complex.Arg
import Mathlib.Tactic.LinearCombination

/-!
# The orientation fibres of the seeded search (C98)
-/
namespace Hexrd.Rotations

open Matrix Quat Spec

theorem unitVec_along {v u : Fin 3 → ℝ} (h : UnitAlong v u) (hv : tenEps ^ 2 < sqLen v) : unitVec v = u := by
  obtain ⟨hu, r, hr, rfl⟩ := h
  have e : (r • u) 0 ^ 2 + (r • u) 1 ^ 2 + (r • u) 2 ^ 2 = r ^ 2 := by
    simp only [Pi.smul_apply, smul_eq_mul]; unfold sqLen at hu; linear_combination r ^ 2 * hu
  have ht : (0 : ℝ) ≤ tenEps := by unfold tenEps; positivity
  have h1 : tenEps < r := by
    unfold sqLen at hv; rw [e] at hv
    exact lt_of_pow_lt_pow_left₀ 2 hr.le hv
  funext i
  unfold unitVec unitLen
  rw [e, Real.sqrt_sq hr.le, if_neg (not_le.2 h1)]
  simp only [Pi.smul_apply, smul_eq_mul]
  rw [mul_comm, mul_div_assoc, div_self hr.ne', mul_one]

/-- The quaternion of a turn about a unit vector. -/
noncomputable def turn (t : ℝ) (c : Fin 3 → ℝ) : Quat ℝ := ⟨Real.cos t, Real.sin t * c 0, Real.sin t * c 1, Real.sin t * c 2⟩

/-- The quaternion of half a turn. -/
def half (a : Fin 3 → ℝ) : Quat ℝ := ⟨0, a 0, a 1, a 2⟩

theorem turn_unit (t : ℝ) {c : Fin 3 → ℝ} (hc : sqLen c = 1) : UnitQ (turn t c) := by
  unfold UnitQ norm2 turn; unfold sqLen at hc
  simp only
  linear_combination Real.sin t ^ 2 * hc + Real.sin_sq_add_cos_sq t

theorem half_unit {a : Fin 3 → ℝ} (ha : sqLen a = 1) : UnitQ (half a) := by
  unfold UnitQ norm2 half; unfold sqLen at ha
  simp only
  linear_combination ha

theorem turn_fixes (t : ℝ) {c : Fin 3 → ℝ} (hc : sqLen c = 1) : rotMat (turn t c) *ᵥ c = c := by
  unfold sqLen at hc
  have := Real.sin_sq_add_cos_sq t
  funext i
  fin_cases i <;> simp [rotMat, turn, mulVec, dotProduct, Fin.sum_univ_three]
  · linear_combination (c 0) * (Real.sin t ^ 2) * hc + c 0 * this
  · linear_combination (c 1) * (Real.sin t ^ 2) * hc + c 1 * this
  · linear_combination (c 2) * (Real.sin t ^ 2) * hc + c 2 * this

theorem half_acts {a c : Fin 3 → ℝ} (ha : sqLen a = 1) (i : Fin 3) :
    (rotMat (half a) *ᵥ c) i = 2 * (a 0 * c 0 + a 1 * c 1 + a 2 * c 2) * a i - c i := by
  unfold sqLen at ha
  fin_cases i <;> simp [rotMat, half, mulVec, dotProduct, Fin.sum_univ_three]
  · linear_combination (-c 0) * ha
  · linear_combination (-c 1) * ha
  · linear_combination (-c 2) * ha

theorem fiberTol_pos : 0 < fiberTol := by unfold fiberTol; positivity

/-- The axis is a unit vector; the half turn about it carries `c` to `s` when they are not nearly opposite, and
to `-c` otherwise. -/
theorem axis_spec {h : (Fin 3 → ℝ) → Fin 3 → ℝ} (hh : GivesPerp h) {c s : Fin 3 → ℝ} (hc : sqLen c = 1) (hs : sqLen s = 1) :
    sqLen (fiberAxis (h c) c s) = 1 ∧
    (fiberTol ^ 2 < sqLen (s + c) → rotMat (half (fiberAxis (h c) c s)) *ᵥ c = s) ∧
    (sqLen (s + c) ≤ fiberTol ^ 2 → rotMat (half (fiberAxis (h c) c s)) *ᵥ c = -c) := by
  have e : (s 0 + c 0) ^ 2 + (s 1 + c 1) ^ 2 + (s 2 + c 2) ^ 2 = sqLen (s + c) := by simp [sqLen]
  have h0 : 0 ≤ sqLen (s + c) := by rw [← e]; positivity
  have hlt : fiberTol < √(sqLen (s + c)) ↔ fiberTol ^ 2 < sqLen (s + c) := by
    rw [Real.lt_sqrt fiberTol_pos.le]
  unfold fiberAxis
  simp only [e]
  by_cases hk : fiberTol ^ 2 < sqLen (s + c)
  · rw [if_pos (hlt.2 hk)]
    have hn : 0 < √(sqLen (s + c)) := lt_trans fiberTol_pos (hlt.2 hk)
    have hq : √(sqLen (s + c)) ^ 2 = sqLen (s + c) := Real.sq_sqrt h0
    generalize √(sqLen (s + c)) = n at hn hq
    have hn' := hn.ne'
    rw [← e] at hq
    have hu : sqLen (fun i => (s i + c i) / n) = 1 := by
      unfold sqLen
      field_simp
      linear_combination -hq
    refine ⟨hu, fun _ => ?_, fun h => absurd hk (not_lt.2 h)⟩
    funext i
    rw [half_acts hu]
    unfold sqLen at hc hs
    have hd : n ^ 2 = 2 * ((s 0 + c 0) * c 0 + (s 1 + c 1) * c 1 + (s 2 + c 2) * c 2) := by
      linear_combination hq + hs - hc
    have : 2 * ((s 0 + c 0) / n * c 0 + (s 1 + c 1) / n * c 1 + (s 2 + c 2) / n * c 2) * ((s i + c i) / n) = s i + c i := by
      field_simp
      linear_combination -(s i + c i) * hd
    rw [this]; ring
  · rw [if_neg (fun h => hk (hlt.1 h))]
    obtain ⟨h1, h2⟩ := hh c hc
    refine ⟨h1, fun h => absurd h hk, fun _ => ?_⟩
    funext i
    rw [half_acts h1]
    have : h c 0 * c 0 + h c 1 * c 1 + h c 2 * c 2 = 0 := by linarith
    rw [this]; simp

/-- A column of the fibre. -/
theorem fiberQuat_same {h : (Fin 3 → ℝ)} {sigma : ℕ → ℝ} (hsg : ∀ i, sigma i = 1 ∨ sigma i = -1) (ndiv : ℕ)
    {c s : Fin 3 → ℝ} (hc : sqLen c = 1) (i : ℕ) :
    SameUpToSign (fiberQuat h sigma ndiv c s i) (qmul (half (fiberAxis h c s)) (turn (i * Real.pi / ndiv) c)) := by
  have ha : fiberPhi ndiv i / 2 = i * Real.pi / ndiv := by unfold fiberPhi; ring
  have hp : 0 ≤ fiberPhi ndiv i := by unfold fiberPhi; have := Real.pi_pos; positivity
  have hq := quatOfAngleAxis_same (sigma := sigma i) (a := fiberPhi ndiv i) (x := c 0) (y := c 1) (z := c 2) (hsg i) hp
    (Real.cos (i * Real.pi / ndiv)) (Real.sin (i * Real.pi / ndiv)) 1 (Real.sin (i * Real.pi / ndiv) * c 0)
    (Real.sin (i * Real.pi / ndiv) * c 1) (Real.sin (i * Real.pi / ndiv) * c 2) (by rw [ha]) (by rw [ha]) one_pos
    tenEps_lt_one (by unfold sqLen at hc; linarith) (by ring) (by ring) (by ring)
  unfold fiberQuat
  simp only []
  rw [prodRight_aux, ofVec_vec]
  exact (sameUpToSign_mul hq _).2

theorem carries_mul {p q : Quat ℝ} {a b c : Fin 3 → ℝ} (h : Carries q a b) (h' : Carries p b c) : Carries (qmul p q) a c := by
  unfold Carries at *
  rw [rotMat_mul, ← mulVec_mulVec, h, h']

theorem carries_same {p q : Quat ℝ} {a b : Fin 3 → ℝ} (h : SameUpToSign p q) (h' : Carries q a b) : Carries p a b := by
  unfold Carries at *
  rw [rotMat_same h, h']

theorem carries_conj {q : Quat ℝ} (hq : UnitQ q) {a b : Fin 3 → ℝ} (h : Carries q a b) : Carries (conj q) b a := by
  unfold Carries at *
  rw [← h, rotMat_conj, mulVec_mulVec, (rotMat_rotation q hq).2.1, one_mulVec]

/-- A rotation that leaves a direction alone is a turn about it. -/
theorem fixes_turn {u : Quat ℝ} (hu : UnitQ u) {c : Fin 3 → ℝ} (hc : sqLen c = 1) (h : Carries u c c) :
    ∃ t, u = turn t c := by
  have hm := rotMat_acts u c
  rw [show rotMat u *ᵥ c = c from h] at hm
  have hm2 : qmul u (Spec.pure c) = qmul (Spec.pure c) u := by
    have := congrArg (fun q => qmul q u) hm
    rw [mul_assoc', conj_mul, show norm2 u = 1 from hu] at this
    rw [← this]
    ext <;> simp [qmul]
  have hx := congrArg Quat.x hm2
  have hy := congrArg Quat.y hm2
  have hz := congrArg Quat.z hm2
  simp only [qmul, Spec.pure] at hx hy hz
  have hn : u.w ^ 2 + u.x ^ 2 + u.y ^ 2 + u.z ^ 2 = 1 := hu
  unfold sqLen at hc
  have k1 : u.y * c 2 = u.z * c 1 := by linarith
  have k2 : u.z * c 0 = u.x * c 2 := by linarith
  have k3 : u.x * c 1 = u.y * c 0 := by linarith
  generalize ht : u.x * c 0 + u.y * c 1 + u.z * c 2 = t
  have v0 : u.x = t * c 0 := by rw [← ht]; linear_combination (-u.x) * hc + c 1 * k3 - c 2 * k2
  have v1 : u.y = t * c 1 := by rw [← ht]; linear_combination (-u.y) * hc + c 2 * k1 - c 0 * k3
  have v2 : u.z = t * c 2 := by rw [← ht]; linear_combination (-u.z) * hc + c 0 * k2 - c 1 * k1
  have hw : u.w ^ 2 + t ^ 2 = 1 := by
    rw [v0, v1, v2] at hn; linear_combination hn - t ^ 2 * hc
  have hz : ‖(⟨u.w, t⟩ : ℂ)‖ = 1 := by
    rw [Complex.norm_def, Complex.normSq_mk]
    rw [show u.w * u.w + t * t = 1 by linear_combination hw, Real.sqrt_one]
  have hne : (⟨u.w, t⟩ : ℂ) ≠ 0 := fun h => by rw [h] at hz; simp at hz
  refine ⟨Complex.arg ⟨u.w, t⟩, ?_⟩
  have hcos := Complex.cos_arg hne
  have hsin := Complex.sin_arg (⟨u.w, t⟩ : ℂ)
  rw [hz, div_one] at hcos hsin
  simp only at hcos hsin
  ext <;> simp only [turn, hcos, hsin]
  · exact v0
  · exact v1
  · exact v2

theorem turn_comp_w (s t : ℝ) {c : Fin 3 → ℝ} (hc : sqLen c = 1) : (qmul (conj (turn s c)) (turn t c)).w = Real.cos (t - s) := by
  unfold sqLen at hc
  simp only [qmul, conj, turn, Real.cos_sub]
  linear_combination Real.sin s * Real.sin t * hc

/-- Every angle is within half a step of one of the angles of the fibre, up to half turns. -/
theorem near_step (t : ℝ) (n : ℕ) (hn : 0 < n) :
    ∃ i < n, Real.cos (Real.pi / (2 * n)) ≤ |Real.cos (t - i * Real.pi / n)| := by
  have hn' : (0 : ℝ) < n := by exact_mod_cast hn
  have hp := Real.pi_pos
  let m : ℤ := round (t * n / Real.pi)
  have hm : |t * n / Real.pi - m| ≤ 1 / 2 := abs_sub_round _
  have hz : (0 : ℤ) < n := by exact_mod_cast hn
  have h0 := Int.emod_nonneg m hz.ne'
  have h1 := Int.emod_lt_of_pos m hz
  refine ⟨(m % n).toNat, by omega, ?_⟩
  have hcast : (((m % n).toNat : ℕ) : ℝ) = (m : ℝ) - n * ((m / n : ℤ) : ℝ) := by
    have e1 : (((m % n).toNat : ℕ) : ℤ) = m - n * (m / n) := by
      rw [Int.toNat_of_nonneg h0]; have := Int.mul_ediv_add_emod m n; linarith
    have : ((((m % n).toNat : ℕ) : ℤ) : ℝ) = ((m - n * (m / n) : ℤ) : ℝ) := by rw [e1]
    push_cast at this; exact_mod_cast this
  have e : t - (((m % n).toNat : ℕ) : ℝ) * Real.pi / n = (t * n / Real.pi - m) * (Real.pi / n) + ((m / n : ℤ) : ℝ) * Real.pi := by
    rw [hcast]; field_simp; ring
  rw [e, Real.cos_add_int_mul_pi, abs_mul, show |((-1 : ℝ)) ^ (m / (n : ℤ))| = 1 by
    rw [abs_zpow]; simp, one_mul]
  have hb : |(t * n / Real.pi - m) * (Real.pi / n)| ≤ Real.pi / (2 * n) := by
    rw [abs_mul, abs_of_pos (show (0 : ℝ) < Real.pi / n by positivity)]
    calc _ ≤ 1 / 2 * (Real.pi / n) := by gcongr
      _ = _ := by field_simp
  refine le_trans ?_ (le_abs_self _)
  rw [← Real.cos_abs ((t * n / Real.pi - m) * (Real.pi / n))]
  refine Real.cos_le_cos_of_nonneg_of_le_pi (abs_nonneg _) ?_ hb
  rw [div_le_iff₀ (by positivity)]
  have : (1 : ℝ) ≤ n := by exact_mod_cast hn
  nlinarith

/-! ## C98 -/

theorem fiber_mem {h : (Fin 3 → ℝ) → Fin 3 → ℝ} {sigma : ℕ → ℝ} {B : Matrix (Fin 3) (Fin 3) ℝ} {ndiv : ℕ}
    {hkl s0 c s : Fin 3 → ℝ} (hc : UnitAlong (B *ᵥ hkl) c) (hs : UnitAlong s0 s)
    (lc : tenEps ^ 2 < sqLen (B *ᵥ hkl)) (ls : tenEps ^ 2 < sqLen s0) :
    discreteFiber h sigma B ndiv hkl s0 = (List.range ndiv).map fun i => fixQuat (fiberQuat (h c) sigma ndiv c s i) := by
  unfold discreteFiber
  simp only [unitVec_along hc lc, unitVec_along hs ls]

theorem fiberQuat_unit {h : (Fin 3 → ℝ) → Fin 3 → ℝ} (hh : GivesPerp h) {sigma : ℕ → ℝ}
    (hsg : ∀ i, sigma i = 1 ∨ sigma i = -1) (ndiv : ℕ) {c s : Fin 3 → ℝ} (hc : sqLen c = 1) (hs : sqLen s = 1) (i : ℕ) :
    UnitQ (fiberQuat (h c) sigma ndiv c s i) := by
  have hf := fiberQuat_same (h := h c) hsg ndiv (s := s) hc i
  unfold UnitQ
  rw [sameUpToSign_norm hf]
  exact unit_mul (half_unit (axis_spec hh hc hs).1) (turn_unit _ hc)

theorem fiberQuat_carries {h : (Fin 3 → ℝ) → Fin 3 → ℝ} (hh : GivesPerp h) {sigma : ℕ → ℝ}
    (hsg : ∀ i, sigma i = 1 ∨ sigma i = -1) (ndiv : ℕ) {c s : Fin 3 → ℝ} (hc : sqLen c = 1) (hs : sqLen s = 1) (i : ℕ) :
    Carries (fiberQuat (h c) sigma ndiv c s i) c (if fiberTol ^ 2 < sqLen (s + c) then s else -c) := by
  refine carries_same (fiberQuat_same hsg ndiv hc i) (carries_mul (turn_fixes _ hc) ?_)
  obtain ⟨-, h1, h2⟩ := axis_spec hh hc hs
  split
  · next h => exact h1 h
  · next h => exact h2 (not_lt.1 h)

/-- C98: a fibre has the requested number of orientations; all are unit quaternions with a scalar part that is
not negative; and each carries the lattice direction `B hkl` to the sample direction, exactly if the two directions are not
nearly opposite, or are exactly opposite, and in any case to within the tolerance. -/
theorem fiber_carries (h : (Fin 3 → ℝ) → Fin 3 → ℝ) (hh : GivesPerp h) (sigma : ℕ → ℝ)
    (hsg : ∀ i, sigma i = 1 ∨ sigma i = -1) (B : Matrix (Fin 3) (Fin 3) ℝ) (ndiv : ℕ) (hkl s0 c s : Fin 3 → ℝ)
    (hc : UnitAlong (B *ᵥ hkl) c) (hs : UnitAlong s0 s) (lc : tenEps ^ 2 < sqLen (B *ᵥ hkl)) (ls : tenEps ^ 2 < sqLen s0) :
    (discreteFiber h sigma B ndiv hkl s0).length = ndiv ∧
    ∀ q ∈ discreteFiber h sigma B ndiv hkl s0, UnitQ q ∧ 0 ≤ q.w ∧
      (fiberTol ^ 2 < sqLen (s + c) ∨ s = -c → Carries q c s) ∧
      sqLen (rotMat q *ᵥ c - s) ≤ fiberTol ^ 2 := by
  rw [fiber_mem hc hs lc ls]
  refine ⟨by simp, ?_⟩
  intro q hq
  obtain ⟨i, -, rfl⟩ := List.mem_map.1 hq
  have hu := fiberQuat_unit hh hsg ndiv hc.1 hs.1 i
  have hcar := fiberQuat_carries hh hsg ndiv hc.1 hs.1 i
  obtain ⟨f1, f2, -⟩ := fixQuat_unit hu
  have hcar' := carries_same f1 hcar
  have hun : UnitQ (fixQuat (fiberQuat (h c) sigma ndiv c s i)) := by
    unfold UnitQ; rw [sameUpToSign_norm f1]; exact hu
  refine ⟨hun, f2, ?_, ?_⟩
  · rintro (hk | hk)
    · rwa [if_pos hk] at hcar'
    · split at hcar'
      · exact hcar'
      · unfold Carries at hcar' ⊢; rw [hcar', hk]
  · unfold Carries at hcar'
    rw [hcar']
    split
    · simp [sqLen]; positivity
    · next hk =>
      have := not_lt.1 hk
      unfold sqLen at *
      simp only [Pi.sub_apply, Pi.neg_apply, Pi.add_apply] at *
      linarith

/-- The angle between a rotation that carries `c` to `s` and the nearest column. -/
theorem near_column {h : (Fin 3 → ℝ) → Fin 3 → ℝ} (hh : GivesPerp h) {sigma : ℕ → ℝ}
    (hsg : ∀ i, sigma i = 1 ∨ sigma i = -1) {ndiv : ℕ} (hn : 0 < ndiv) {c s : Fin 3 → ℝ} (hc : sqLen c = 1) (hs : sqLen s = 1)
    (hop : fiberTol ^ 2 < sqLen (s + c) ∨ s = -c) {p : Quat ℝ} (hp : UnitQ p) (hpc : Carries p c s) :
    ∃ i < ndiv, 2 * Real.arccos (cosHalf p (fiberQuat (h c) sigma ndiv c s i)) ≤ Real.pi / ndiv := by
  obtain ⟨ha, h1, h2⟩ := axis_spec hh hc hs
  have hq0 : Carries (half (fiberAxis (h c) c s)) c s := by
    rcases hop with k | k
    · exact h1 k
    · by_cases k2 : fiberTol ^ 2 < sqLen (s + c)
      · exact h1 k2
      · have := h2 (not_lt.1 k2)
        unfold Carries; rw [this, k]
  generalize hA : fiberAxis (h c) c s = a at *
  have hu0 := half_unit ha
  have hfix : Carries (qmul (conj (half a)) p) c c := carries_mul hpc (carries_conj hu0 hq0)
  have hun : UnitQ (qmul (conj (half a)) p) := unit_mul (unit_conj hu0) hp
  obtain ⟨t, ht⟩ := fixes_turn hun hc hfix
  obtain ⟨i, hi, hcos⟩ := near_step t ndiv hn
  refine ⟨i, hi, ?_⟩
  have hsame := fiberQuat_same (h := h c) hsg ndiv (s := s) hc i
  rw [hA] at hsame
  rw [cosHalf_congr hsame, cosHalf_comm]
  have e : (qmul (conj (qmul (half a) (turn (i * Real.pi / ndiv) c))) p).w = Real.cos (t - i * Real.pi / ndiv) := by
    rw [conj_qmul, mul_assoc', ht, turn_comp_w _ _ hc]
  unfold cosHalf
  rw [e]
  have hn' : (0 : ℝ) < ndiv := by exact_mod_cast hn
  have hn1 : (1 : ℝ) ≤ ndiv := by exact_mod_cast hn
  have hp0 := Real.pi_pos
  have hle : Real.pi / (2 * ndiv) ≤ Real.pi := by
    rw [div_le_iff₀ (by positivity)]; nlinarith
  have := Real.arccos_le_arccos hcos
  rw [Real.arccos_cos (by positivity) hle] at this
  calc _ ≤ 2 * (Real.pi / (2 * ndiv)) := by linarith
    _ = _ := by field_simp

/-- C98: no orientation is missed by more than half a step: every rotation that carries the lattice direction
to the sample direction is within `pi / ndiv` of an orientation of the fibre. -/
theorem fiber_covers (h : (Fin 3 → ℝ) → Fin 3 → ℝ) (hh : GivesPerp h) (sigma : ℕ → ℝ)
    (hsg : ∀ i, sigma i = 1 ∨ sigma i = -1) (B : Matrix (Fin 3) (Fin 3) ℝ) (ndiv : ℕ) (hn : 0 < ndiv)
    (hkl s0 c s : Fin 3 → ℝ)
    (hc : UnitAlong (B *ᵥ hkl) c) (hs : UnitAlong s0 s) (lc : tenEps ^ 2 < sqLen (B *ᵥ hkl)) (ls : tenEps ^ 2 < sqLen s0)
    (hop : fiberTol ^ 2 < sqLen (s + c) ∨ s = -c) (p : Quat ℝ) (hp : UnitQ p) (hpc : Carries p c s) :
    ∃ q ∈ discreteFiber h sigma B ndiv hkl s0, 2 * Real.arccos (cosHalf p q) ≤ Real.pi / ndiv := by
  rw [fiber_mem hc hs lc ls]
  obtain ⟨i, hi, hd⟩ := near_column hh hsg hn hc.1 hs.1 hop hp hpc
  refine ⟨_, List.mem_map.2 ⟨i, List.mem_range.2 hi, rfl⟩, ?_⟩
  rw [cosHalf_congr (fixQuat_unit (fiberQuat_unit hh hsg ndiv hc.1 hs.1 i)).1]
  exact hd

/-- C98: the orientations of a fibre are evenly spaced: the angle between number `i` and number `j` is that between
turns by `i` and `j` steps of `2 pi / ndiv`. -/
theorem fiber_spacing (h : (Fin 3 → ℝ) → Fin 3 → ℝ) (hh : GivesPerp h) (sigma : ℕ → ℝ)
    (hsg : ∀ i, sigma i = 1 ∨ sigma i = -1) (B : Matrix (Fin 3) (Fin 3) ℝ) (ndiv : ℕ) (hkl s0 c s : Fin 3 → ℝ)
    (hc : UnitAlong (B *ᵥ hkl) c) (hs : UnitAlong s0 s) (lc : tenEps ^ 2 < sqLen (B *ᵥ hkl)) (ls : tenEps ^ 2 < sqLen s0)
    (i j : ℕ) (p q : Quat ℝ) (hi : (discreteFiber h sigma B ndiv hkl s0)[i]? = some p)
    (hj : (discreteFiber h sigma B ndiv hkl s0)[j]? = some q) :
    cosHalf p q = |Real.cos (((j : ℝ) - i) * (2 * Real.pi / ndiv) / 2)| := by
  rw [fiber_mem hc hs lc ls] at hi hj
  simp only [List.getElem?_map, Option.map_eq_some_iff, List.getElem?_eq_some_iff, List.getElem_range] at hi hj
  obtain ⟨i', ⟨hi1, rfl⟩, rfl⟩ := hi
  obtain ⟨j', ⟨hj1, rfl⟩, rfl⟩ := hj
  have ha := (axis_spec hh hc.1 hs.1).1
  have key : ∀ k : ℕ, SameUpToSign (fixQuat (fiberQuat (h c) sigma ndiv c s k))
      (qmul (half (fiberAxis (h c) c s)) (turn (k * Real.pi / ndiv) c)) := fun k =>
    sameUpToSign_trans (fixQuat_unit (fiberQuat_unit hh hsg ndiv hc.1 hs.1 k)).1 (fiberQuat_same hsg ndiv hc.1 k)
  rw [cosHalf_congr (key j), cosHalf_comm, cosHalf_congr (key i), cosHalf_comm]
  unfold cosHalf
  rw [conj_qmul, mul_assoc', unit_conj_mul (half_unit ha), turn_comp_w _ _ hc.1]
  congr 2
  ring

/-- C98: with crystal symmetries the fibre is reduced without loss: it has as many orientations, each is unit and carries
a symmetric equivalent of the lattice direction to the sample direction, and every rotation that carries the lattice
direction to the sample direction is within `pi / ndiv` of one of them up to symmetry. -/
theorem fiberSym_spec (h : (Fin 3 → ℝ) → Fin 3 → ℝ) (hh : GivesPerp h) (sigma : ℕ → ℝ)
    (hsg : ∀ i, sigma i = 1 ∨ sigma i = -1) (G : List (Quat ℝ)) (hG : IsRotGroup G) (B : Matrix (Fin 3) (Fin 3) ℝ)
    (ndiv : ℕ) (hn : 0 < ndiv) (hkl s0 c s : Fin 3 → ℝ)
    (hc : UnitAlong (B *ᵥ hkl) c) (hs : UnitAlong s0 s) (lc : tenEps ^ 2 < sqLen (B *ᵥ hkl)) (ls : tenEps ^ 2 < sqLen s0)
    (hop : fiberTol ^ 2 < sqLen (s + c) ∨ s = -c) :
    ∃ l, discreteFiberSym h sigma G B ndiv hkl s0 = some l ∧ l.length = ndiv ∧
      (∀ r ∈ l, UnitQ r ∧ ∃ g ∈ G, Carries r (rotMat g *ᵥ c) s) ∧
      ∀ p, UnitQ p → Carries p c s → ∃ r ∈ l, ∃ d, quatDistance p r G = some d ∧ d ≤ Real.pi / ndiv := by
  unfold discreteFiberSym
  simp only [unitVec_along hc lc, unitVec_along hs ls]
  have hu := fun i => fiberQuat_unit hh hsg ndiv hc.1 hs.1 i
  have hcar : ∀ i, Carries (fiberQuat (h c) sigma ndiv c s i) c s := by
    intro i
    have := fiberQuat_carries hh hsg ndiv hc.1 hs.1 i
    split at this
    · exact this
    · next hk =>
      rcases hop with k | k
      · exact absurd k hk
      · unfold Carries at this ⊢; rw [this, k]
  have hm : ∀ n : List ℕ, ∃ l, (n.mapM fun i => toFundamentalRegion G (fiberQuat (h c) sigma ndiv c s i)) = some l ∧
      List.Forall₂ (fun i r => toFundamentalRegion G (fiberQuat (h c) sigma ndiv c s i) = some r) n l := by
    intro n
    induction n with
    | nil => exact ⟨[], rfl, .nil⟩
    | cons i n ih =>
      obtain ⟨l, hl, hf⟩ := ih
      obtain ⟨r, hr, -⟩ := fundamental_spec G hG _ (hu i)
      exact ⟨r :: l, by rw [List.mapM_cons, hr, hl]; rfl, .cons hr hf⟩
  obtain ⟨l, hl, hf⟩ := hm (List.range ndiv)
  refine ⟨l, hl, by simpa using hf.length_eq.symm, ?_, ?_⟩
  · intro r hr
    obtain ⟨i, hi⟩ : ∃ i, toFundamentalRegion G (fiberQuat (h c) sigma ndiv c s i) = some r := by
      clear hl
      generalize List.range ndiv = n at hf
      induction hf with
      | nil => simp at hr
      | cons a _ ih => rcases List.mem_cons.1 hr with rfl | h'
                       · exact ⟨_, a⟩
                       · exact ih h'
    obtain ⟨r', hr', ur, ⟨g, hg, er⟩, -⟩ := fundamental_spec G hG _ (hu i)
    rw [hi] at hr'; cases hr'
    obtain ⟨k, hk, hks⟩ := hG.inv g hg
    refine ⟨ur, k, hk, carries_same er (carries_mul (b := c) ?_ (hcar i))⟩
    unfold Carries
    rw [rotMat_same hks, mulVec_mulVec, rotMat_conj, (rotMat_rotation g (hG.unit g hg)).1, one_mulVec]
  · intro p hp hpc
    obtain ⟨i, hi, hd⟩ := near_column hh hsg hn hc.1 hs.1 hop hp hpc
    have hex : ∃ r ∈ l, toFundamentalRegion G (fiberQuat (h c) sigma ndiv c s i) = some r := by
      have hmem := List.mem_range.2 hi
      clear hl
      generalize List.range ndiv = n at hf hmem
      induction hf with
      | nil => simp at hmem
      | cons a _ ih =>
        rcases List.mem_cons.1 hmem with rfl | h'
        · exact ⟨_, List.mem_cons_self, a⟩
        · obtain ⟨r, hr, e⟩ := ih h'; exact ⟨r, List.mem_cons_of_mem _ hr, e⟩
    obtain ⟨r, hr, e⟩ := hex
    obtain ⟨r', hr', ur, heq, -⟩ := fundamental_spec G hG _ (hu i)
    rw [e] at hr'; cases hr'
    obtain ⟨d, hd1, -, -, -, hd2⟩ := distance_spec G hG p _ hp (hu i)
    refine ⟨r, hr, d, ?_, ?_⟩
    · rw [distance_equivalent G hG p p _ r hp (hu i) ?_ heq]
      · exact hd1
      · obtain ⟨e1, he1, hs1⟩ := hG.one
        refine ⟨e1, he1, sameUpToSign_symm ?_⟩
        have := (sameUpToSign_mul hs1 p).2
        rwa [mul_one'] at this
    · obtain ⟨e1, he1, hs1⟩ := hG.one
      have h3 := hd2 e1 he1
      have := (sameUpToSign_mul hs1 (fiberQuat (h c) sigma ndiv c s i)).2
      rw [mul_one'] at this
      rw [cosHalf_congr this] at h3
      linarith

/-- The hypotheses are met: the direction (0, 0, 2) of a cubic crystal and the sample direction (3, 0, 4); and there is a
rule for perpendicular directions. -/
example : UnitAlong ((1 : Matrix (Fin 3) (Fin 3) ℝ) *ᵥ ![0, 0, 2]) ![0, 0, 1] ∧ UnitAlong ![3, 0, 4] ![3 / 5, 0, 4 / 5] ∧
    tenEps ^ 2 < sqLen ((1 : Matrix (Fin 3) (Fin 3) ℝ) *ᵥ ![0, 0, 2]) ∧ tenEps ^ 2 < sqLen ![3, 0, 4] ∧
    fiberTol ^ 2 < sqLen ((![3 / 5, 0, 4 / 5] : Fin 3 → ℝ) + ![0, 0, 1]) := by
  refine ⟨⟨by simp [sqLen], 2, by norm_num, ?_⟩, ⟨by simp [sqLen]; norm_num, 5, by norm_num, ?_⟩, ?_, ?_, ?_⟩
  · rw [one_mulVec]; ext i; fin_cases i <;> norm_num
  · ext i; fin_cases i <;> norm_num
  · rw [one_mulVec]; simp [sqLen, tenEps]; norm_num
  · simp [sqLen, tenEps]; norm_num
  · have : fiberTol ^ 2 = 2 ^ (-52 : ℤ) := by unfold fiberTol; rw [Real.sq_sqrt (by positivity)]
    rw [this]; simp [sqLen]; norm_num

theorem perp_exists : ∃ h, GivesPerp h := by
  classical
  have : ∀ c : Fin 3 → ℝ, ∃ u : Fin 3 → ℝ, sqLen c = 1 → sqLen u = 1 ∧ c 0 * u 0 + c 1 * u 1 + c 2 * u 2 = 0 := by
    intro c
    by_cases h : c 0 ^ 2 + c 1 ^ 2 = 0
    · have h0 : c 0 = 0 := by nlinarith [sq_nonneg (c 0), sq_nonneg (c 1)]
      exact ⟨![1, 0, 0], fun _ => ⟨by simp [sqLen], by simp [h0]⟩⟩
    · have hp : 0 < c 0 ^ 2 + c 1 ^ 2 := lt_of_le_of_ne (by positivity) (Ne.symm h)
      have hq := Real.sq_sqrt hp.le
      have hr := (Real.sqrt_pos.2 hp).ne'
      refine ⟨![-c 1 / √(c 0 ^ 2 + c 1 ^ 2), c 0 / √(c 0 ^ 2 + c 1 ^ 2), 0], fun _ => ⟨?_, ?_⟩⟩
      · simp only [sqLen, cons_val_zero, cons_val_one, cons_val]
        generalize √(c 0 ^ 2 + c 1 ^ 2) = n at hq hr
        field_simp; linear_combination -hq
      · simp only [cons_val_zero, cons_val_one, cons_val]
        ring
  choose h hh using this
  exact ⟨h, hh⟩

end Hexrd.Rotations
