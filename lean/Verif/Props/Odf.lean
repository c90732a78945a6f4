import Verif.Lemmas.OdfRot
import Verif.Props.Laue
import Mathlib.Analysis.SpecialFunctions.Trigonometric.Bounds
import Mathlib.Tactic.Push

/-!
# Orientation distribution functions: kernels, modes and texture index (C127)
-/
namespace Hexrd.Odf

open Matrix Spec Hexrd.Rotations Hexrd.Rotations.Spec

/-- The symmetries of a kernel are groups, each operator listed once. -/
def Grouped (k : Kernel) : Prop := IsGroup (ops k.crystal) ∧ IsGroup (ops k.sample)

/-- The kernel of two orientations, averaged over the symmetric images of the first. -/
noncomputable def kernelOf (k : Kernel) (r g : Mat) : ℝ :=
  imageMean (ops k.sample) (ops k.crystal) (fun x => bell k.norm k.kappa x g) r

theorem ops_of_quats {G : List (Quat ℝ)} (hG : IsRotGroup G) (hd : G.Pairwise (fun p q => ¬ SameUpToSign p q)) :
    IsGroup (ops (some G)) := by
  unfold ops
  simp only [Option.getD_some]
  refine ⟨?_, ?_, ?_, ?_, ?_⟩
  · intro g hg
    obtain ⟨q, hq, rfl⟩ := List.mem_map.1 hg
    exact rotMat_isRot (hG.unit q hq)
  · rw [List.Nodup, List.pairwise_map]
    refine hd.imp_of_mem ?_
    intro p q hp hq hpq h
    exact hpq ((rotMat_eq_iff p q (hG.unit p hp) (hG.unit q hq)).1 h)
  · obtain ⟨e, he, hs⟩ := hG.one
    exact List.mem_map.2 ⟨e, he, by rw [rotMat_same hs]; exact rotMat_one⟩
  · intro g hg h hh
    obtain ⟨p, hp, rfl⟩ := List.mem_map.1 hg
    obtain ⟨q, hq, rfl⟩ := List.mem_map.1 hh
    obtain ⟨m, hm, hs⟩ := hG.mul p hp q hq
    exact List.mem_map.2 ⟨m, hm, by rw [rotMat_same hs, rotMat_mul_aux]⟩
  · intro g hg
    obtain ⟨p, hp, rfl⟩ := List.mem_map.1 hg
    obtain ⟨m, hm, hs⟩ := hG.inv p hp
    exact List.mem_map.2 ⟨m, hm, by rw [rotMat_same hs, rotMat_conj]⟩

theorem ops_none : ops none = [1] := by unfold ops; simp [rotMat_one]

/-- C127: a symmetry argument is accepted if it is absent, an array, or a known label. Sample
symmetry also knows the three names of sample symmetries; a crystal symmetry does not. -/
theorem symmetry_accepted (sigma : ℕ → ℝ) :
    (∀ t, symQuats sigma false (.label (.tag t)) = some (some (quatOfLaueGroup sigma t))) ∧
      (∀ t, symQuats sigma true (.label (.tag t)) = some (some (quatOfLaueGroup sigma t))) ∧
      symQuats sigma true (.label .triclinic) = some (some (quatOfLaueGroup sigma .ci)) ∧
      symQuats sigma true (.label .monoclinic) = some (some (quatOfLaueGroup sigma .c2h)) ∧
      symQuats sigma true (.label .orthorhombic) = some (some (quatOfLaueGroup sigma .d2h)) ∧
      symQuats sigma false (.label .triclinic) = none ∧ symQuats sigma false (.label .monoclinic) = none ∧
      symQuats sigma false (.label .orthorhombic) = none ∧ (∀ b, symQuats sigma b (.label .other) = none) := by
  refine ⟨fun _ => rfl, fun _ => rfl, rfl, rfl, rfl, rfl, rfl, rfl, fun b => ?_⟩
  cases b <;> rfl

theorem symQuats_group {sigma : ℕ → ℝ} (hs : ∀ i, sigma i = 1 ∨ sigma i = -1) {b : Bool} {s : Symm}
    (hq : ∀ q, s ≠ .quats q) {r : Option (List (Quat ℝ))} (h : symQuats sigma b s = some r) : IsGroup (ops r) := by
  cases s with
  | absent =>
    simp only [symQuats, Option.some.injEq] at h
    subst h
    rw [ops_none]; exact group_one
  | quats q => exact absurd rfl (hq q)
  | label l =>
    simp only [symQuats, Option.map_eq_some_iff] at h
    obtain ⟨G, hG, rfl⟩ := h
    generalize (if b then sampleLabel l else l) = l' at hG
    cases l' with
    | tag t =>
      simp only [labelQuats, Option.some.injEq] at hG
      subst hG
      obtain ⟨h1, h2, -⟩ := laue_group sigma hs t
      exact ops_of_quats h1 h2
    | triclinic => simp [labelQuats] at hG
    | monoclinic => simp [labelQuats] at hG
    | orthorhombic => simp [labelQuats] at hG
    | other => simp [labelQuats] at hG

theorem mk_parts {sigma : ℕ → ℝ} {h : ℝ} {c s : Symm} {k : Kernel} (hk : mkKernel sigma h c s = some k) :
    0 < h ∧ 0 < Real.cos (h / 2) ∧ Real.cos (h / 2) ≠ 1 ∧ k.halfwidth = h ∧
      k.kappa = 0.5 * Real.log 0.5 / Real.log (Real.cos (h / 2)) ∧
      k.norm = beta 1.5 0.5 / beta 1.5 (k.kappa + 0.5) ∧
      symQuats sigma false c = some k.crystal ∧ symQuats sigma true s = some k.sample := by
  unfold mkKernel at hk
  split at hk
  · exact absurd hk (by simp)
  · rename_i h0
    simp only at hk
    split at hk
    · exact absurd hk (by simp)
    · rename_i h1
      push Not at h0 h1
      simp only [Option.bind_eq_bind, Option.bind_eq_some_iff] at hk
      obtain ⟨cq, hc, sq, hs, hk⟩ := hk
      simp only [Pure.pure, Option.some.injEq] at hk
      subst hk
      exact ⟨h0, h1.1, h1.2, rfl, rfl, rfl, hc, hs⟩

/-- C127: a kernel built from labels, or without symmetry, has groups as its symmetries. -/
theorem label_groups (sigma : ℕ → ℝ) (hs : ∀ i, sigma i = 1 ∨ sigma i = -1) (h : ℝ) (c s : Symm)
    (hc : ∀ q, c ≠ .quats q) (hs' : ∀ q, s ≠ .quats q) (k : Kernel) (hk : mkKernel sigma h c s = some k) :
    Grouped k := by
  obtain ⟨-, -, -, -, -, -, h1, h2⟩ := mk_parts hk
  exact ⟨symQuats_group hs hc h1, symQuats_group hs hs' h2⟩

theorem kappa_pos {sigma : ℕ → ℝ} {h : ℝ} {c s : Symm} {k : Kernel} (hk : mkKernel sigma h c s = some k) :
    0 < k.kappa := by
  obtain ⟨-, h1, h2, -, h3, -⟩ := mk_parts hk
  rw [h3]
  have h4 : Real.log (Real.cos (h / 2)) < 0 :=
    Real.log_neg h1 (lt_of_le_of_ne (Real.cos_le_one _) h2)
  have h5 : Real.log 0.5 < 0 := Real.log_neg (by norm_num) (by norm_num)
  exact div_pos_of_neg_of_neg (by linarith) h4

theorem norm_eq {sigma : ℕ → ℝ} {h : ℝ} {c s : Symm} {k : Kernel} (hk : mkKernel sigma h c s = some k) :
    k.norm = Real.pi / 2 / beta (3 / 2) (k.kappa + 1 / 2) := by
  obtain ⟨-, -, -, -, -, h4, -⟩ := mk_parts hk
  rw [h4, show (1.5 : ℝ) = 3 / 2 by norm_num, show (0.5 : ℝ) = 1 / 2 by norm_num, beta_half]

theorem norm_pos {sigma : ℕ → ℝ} {h : ℝ} {c s : Symm} {k : Kernel} (hk : mkKernel sigma h c s = some k) :
    0 < k.norm := by
  rw [norm_eq hk]
  have := beta_pos (kappa_pos hk).le
  have := Real.pi_pos
  positivity

/-- C127: every half-width strictly between 0 and `π` gives a kernel; none at or below 0, and none
from `π` up to `3π`. -/
theorem halfwidth_range (sigma : ℕ → ℝ) (h : ℝ) :
    (0 < h → h < Real.pi → ∃ k, mkKernel sigma h .absent .absent = some k) ∧
      (∀ c s, h ≤ 0 → mkKernel sigma h c s = none) ∧
      (∀ c s, Real.pi ≤ h → h ≤ 3 * Real.pi → mkKernel sigma h c s = none) := by
  refine ⟨fun h0 h1 => ?_, fun c s h0 => ?_, fun c s h0 h1 => ?_⟩
  · have c0 : 0 < Real.cos (h / 2) := Real.cos_pos_of_mem_Ioo ⟨by linarith, by linarith⟩
    have c1 : Real.cos (h / 2) < 1 := by
      have := Real.strictAntiOn_cos (a := 0) (b := h / 2) ⟨le_rfl, Real.pi_pos.le⟩ ⟨by linarith, by linarith⟩ (by linarith)
      simpa using this
    unfold mkKernel
    rw [if_neg (not_le.2 h0)]
    simp only
    rw [if_neg (by rintro (h | h) <;> linarith)]
    exact ⟨_, rfl⟩
  · unfold mkKernel; rw [if_pos h0]
  · unfold mkKernel
    split
    · rfl
    · have : Real.cos (h / 2) ≤ 0 := Real.cos_nonpos_of_pi_div_two_le_of_le (by linarith) (by linarith)
      simp only
      rw [if_pos (Or.inl this)]

/-- C127: the kernel is largest at angle 0, where it is the normalisation constant; it has fallen to
half of that at the half-width; and it falls all the way from 0 to `π`, where it is zero. -/
theorem kernel_shape (sigma : ℕ → ℝ) (h : ℝ) (c s : Symm) (k : Kernel) (hk : mkKernel sigma h c s = some k) :
    kernelValue k 0 = k.norm ∧ 0 < k.norm ∧ kernelValue k k.halfwidth = kernelValue k 0 / 2 ∧
      StrictAntiOn (kernelValue k) (Set.Icc 0 Real.pi) ∧ kernelValue k Real.pi = 0 := by
  have hκ := kappa_pos hk
  have hN := norm_pos hk
  obtain ⟨h0, h1, h2, hh, h3, -⟩ := mk_parts hk
  refine ⟨by simp [kernelValue], hN, ?_, ?_, ?_⟩
  · have e : Real.cos (h / 2) ^ (2 * k.kappa) = 1 / 2 := by
      rw [Real.rpow_def_of_pos h1, h3]
      have hl : Real.log (Real.cos (h / 2)) ≠ 0 :=
        (Real.log_neg h1 (lt_of_le_of_ne (Real.cos_le_one _) h2)).ne
      rw [show Real.log (Real.cos (h / 2)) * (2 * (0.5 * Real.log 0.5 / Real.log (Real.cos (h / 2)))) = Real.log 0.5 by
        field_simp; norm_num, Real.exp_log (by norm_num)]
      norm_num
    simp only [kernelValue, hh, e]
    simp
    ring
  · intro a ha b hb hab
    simp only [kernelValue]
    have ha1 := ha.1; have ha2 := ha.2; have hb1 := hb.1; have hb2 := hb.2
    have hc : Real.cos (b / 2) < Real.cos (a / 2) :=
      Real.strictAntiOn_cos ⟨by linarith, by linarith⟩ ⟨by linarith, by linarith⟩ (by linarith)
    have hc0 : 0 ≤ Real.cos (b / 2) := Real.cos_nonneg_of_mem_Icc ⟨by linarith, by linarith⟩
    exact mul_lt_mul_of_pos_left (Real.rpow_lt_rpow hc0 hc (by linarith)) hN
  · simp only [kernelValue, Real.cos_pi_div_two]
    rw [Real.zero_rpow (by linarith), mul_zero]

/-- C127: the mean of the kernel over all rotations is 1. -/
theorem kernel_mean (sigma : ℕ → ℝ) (h : ℝ) (c s : Symm) (k : Kernel) (hk : mkKernel sigma h c s = some k) :
    angleMean (kernelValue k) = 1 := by
  have hκ := kappa_pos hk
  have := mean_pow hκ.le k.norm
  unfold kernelValue
  rw [this, norm_eq hk]
  have hb := (beta_pos hκ.le).ne'
  have := Real.pi_pos.ne'
  generalize beta (3 / 2) (k.kappa + 1 / 2) = b at hb ⊢
  field_simp

theorem kernel_sq (k : Kernel) (ω : ℝ) (h0 : 0 ≤ ω) (h1 : ω ≤ Real.pi) :
    kernelValue k ω ^ 2 = k.norm ^ 2 * Real.cos (ω / 2) ^ (2 * (2 * k.kappa)) := by
  have hc0 : 0 ≤ Real.cos (ω / 2) := Real.cos_nonneg_of_mem_Icc ⟨by linarith, by linarith⟩
  unfold kernelValue
  rw [mul_pow]
  congr 1
  rw [← Real.rpow_natCast, ← Real.rpow_mul hc0]
  congr 1; push_cast; ring

theorem angleMean_congr {f g : ℝ → ℝ} (h : ∀ ω, 0 ≤ ω → ω ≤ Real.pi → f ω = g ω) : angleMean f = angleMean g := by
  unfold angleMean
  refine intervalIntegral.integral_congr fun ω hω => ?_
  rw [Set.uIcc_of_le Real.pi_pos.le] at hω
  simp only [h ω hω.1 hω.2]

theorem kernel_continuous {k : Kernel} (h : 0 ≤ k.kappa) : Continuous (kernelValue k) := by
  unfold kernelValue
  exact continuous_const.mul ((Real.continuous_cos.comp (continuous_id.div_const 2)).rpow_const
    (fun x => Or.inr (by linarith)))

theorem angleMean_one : angleMean (fun _ => 1) = 1 := by
  unfold angleMean
  simp only [one_mul]
  rw [intervalIntegral.integral_div, intervalIntegral.integral_sub (by simp)
    (Real.continuous_cos.intervalIntegrable _ _), integral_cos]
  simp [Real.pi_pos.ne']

/-- The mean square is at least the square of the mean, if that is 1. -/
theorem mean_sq_ge {f : ℝ → ℝ} (hf : Continuous f) (h1 : angleMean f = 1) : 1 ≤ angleMean (fun ω => f ω ^ 2) := by
  have w : Continuous fun ω : ℝ => (1 - Real.cos ω) / Real.pi := (continuous_const.sub Real.continuous_cos).div_const _
  have hnn : 0 ≤ angleMean (fun ω => (f ω - 1) ^ 2) := by
    unfold angleMean
    refine intervalIntegral.integral_nonneg Real.pi_pos.le fun ω _ => ?_
    have := Real.cos_le_one ω
    have := Real.pi_pos
    exact mul_nonneg (sq_nonneg _) (div_nonneg (by linarith) (by linarith))
  have e : angleMean (fun ω => (f ω - 1) ^ 2) = angleMean (fun ω => f ω ^ 2) - 2 * angleMean f + angleMean (fun _ => 1) := by
    unfold angleMean
    rw [← intervalIntegral.integral_const_mul, ← intervalIntegral.integral_sub, ← intervalIntegral.integral_add]
    · refine intervalIntegral.integral_congr fun ω _ => ?_
      ring
    · exact (((hf.pow 2).mul w).sub (continuous_const.mul (hf.mul w))).intervalIntegrable _ _
    · exact (continuous_const.mul w).intervalIntegrable _ _
    · exact ((hf.pow 2).mul w).intervalIntegrable _ _
    · exact (continuous_const.mul (hf.mul w)).intervalIntegrable _ _
  rw [e, h1, angleMean_one] at hnn
  linarith

/-- C127: where it gives a value, the closed form of the texture index is the mean over all rotations
of the square of the kernel, and it is at least 1. It gives none for several modes or under symmetry. -/
theorem analytic_index (sigma : ℕ → ℝ) (h : ℝ) (c s : Symm) (o : Unimodal) (hk : mkKernel sigma h c s = some o.kernel) :
    (∀ J, analyticIndex o = some J → J = angleMean (fun ω => kernelValue o.kernel ω ^ 2) ∧ 1 ≤ J) ∧
      (analyticIndex o ≠ none ↔ o.modes.length = 1 ∧ ¬ HasSymmetry o.kernel) := by
  have hκ := kappa_pos hk
  constructor
  · intro J hJ
    have e : J = angleMean (fun ω => kernelValue o.kernel ω ^ 2) := by
      unfold analyticIndex at hJ
      split at hJ
      · exact absurd hJ (by simp)
      · simp only [Option.some.injEq] at hJ
        rw [← hJ, angleMean_congr (kernel_sq o.kernel), mean_pow (by linarith), beta_symm]
        norm_num
    refine ⟨e, ?_⟩
    rw [e]
    exact mean_sq_ge (kernel_continuous hκ.le) (kernel_mean _ _ _ _ _ hk)
  · unfold analyticIndex
    split
    · rename_i hc
      constructor
      · intro h; exact absurd rfl h
      · rintro ⟨h1, h2⟩; rcases hc with hc | hc
        · exact absurd h1 hc
        · exact absurd hc h2
    · rename_i hc
      push Not at hc
      exact ⟨fun _ => hc, fun _ => by simp⟩

theorem kernel_of_trace (k : Kernel) {t : ℝ} (h0 : -1 ≤ t) (h1 : t ≤ 3) :
    kernelValue k (angleOfTrace t) = k.norm * ((1 + t) / 4) ^ k.kappa := by
  unfold kernelValue angleOfTrace
  rw [min_eq_right (by linarith), max_eq_right (by linarith)]
  rw [Real.cos_half (by have := Real.arccos_nonneg ((t - 1) / 2); have := Real.pi_pos; linarith) (Real.arccos_le_pi _),
    Real.cos_arccos (by linarith) (by linarith), Real.sqrt_eq_rpow, ← Real.rpow_mul (by linarith)]
  congr 1
  rw [show (1 + (t - 1) / 2) / 2 = (1 + t) / 4 by ring, show (1 / 2 : ℝ) * (2 * k.kappa) = k.kappa by ring]

/-- C127: without symmetry the kernel of two orientations depends on the trace of the relative rotation
alone; it is between 0 and the normalisation constant, and equal to that only for equal orientations. -/
theorem kernel_rotations (sigma : ℕ → ℝ) (h : ℝ) (c s : Symm) (k : Kernel) (hk : mkKernel sigma h c s = some k)
    (r g : Mat) (hr : IsRot r) (hg : IsRot g) :
    kernelValue k (rawAngle g r) = bell k.norm k.kappa r g ∧ 0 ≤ bell k.norm k.kappa r g ∧
      bell k.norm k.kappa r g ≤ k.norm ∧ (bell k.norm k.kappa r g = k.norm ↔ g = r) := by
  have hκ := kappa_pos hk
  have hN := norm_pos hk
  obtain ⟨b0, b1⟩ := trace_bounds (rot_mul (rot_transpose hg) hr)
  have x0 : 0 ≤ (1 + (gᵀ * r).trace) / 4 := by linarith
  have x1 : (1 + (gᵀ * r).trace) / 4 ≤ 1 := by linarith
  have y0 := Real.rpow_nonneg x0 k.kappa
  have y1 := Real.rpow_le_one x0 x1 hκ.le
  refine ⟨kernel_of_trace k b0 b1, mul_nonneg hN.le y0, ?_, ?_⟩
  · unfold bell; nlinarith
  · constructor
    · intro he
      apply eq_of_trace hg hr
      by_contra hne
      have : (1 + (gᵀ * r).trace) / 4 < 1 := by
        have := lt_of_le_of_ne b1 hne; linarith
      have := Real.rpow_lt_one x0 this hκ
      unfold bell at he
      nlinarith
    · rintro rfl
      unfold bell
      rw [hg.1]
      simp
      norm_num

theorem foldl_sum {α : Type} (f : α → ℝ) (l : List α) (a : ℝ) :
    l.foldl (fun t x => t + f x) a = a + (l.map f).sum := by
  induction l generalizing a with
  | nil => simp
  | cons b l ih => simp [ih, add_assoc]

theorem symValue_eq (k : Kernel) (ref g : Mat) :
    symValue k ref g = imageMean (ops k.sample) (ops k.crystal)
      (fun x => kernelValue k (angleOfTrace (gᵀ * x).trace)) ref := by
  unfold symValue imageMean
  congr 1
  simp only [foldl_sum]
  simp

theorem imageMean_congr {S C : List Mat} {f f' : Mat → ℝ} {r : Mat}
    (h : ∀ s ∈ S, ∀ c ∈ C, f (s * r * c) = f' (s * r * c)) : imageMean S C f r = imageMean S C f' r := by
  unfold imageMean
  congr 2
  refine List.map_congr_left fun s hs => ?_
  congr 1
  exact List.map_congr_left fun c hc => h s hs c hc

theorem symValue_spec (k : Kernel) (hG : Grouped k) (r g : Mat) (hr : IsRot r) (hg : IsRot g) :
    symValue k r g = kernelOf k r g := by
  rw [symValue_eq]
  refine imageMean_congr fun s hs c hc => ?_
  obtain ⟨b0, b1⟩ := trace_bounds (rot_mul (rot_transpose hg)
    (rot_mul (rot_mul (hG.2.rot s hs) hr) (hG.1.rot c hc)))
  exact kernel_of_trace k b0 b1

theorem bell_swap (N κ : ℝ) (g s r c : Mat) : bell N κ (s * r * c) g = bell N κ (sᵀ * g * cᵀ) r := by
  unfold bell; rw [trace_swap]

/-- C127: the symmetric kernel does not depend on the order of the two orientations. -/
theorem kernel_swap (k : Kernel) (hG : Grouped k) (r g : Mat) : kernelOf k r g = kernelOf k g r := by
  unfold kernelOf
  rw [imageMean_inv hG.2 hG.1]
  unfold imageMean
  congr 2
  refine List.map_congr_left fun s _ => ?_
  congr 1
  refine List.map_congr_left fun c _ => ?_
  rw [bell_swap]
  simp only [transpose_transpose]

/-- C127: the symmetric kernel is the same for symmetrically equivalent orientations: sample operators
act from the left and crystal operators from the right, on either orientation. -/
theorem kernel_invariant (k : Kernel) (hG : Grouped k) (r g s c : Mat) (hs : s ∈ ops k.sample) (hc : c ∈ ops k.crystal) :
    kernelOf k (s * r * c) g = kernelOf k r g ∧ kernelOf k r (s * g * c) = kernelOf k r g := by
  have h1 : ∀ r g, kernelOf k (s * r * c) g = kernelOf k r g := by
    intro r g
    unfold kernelOf
    rw [imageMean_right hG.1 hc, imageMean_left hG.2 hs]
  exact ⟨h1 r g, by rw [kernel_swap k hG, h1, kernel_swap k hG]⟩

theorem list_sum_bounds {α : Type} (l : List α) (f : α → ℝ) (a b : ℝ) (h : ∀ x ∈ l, a ≤ f x ∧ f x ≤ b) :
    l.length * a ≤ (l.map f).sum ∧ (l.map f).sum ≤ l.length * b := by
  induction l with
  | nil => simp
  | cons x l ih =>
    obtain ⟨i1, i2⟩ := ih fun y hy => h y (List.mem_cons_of_mem _ hy)
    obtain ⟨j1, j2⟩ := h x (by simp)
    simp only [List.map_cons, List.sum_cons, List.length_cons]
    push_cast
    constructor <;> nlinarith

theorem group_length {G : List Mat} (hG : IsGroup G) : (0 : ℝ) < G.length := by
  have := List.length_pos_of_mem hG.one
  exact_mod_cast this

theorem imageMean_bounds {S C : List Mat} (hS : IsGroup S) (hC : IsGroup C) (f : Mat → ℝ) (r : Mat) (a b : ℝ)
    (h : ∀ s ∈ S, ∀ c ∈ C, a ≤ f (s * r * c) ∧ f (s * r * c) ≤ b) :
    a ≤ imageMean S C f r ∧ imageMean S C f r ≤ b := by
  have h1 : ∀ s ∈ S, C.length * a ≤ (C.map fun c => f (s * r * c)).sum ∧ (C.map fun c => f (s * r * c)).sum ≤ C.length * b :=
    fun s hs => list_sum_bounds C _ a b fun c hc => h s hs c hc
  obtain ⟨h2, h3⟩ := list_sum_bounds S (fun s => (C.map fun c => f (s * r * c)).sum) _ _ h1
  have p1 := group_length hS
  have p2 := group_length hC
  unfold imageMean
  rw [le_div_iff₀ (by positivity), div_le_iff₀ (by positivity)]
  constructor <;> linarith

theorem single_le_sum {α : Type} (l : List α) (f : α → ℝ) (h : ∀ x ∈ l, 0 ≤ f x) (a : α) (ha : a ∈ l) :
    f a ≤ (l.map f).sum := by
  exact List.single_le_sum (by simpa using h) _ (List.mem_map.2 ⟨a, ha, rfl⟩)

/-- C127: the symmetric kernel is between 0 and the normalisation constant. It is at least the share of
one image: the plain kernel of any pair of images, divided by the number of operators. -/
theorem kernel_bounds (sigma : ℕ → ℝ) (h : ℝ) (c s : Symm) (k : Kernel) (hk : mkKernel sigma h c s = some k)
    (hG : Grouped k) (r g : Mat) (hr : IsRot r) (hg : IsRot g) :
    0 ≤ kernelOf k r g ∧ kernelOf k r g ≤ k.norm ∧
      ∀ s ∈ ops k.sample, ∀ c ∈ ops k.crystal,
        bell k.norm k.kappa (s * r * c) g / ((ops k.sample).length * (ops k.crystal).length) ≤ kernelOf k r g := by
  have hb : ∀ s ∈ ops k.sample, ∀ c ∈ ops k.crystal,
      0 ≤ bell k.norm k.kappa (s * r * c) g ∧ bell k.norm k.kappa (s * r * c) g ≤ k.norm := by
    intro s hs c hc
    have := kernel_rotations _ _ _ _ _ hk (s * r * c) g (rot_mul (rot_mul (hG.2.rot s hs) hr) (hG.1.rot c hc)) hg
    exact ⟨this.2.1, this.2.2.1⟩
  obtain ⟨h0, h1⟩ := imageMean_bounds hG.2 hG.1 (fun x => bell k.norm k.kappa x g) r 0 k.norm hb
  refine ⟨h0, h1, fun s hs c hc => ?_⟩
  unfold kernelOf imageMean
  have p1 := group_length hG.1
  have p2 := group_length hG.2
  rw [div_le_div_iff_of_pos_right (by positivity)]
  refine le_trans ?_ (single_le_sum (ops k.sample)
    (fun s => ((ops k.crystal).map fun c => bell k.norm k.kappa (s * r * c) g).sum) ?_ s hs)
  · exact single_le_sum (ops k.crystal) (fun c => bell k.norm k.kappa (s * r * c) g) (fun c hc => (hb s hs c hc).1) c hc
  · intro s hs
    refine List.sum_nonneg fun x hx => ?_
    obtain ⟨c, hc, rfl⟩ := List.mem_map.1 hx
    exact (hb s hs c hc).1

theorem trivial_ops {s : Option (List (Quat ℝ))} (hG : IsGroup (ops s)) (h : Trivial s) : ops s = [1] := by
  cases s with
  | none => exact ops_none
  | some l =>
    refine group_trivial hG fun g hg => ?_
    have hrot := hG.rot g hg
    obtain ⟨q, hq, rfl⟩ := List.mem_map.1 hg
    simp only [Option.getD_some] at hq
    have hu := unit_of_rot hrot
    rw [rotMat_trace, hu]
    have := h q hq
    rw [abs_le] at this
    have h1 : 0.9 ≤ |q.w| := by norm_num at this ⊢; linarith [this.1]
    have h2 : |q.w| ^ 2 = q.w ^ 2 := sq_abs _
    nlinarith

/-- C127: when the symmetry is dropped as trivial, it is: a group with all its rotations within the
tolerance of the identity is the identity alone, and the plain kernel is the symmetric one. -/
theorem fast_path (k : Kernel) (hG : Grouped k) (h : ¬ HasSymmetry k) (r g : Mat) :
    ops k.sample = [1] ∧ ops k.crystal = [1] ∧ kernelOf k r g = bell k.norm k.kappa r g := by
  unfold HasSymmetry at h
  push Not at h
  have h1 := trivial_ops hG.2 h.2
  have h2 := trivial_ops hG.1 h.1
  refine ⟨h1, h2, ?_⟩
  unfold kernelOf imageMean
  rw [h1, h2]
  simp

/-- C127: of the labels, only the triclinic ones are taken for no symmetry. -/
theorem label_symmetry (sigma : ℕ → ℝ) (hs : ∀ i, sigma i = 1 ∨ sigma i = -1) (t : LaueTag) :
    Trivial (some (quatOfLaueGroup sigma t)) ↔ t = .ci ∨ t = .s2 := by
  obtain ⟨h1, h2, h3⟩ := laue_group sigma hs t
  have hG := ops_of_quats h1 h2
  constructor
  · intro h
    have h4 := congrArg List.length (trivial_ops hG h)
    simp only [ops, Option.getD_some, List.length_map, h3, List.length_singleton] at h4
    cases t <;> simp [laueOrder] at h4 ⊢
  · intro ht q hq
    have hl : (quatOfLaueGroup sigma t).length = 1 := by rw [h3]; rcases ht with rfl | rfl <;> rfl
    obtain ⟨e, he, hse⟩ := h1.one
    obtain ⟨a, ha⟩ := List.length_eq_one_iff.1 hl
    rw [ha] at he hq
    rw [List.mem_singleton.1 hq, ← List.mem_singleton.1 he, sameUpToSign_abs hse]
    simp [Quat.qone]
    positivity

/-- C127: averaging over the images keeps the mean: under any mean that the operators leave alone, the
symmetric kernel has the mean of the plain one. -/
theorem symmetric_mean (k : Kernel) (hG : Grouped k) (M : (Mat → ℝ) → ℝ)
    (hM : IsMean (ops k.sample) (ops k.crystal) M) (r : Mat) :
    M (fun g => kernelOf k r g) = M (fun g => bell k.norm k.kappa r g) := by
  have hz : M (fun _ => 0) = 0 := by
    have := hM.smul 0 (fun _ => 0)
    simpa using this
  have hsum : ∀ {α : Type} (l : List α) (f : α → Mat → ℝ), M (fun g => (l.map fun a => f a g).sum) = (l.map fun a => M (f a)).sum := by
    intro α l f
    induction l with
    | nil => simpa using hz
    | cons a l ih =>
      simp only [List.map_cons, List.sum_cons]
      rw [← ih]; exact hM.add (f a) _
  have hone : ∀ s ∈ ops k.sample, ∀ c ∈ ops k.crystal,
      M (fun g => bell k.norm k.kappa (s * r * c) g) = M (fun g => bell k.norm k.kappa r g) := by
    intro s hs c hc
    have h1 := hM.turn (fun g => bell k.norm k.kappa (s * r * c) g) s hs c hc
    rw [← h1]
    congr 1
    funext g
    unfold bell
    congr 3
    have es := (hG.2.rot s hs).1
    have ec := rot_mul_transpose (hG.1.rot c hc)
    have : ((s * g * c)ᵀ * (s * r * c)) = cᵀ * (gᵀ * r * c) := by
      simp only [transpose_mul, Matrix.mul_assoc]
      rw [← Matrix.mul_assoc sᵀ s, es, Matrix.one_mul]
    rw [this, Matrix.trace_mul_comm, Matrix.mul_assoc, ec, Matrix.mul_one]
  have p1 := group_length hG.1
  have p2 := group_length hG.2
  have e : (fun g => kernelOf k r g) = fun g => (((ops k.sample).length : ℝ) * (ops k.crystal).length)⁻¹ *
      ((ops k.sample).map fun s => ((ops k.crystal).map fun c => bell k.norm k.kappa (s * r * c) g).sum).sum := by
    funext g; unfold kernelOf imageMean; rw [div_eq_inv_mul]
  rw [e, hM.smul, hsum]
  have e2 : ((ops k.sample).map fun s => M fun g => ((ops k.crystal).map fun c => bell k.norm k.kappa (s * r * c) g).sum)
      = (ops k.sample).map fun _ => (ops k.crystal).length * M (fun g => bell k.norm k.kappa r g) := by
    refine List.map_congr_left fun s hs => ?_
    rw [hsum, List.map_congr_left (fun c hc => hone s hs c hc)]
    simp
  rw [e2]
  simp only [List.map_const', List.sum_replicate, nsmul_eq_mul]
  field_simp

end Hexrd.Odf
