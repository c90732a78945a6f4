import Verif.Props.Odf

/-!
# Orientation distribution functions: evaluation, modes, batches and indices (C127, C128)
-/
namespace Hexrd.Odf

open Matrix Spec Hexrd.Rotations Hexrd.Rotations.Spec

theorem eval_plain {k : Kernel} (hG : Grouped k) (hns : ¬ HasSymmetry k) (r g : Mat) (hr : IsRot r) (hg : IsRot g) :
    kernelValue k (rawAngle g r) = kernelOf k r g := by
  rw [(fast_path k hG hns r g).2.2]
  obtain ⟨b0, b1⟩ := trace_bounds (rot_mul (rot_transpose hg) hr)
  exact kernel_of_trace k b0 b1

/-- All entries are rotations. -/
def AllRot : Arr Mat → Prop
  | .one g => IsRot g
  | .many l => ∀ g ∈ l, IsRot g

/-- C127: the kernel of one orientation and an array of them is the symmetric kernel of every pair, with
or without the fast path. -/
theorem eval_reference (k : Kernel) (hG : Grouped k) (r : Mat) (hr : IsRot r) (a : Arr Mat) (ha : AllRot a) :
    eval k (.one r) a = some (a.map (kernelOf k r)) := by
  unfold eval
  split
  · unfold symEval
    simp only [Arr.count, if_true, Arr.single, Option.map_some]
    cases a with
    | one g => simp only [Arr.map, symValue_spec k hG r g hr ha]
    | many l =>
      simp only [Arr.map]
      rw [List.map_congr_left fun g hg => symValue_spec k hG r g hr (ha g hg)]
  · rename_i hns
    cases a with
    | one g =>
      simp only [broadcast, Arr.map]
      rw [eval_plain hG hns g r ha hr, kernel_swap k hG]
    | many l =>
      simp only [broadcast, Arr.map]
      rw [List.map_congr_left fun g hg => (eval_plain hG hns g r (ha g hg) hr).trans (kernel_swap k hG g r)]

/-- C127: an array with one orientation at the end: the same values. Under symmetry an array with a single
entry loses its axis. -/
theorem eval_batch (k : Kernel) (hG : Grouped k) (r : Mat) (hr : IsRot r) (l : List Mat) (hl : ∀ g ∈ l, IsRot g) :
    eval k (.many l) (.one r) = some (.many (l.map (kernelOf k r))) ∨
      (∃ g, l = [g] ∧ HasSymmetry k ∧ eval k (.many l) (.one r) = some (.one (kernelOf k r g))) := by
  unfold eval
  split
  · rename_i hs
    unfold symEval
    by_cases h1 : l.length = 1
    · right
      obtain ⟨g, rfl⟩ := List.length_eq_one_iff.1 h1
      refine ⟨g, rfl, hs, ?_⟩
      simp only [Arr.count, List.length_singleton, if_true, Arr.single, Option.map_some, Arr.map]
      rw [symValue_spec k hG g r (hl g (by simp)) hr, kernel_swap k hG]
    · left
      simp only [Arr.count, if_neg h1, if_true, Arr.single, Option.map_some, Arr.map]
      rw [List.map_congr_left fun g hg => symValue_spec k hG r g hr (hl g hg)]
  · rename_i hns
    left
    simp only [broadcast]
    rw [List.map_congr_left fun g hg => eval_plain hG hns r g hr (hl g hg)]

/-- C127: under symmetry two longer arrays are refused. -/
theorem eval_arrays_refused (k : Kernel) (hs : HasSymmetry k) (l m : List Mat) (hl : l.length ≠ 1) (hm : m.length ≠ 1) :
    eval k (.many l) (.many m) = none := by
  unfold eval
  rw [if_pos hs]
  unfold symEval
  rw [if_neg (show ¬ (Arr.many l).count = 1 from hl), if_neg (show ¬ (Arr.many m).count = 1 from hm)]

theorem zipWith_map_self {α β : Type} (f : α → β) (h : β → α → β) (l : List α) :
    List.zipWith (fun r g => h r g) (l.map f) l = l.map fun g => h (f g) g := by
  induction l with
  | nil => rfl
  | cons a l ih => simp [ih]

theorem step_eval (k : Kernel) (hG : Grouped k) (r : Mat) (hr : IsRot r) (l : List Mat) (hl : ∀ g ∈ l, IsRot g)
    (f : Mat → ℝ) (w : ℝ) :
    ((eval k (.many l) (.one r)).bind fun v => accumulate (l.map f) w v) =
      some (l.map fun g => f g + w * kernelOf k r g) := by
  rcases eval_batch k hG r hr l hl with h | ⟨g, rfl, -, h⟩
  · rw [h]
    simp only [Option.bind_some, accumulate, List.length_map, if_true]
    congr 1
    rw [List.zipWith_map]
    simp
  · rw [h]
    simp [accumulate]

theorem loop_eval (k : Kernel) (hG : Grouped k) (mw : List (Mat × ℝ)) (hm : ∀ p ∈ mw, IsRot p.1) (l : List Mat)
    (hl : ∀ g ∈ l, IsRot g) (f : Mat → ℝ) :
    mw.foldlM (fun results p => (eval k (.many l) (.one p.1)).bind fun v => accumulate results p.2 v) (l.map f) =
      some (l.map fun g => f g + (mw.map fun p => p.2 * kernelOf k p.1 g).sum) := by
  induction mw generalizing f with
  | nil => simp
  | cons p mw ih =>
    rw [List.foldlM_cons, step_eval k hG p.1 (hm p (by simp)) l hl]
    simp only [Option.bind_eq_bind, Option.bind_some]
    rw [ih (fun q hq => hm q (List.mem_cons_of_mem _ hq))]
    simp only [List.map_cons, List.sum_cons, add_assoc]

theorem unimodalLoop_eq (o : Unimodal) (hG : Grouped o.kernel) (hm : ∀ m ∈ o.modes, IsRot m) (l : List Mat)
    (hl : ∀ g ∈ l, IsRot g) :
    unimodalLoop o l = some (l.map (density (kernelOf o.kernel) o.modes o.weights)) := by
  unfold unimodalLoop
  have e : List.replicate l.length (0 : ℝ) = l.map fun _ => 0 := by simp
  rw [e]
  have := loop_eval o.kernel hG (o.modes.zip o.weights) (fun p hp => hm _ (List.of_mem_zip hp).1) l hl (fun _ => 0)
  simp only [zero_add] at this
  exact this

/-- C127: the ODF at every orientation is the weighted sum of the symmetric kernels around the modes,
whatever the other orientations of the array are. -/
theorem odf_eval (o : Unimodal) (hG : Grouped o.kernel) (hm : ∀ m ∈ o.modes, IsRot m) (a : Arr Mat) (ha : AllRot a) :
    unimodalEval o a = some (a.map (density (kernelOf o.kernel) o.modes o.weights)) := by
  cases a with
  | one g =>
    show ((unimodalLoop o [g]).bind fun r => r.head?.map Arr.one) = _
    rw [unimodalLoop_eq o hG hm [g] (by intro x hx; rw [List.mem_singleton.1 hx]; exact ha)]
    rfl
  | many l =>
    show (unimodalLoop o l).map Arr.many = _
    rw [unimodalLoop_eq o hG hm l ha]
    rfl

/-- C127: an ODF is made exactly if there is a mode and the weights, if given, are one per mode, not
negative, and add up to 1 within the tolerance. Without weights all modes get the same. -/
theorem odf_made (k : Kernel) (ms : List Mat) (w : Option (List ℝ)) (o : Unimodal)
    (h : mkUnimodal k (.many ms) w = some o) :
    o.kernel = k ∧ o.modes = ms ∧ ms ≠ [] ∧ o.weights.length = ms.length ∧ (∀ x ∈ o.weights, 0 ≤ x) ∧
      |o.weights.sum - 1| ≤ 1 / 10 ^ 8 + 1 / 10 ^ 5 ∧
      (w = none → (∀ x ∈ o.weights, x = 1 / ms.length) ∧ o.weights.sum = 1) ∧ (∀ v, w = some v → o.weights = v) := by
  unfold mkUnimodal at h
  cases w with
  | none =>
    simp only at h
    split at h
    · exact absurd h (by simp)
    · rename_i hn
      simp only [Option.some.injEq] at h
      subst h
      have hne : (ms.length : ℝ) ≠ 0 := by exact_mod_cast hn
      have hs : (List.replicate ms.length (1 / (ms.length : ℝ))).sum = 1 := by simp [hne]
      refine ⟨rfl, rfl, fun h => hn (by rw [h]; rfl), by simp, ?_, ?_, fun _ => ⟨?_, hs⟩, fun v hv => by simp at hv⟩
      · intro x hx; rw [List.eq_of_mem_replicate hx]; positivity
      · simp only [hs]; norm_num
      · intro x hx; rw [List.eq_of_mem_replicate hx]
  | some v =>
    simp only at h
    split at h
    · exact absurd h (by simp)
    split at h
    · exact absurd h (by simp)
    split at h
    · exact absurd h (by simp)
    rename_i h1 h2 h3
    simp only [Option.some.injEq] at h
    subst h
    push Not at h1 h2 h3
    rw [mul_one] at h2
    refine ⟨rfl, rfl, ?_, h1, h3, h2, fun h => by simp at h, fun v' hv => by simpa using hv⟩
    rintro rfl
    have : v = [] := List.length_eq_zero_iff.1 h1
    subst this
    norm_num at h2

theorem mem_sum_bounds (l : List (Mat × ℝ)) (K : Mat → ℝ) (N : ℝ) (hK : ∀ p ∈ l, 0 ≤ K p.1 ∧ K p.1 ≤ N)
    (hw : ∀ p ∈ l, 0 ≤ p.2) :
    0 ≤ (l.map fun p => p.2 * K p.1).sum ∧ (l.map fun p => p.2 * K p.1).sum ≤ N * (l.map Prod.snd).sum := by
  induction l with
  | nil => simp
  | cons p l ih =>
    obtain ⟨i0, i1⟩ := ih (fun q hq => hK q (List.mem_cons_of_mem _ hq)) (fun q hq => hw q (List.mem_cons_of_mem _ hq))
    obtain ⟨j0, j1⟩ := hK p (by simp)
    have := hw p (by simp)
    simp only [List.map_cons, List.sum_cons]
    constructor
    · positivity
    · nlinarith

theorem snd_zip_sum (ms : List Mat) (w : List ℝ) (h : w.length = ms.length) : ((ms.zip w).map Prod.snd).sum = w.sum := by
  rw [List.map_snd_zip h.le]

/-- C127: the ODF is not negative and at most the kernel's largest value times the sum of the weights; it is
the same for symmetrically equivalent orientations. -/
theorem odf_bounds (sigma : ℕ → ℝ) (h : ℝ) (c s : Symm) (o : Unimodal) (hk : mkKernel sigma h c s = some o.kernel)
    (hG : Grouped o.kernel) (hm : ∀ m ∈ o.modes, IsRot m) (hw : ∀ x ∈ o.weights, 0 ≤ x)
    (hl : o.weights.length = o.modes.length) (g : Mat) (hg : IsRot g) :
    0 ≤ density (kernelOf o.kernel) o.modes o.weights g ∧
      density (kernelOf o.kernel) o.modes o.weights g ≤ o.kernel.norm * o.weights.sum := by
  have h1 := mem_sum_bounds (o.modes.zip o.weights) (fun m => kernelOf o.kernel m g) o.kernel.norm
    (fun p hp => by
      have := kernel_bounds _ _ _ _ _ hk hG p.1 g (hm _ (List.of_mem_zip hp).1) hg
      exact ⟨this.1, this.2.1⟩)
    (fun p hp => hw _ (List.of_mem_zip hp).2)
  rw [snd_zip_sum _ _ hl] at h1
  exact h1

theorem odf_invariant (o : Unimodal) (hG : Grouped o.kernel) (g s c : Mat) (hs : s ∈ ops o.kernel.sample)
    (hc : c ∈ ops o.kernel.crystal) :
    density (kernelOf o.kernel) o.modes o.weights (s * g * c) = density (kernelOf o.kernel) o.modes o.weights g := by
  unfold density
  congr 1
  refine List.map_congr_left fun p _ => ?_
  rw [(kernel_invariant o.kernel hG p.1 g s c hs hc).2]

/-- C127: the mean of the ODF is the sum of the weights times the mean of the plain kernel, under any mean that
the operators leave alone and for which the plain kernel has the same mean around every mode. -/
theorem odf_mean (o : Unimodal) (hG : Grouped o.kernel) (hl : o.weights.length = o.modes.length)
    (M : (Mat → ℝ) → ℝ) (hM : IsMean (ops o.kernel.sample) (ops o.kernel.crystal) M) (m : ℝ)
    (hm : ∀ r ∈ o.modes, M (fun g => bell o.kernel.norm o.kernel.kappa r g) = m) :
    M (density (kernelOf o.kernel) o.modes o.weights) = m * o.weights.sum := by
  have hz : M (fun _ => 0) = 0 := by
    have := hM.smul 0 (fun _ => 0)
    simpa using this
  have key : ∀ l : List (Mat × ℝ), (∀ p ∈ l, p.1 ∈ o.modes) →
      M (fun g => (l.map fun p => p.2 * kernelOf o.kernel p.1 g).sum) = m * (l.map Prod.snd).sum := by
    intro l
    induction l with
    | nil => intro _; simpa using hz
    | cons p l ih =>
      intro hp
      simp only [List.map_cons, List.sum_cons]
      rw [hM.add, hM.smul, ih (fun q hq => hp q (List.mem_cons_of_mem _ hq)), symmetric_mean o.kernel hG M hM p.1,
        hm _ (hp p (by simp))]
      ring
  have := key (o.modes.zip o.weights) (fun p hp => (List.of_mem_zip hp).1)
  rw [snd_zip_sum _ _ hl] at this
  exact this

theorem foldl_max_spec' (l : List ℝ) (a : ℝ) :
    a ≤ l.foldl max a ∧ (∀ x ∈ l, x ≤ l.foldl max a) ∧ (l.foldl max a = a ∨ l.foldl max a ∈ l) := by
  induction l generalizing a with
  | nil => simp
  | cons b l ih =>
    obtain ⟨h1, h2, h3⟩ := ih (max a b)
    simp only [List.foldl_cons]
    refine ⟨le_trans (le_max_left _ _) h1, ?_, ?_⟩
    · intro x hx
      rcases List.mem_cons.1 hx with rfl | hx
      · exact le_trans (le_max_right _ _) h1
      · exact h2 x hx
    · rcases h3 with h3 | h3
      · rcases max_choice a b with h | h
        · left; rw [h3, h]
        · right; rw [h3, h]; simp
      · right; exact List.mem_cons_of_mem _ h3

/-- C127: the estimated maximum is the largest value of the ODF at its modes. -/
theorem estimated_max (o : Unimodal) (hG : Grouped o.kernel) (hm : ∀ m ∈ o.modes, IsRot m) (hne : o.modes ≠ []) :
    ∃ v, estimatedMax o = some v ∧
      (∀ m ∈ o.modes, density (kernelOf o.kernel) o.modes o.weights m ≤ v) ∧
      ∃ m ∈ o.modes, density (kernelOf o.kernel) o.modes o.weights m = v := by
  unfold estimatedMax
  rw [odf_eval o hG hm (.many o.modes) hm]
  simp only [Option.bind_some, Arr.map]
  generalize hf : density (kernelOf o.kernel) o.modes o.weights = f
  cases hms : o.modes with
  | nil => exact absurd hms hne
  | cons a l =>
    simp only [List.map_cons, listMax]
    obtain ⟨h1, h2, h3⟩ := foldl_max_spec' (l.map f) (f a)
    refine ⟨_, rfl, ?_, ?_⟩
    · intro m hm
      rcases List.mem_cons.1 hm with rfl | hm
      · exact h1
      · exact h2 _ (List.mem_map.2 ⟨m, hm, rfl⟩)
    · rcases h3 with h3 | h3
      · exact ⟨a, by simp, h3.symm⟩
      · obtain ⟨m, hm, e⟩ := List.mem_map.1 h3
        exact ⟨m, List.mem_cons_of_mem _ hm, e⟩

/-! ## The estimate is not the maximum -/

/-- A turn about z. -/
noncomputable def turnZ (c s : ℝ) : Mat := !![c, -s, 0; s, c, 0; 0, 0, 1]

theorem turnZ_rot {c s : ℝ} (h : c ^ 2 + s ^ 2 = 1) : IsRot (turnZ c s) := by
  constructor
  · ext i j
    fin_cases i <;> fin_cases j <;> simp [turnZ, Matrix.mul_apply, Fin.sum_univ_three] <;> linarith
  · rw [det_fin_three]; simp [turnZ]; linarith

theorem turnZ_trace (c s c' s' : ℝ) : ((turnZ c s)ᵀ * turnZ c' s').trace = 2 * (c * c' + s * s') + 1 := by
  rw [trace_entries]
  simp [turnZ, Matrix.mul_apply, Fin.sum_univ_three]
  ring

theorem quarter_kernel (sigma : ℕ → ℝ) :
    ∃ k, mkKernel sigma (Real.pi / 2) .absent .absent = some k ∧ k.kappa = 1 := by
  obtain ⟨k, hk⟩ := (halfwidth_range sigma (Real.pi / 2)).1 (by have := Real.pi_pos; linarith) (by have := Real.pi_pos; linarith)
  refine ⟨k, hk, ?_⟩
  obtain ⟨-, -, -, -, h, -⟩ := mk_parts hk
  rw [h, show Real.pi / 2 / 2 = Real.pi / 4 by ring, Real.cos_pi_div_four]
  have h2 : Real.log (√2 / 2) = -(Real.log 2 / 2) := by
    rw [Real.log_div (by positivity) (by norm_num), Real.log_sqrt (by norm_num)]; ring
  have h3 : Real.log 0.5 = -Real.log 2 := by rw [show (0.5 : ℝ) = 2⁻¹ by norm_num, Real.log_inv]
  have h4 : Real.log 2 ≠ 0 := (Real.log_pos (by norm_num)).ne'
  rw [h2, h3]
  field_simp
  norm_num

/-- C127, deviation: two equal modes a quarter turn apart, with a half-width of a quarter turn: the ODF is larger
halfway between them than the estimated maximum. -/
theorem estimated_max_fails (sigma : ℕ → ℝ) (hs : ∀ i, sigma i = 1 ∨ sigma i = -1) :
    ∃ k o g v, mkKernel sigma (Real.pi / 2) .absent .absent = some k ∧
      mkUnimodal k (.many [turnZ 1 0, turnZ 0 1]) none = some o ∧ IsRot g ∧
      estimatedMax o = some v ∧ v < density (kernelOf o.kernel) o.modes o.weights g := by
  obtain ⟨k, hk, hκ⟩ := quarter_kernel sigma
  have hG := label_groups sigma hs _ .absent .absent (by simp) (by simp) k hk
  have hN := norm_pos hk
  have hns : ¬ HasSymmetry k := by
    obtain ⟨-, -, -, -, -, -, h1, h2⟩ := mk_parts hk
    simp only [symQuats, Option.some.injEq] at h1 h2
    unfold HasSymmetry
    rw [← h1, ← h2]
    simp [Trivial]
  have r2 : √(2 : ℝ) ^ 2 = 2 := Real.sq_sqrt (by norm_num)
  have r1 : 1.4 < √(2 : ℝ) := Real.lt_sqrt_of_sq_lt (by norm_num)
  set o : Unimodal := ⟨k, [turnZ 1 0, turnZ 0 1], [1 / 2, 1 / 2]⟩ with ho
  have hrot : ∀ m ∈ o.modes, IsRot m := by
    intro m hm
    simp only [ho, List.mem_cons, List.not_mem_nil, or_false] at hm
    rcases hm with rfl | rfl
    · exact turnZ_rot (by norm_num)
    · exact turnZ_rot (by norm_num)
  obtain ⟨v, hv, -, m, hm, he⟩ := estimated_max o hG hrot (by simp [ho])
  have dens : ∀ c s : ℝ, density (kernelOf o.kernel) o.modes o.weights (turnZ c s) =
      k.norm * (1 / 2 + (c + s) / 4) := by
    intro c s
    simp only [density, ho, List.zip_cons_cons, List.zip_nil_right, List.map_cons, List.map_nil, List.sum_cons, List.sum_nil]
    rw [(fast_path k hG hns _ _).2.2, (fast_path k hG hns _ _).2.2]
    unfold bell
    rw [turnZ_trace, turnZ_trace, hκ, Real.rpow_one, Real.rpow_one]
    ring
  refine ⟨k, o, turnZ (√2 / 2) (√2 / 2), v, hk, ?_, turnZ_rot (by rw [div_pow, r2]; norm_num), hv, ?_⟩
  · unfold mkUnimodal
    simp only [List.length_cons, List.length_nil]
    rw [if_neg (by norm_num)]
    simp [ho, List.replicate]
  · rw [dens, ← he]
    simp only [ho, List.mem_cons, List.not_mem_nil, or_false] at hm
    rcases hm with rfl | rfl
    · rw [dens]
      exact mul_lt_mul_of_pos_left (by linarith) hN
    · rw [dens]
      exact mul_lt_mul_of_pos_left (by linarith) hN

/-! ## Operators that are not a group -/

/-- A quarter turn about z as a quaternion. -/
noncomputable def quarterQ : Quat ℝ := ⟨√2 / 2, 0, 0, √2 / 2⟩

theorem quarterQ_mat : rotMat quarterQ = turnZ 0 1 := by
  have r2 : √(2 : ℝ) ^ 2 = 2 := Real.sq_sqrt (by norm_num)
  unfold rotMat quarterQ turnZ
  ext i j
  fin_cases i <;> fin_cases j <;> simp <;> nlinarith

/-- C127, deviation: with an array of operators that is not a group, here a quarter turn on its own, the value at
an orientation depends on whether it is asked for alone or in an array. -/
theorem array_symmetry_fails (sigma : ℕ → ℝ) :
    ∃ k o g v w, mkKernel sigma (Real.pi / 2) (.quats [quarterQ]) .absent = some k ∧
      mkUnimodal k (.one 1) none = some o ∧ IsRot g ∧
      unimodalEval o (.one g) = some (.one v) ∧ unimodalEval o (.many [g, g]) = some (.many [w, w]) ∧ v ≠ w := by
  obtain ⟨k0, hk0, hκ0⟩ := quarter_kernel sigma
  have r2 : √(2 : ℝ) ^ 2 = 2 := Real.sq_sqrt (by norm_num)
  have r1 : 1.4 < √(2 : ℝ) := Real.lt_sqrt_of_sq_lt (by norm_num)
  have r3 : √(2 : ℝ) < 1.5 := by rw [Real.sqrt_lt' (by norm_num)]; norm_num
  have hN := norm_pos hk0
  set k : Kernel := ⟨k0.halfwidth, k0.kappa, k0.norm, some [quarterQ], none⟩ with hkdef
  have hsym : HasSymmetry k := by
    unfold HasSymmetry
    simp only [hkdef, Trivial, and_true]
    intro h
    have := h quarterQ (by simp)
    simp only [quarterQ] at this
    rw [abs_of_pos (by positivity : (0 : ℝ) < √2 / 2), abs_le] at this
    norm_num at this
    linarith [this.1]
  have e1 : (1 : Mat) = turnZ 1 0 := by
    unfold turnZ; ext i j; fin_cases i <;> fin_cases j <;> simp
  have prod : ∀ c s c' s', turnZ c s * turnZ c' s' = turnZ (c * c' - s * s') (s * c' + c * s') := by
    intro c s c' s'
    unfold turnZ
    ext i j
    fin_cases i <;> fin_cases j <;> simp [Matrix.mul_apply, Fin.sum_univ_three] <;> ring
  have val : ∀ c s c' s', c ^ 2 + s ^ 2 = 1 → c' ^ 2 + s' ^ 2 = 1 →
      symValue k (turnZ c s) (turnZ c' s') = k.norm * ((1 + (c' * (-s) + s' * c)) / 2) := by
    intro c s c' s' h h'
    have hrot : IsRot (turnZ c s * turnZ 0 1) := rot_mul (turnZ_rot h) (turnZ_rot (by norm_num))
    obtain ⟨b0, b1⟩ := trace_bounds (rot_mul (rot_transpose (turnZ_rot h')) hrot)
    unfold symValue
    simp only [hkdef, ops, Option.getD_none, Option.getD_some, List.map_cons, List.map_nil, List.foldl_cons,
      List.foldl_nil, rotMat_one, quarterQ_mat, Matrix.one_mul, List.length_cons, List.length_nil]
    rw [kernel_of_trace _ b0 b1, prod, turnZ_trace]
    simp only [hκ0, Real.rpow_one]
    push_cast
    ring
  refine ⟨k, ⟨k, [1], [1]⟩, turnZ (√2 / 2) (√2 / 2), k.norm * ((1 - √2 / 2) / 2), k.norm * ((1 + √2 / 2) / 2),
    ?_, ?_, turnZ_rot (by rw [div_pow, r2]; norm_num), ?_, ?_, ?_⟩
  · have hp := hk0
    unfold mkKernel at hp ⊢
    split at hp
    · exact absurd hp (by simp)
    rename_i h0
    rw [if_neg h0]
    simp only at hp ⊢
    split at hp
    · exact absurd hp (by simp)
    rename_i h1
    rw [if_neg h1]
    simp only [symQuats, Option.bind_eq_bind, Option.bind_some, Pure.pure, Option.some.injEq] at hp ⊢
    rw [← hp] at hkdef
    rw [hkdef]
  · unfold mkUnimodal
    simp
  · unfold unimodalEval unimodalLoop
    simp only [List.zip_cons_cons, List.zip_nil_right, List.foldlM_cons, List.foldlM_nil, eval, if_pos hsym, symEval,
      Arr.count, List.length_singleton, if_true, Arr.single, Option.map_some, Arr.map, Option.bind_eq_bind,
      Option.bind_some, accumulate, List.replicate_one, List.map_cons, List.map_nil, Pure.pure, List.head?_cons]
    rw [e1, val _ _ _ _ (by rw [div_pow, r2]; norm_num) (by norm_num)]
    congr 2; ring
  · unfold unimodalEval unimodalLoop
    simp only [List.zip_cons_cons, List.zip_nil_right, List.foldlM_cons, List.foldlM_nil, eval, if_pos hsym, symEval,
      Arr.count, List.length_cons, List.length_nil, if_true, Arr.single, Option.map_some, Arr.map, Option.bind_eq_bind,
      accumulate, List.map_cons, List.map_nil, Pure.pure, List.replicate]
    rw [if_neg (by norm_num)]
    rw [e1, val _ _ _ _ (by norm_num) (by rw [div_pow, r2]; norm_num)]
    simp
  · intro h
    have := mul_left_cancel₀ hN.ne' h
    linarith

/-! ## Batches -/

theorem chunks_flatten {α : Type} (size : ℕ) (hs : 0 < size) (l : List α) : (chunks size l).flatten = l := by
  have key : ∀ n, ((List.range n).map fun i => (l.drop (i * size)).take (min (i * size + size) l.length - i * size)).flatten
      = l.take (n * size) := by
    intro n
    induction n with
    | zero => simp
    | succ n ih =>
      rw [List.range_succ, List.map_append, List.flatten_append, ih]
      simp only [List.map_cons, List.map_nil, List.flatten_cons, List.flatten_nil, List.append_nil]
      rw [Nat.succ_mul, List.take_add]
      congr 1
      by_cases h : n * size + size ≤ l.length
      · rw [min_eq_left h, Nat.add_sub_cancel_left]
      · push Not at h
        rw [min_eq_right h.le, List.take_of_length_le (by simp), List.take_of_length_le (by simp; omega)]
  unfold chunks
  rw [key]
  apply List.take_of_length_le
  have h1 : (l.length + size - 1) / size * size + (l.length + size - 1) % size = l.length + size - 1 := by
    rw [mul_comm]; exact Nat.div_add_mod _ _
  have h2 := Nat.mod_lt (l.length + size - 1) hs
  omega

theorem concat_map (f : Mat → ℝ) (cs : List (List Mat)) (hc : cs ≠ []) :
    concatenate (cs.map fun c => Arr.many (c.map f)) = some (.many (cs.flatten.map f)) := by
  unfold concatenate
  rw [if_neg (by simpa using hc)]
  have : (cs.map fun c => Arr.many (c.map f)).mapM axis = some (cs.map fun c => c.map f) := by
    clear hc
    induction cs with
    | nil => rfl
    | cons c cs ih => simp [List.mapM_cons, ih, axis]
  rw [this, Option.map_some, List.map_flatten]

/-- C128: for an ODF that gives every orientation its own value, evaluation in chunks gives exactly the values of
evaluation at once, for every positive chunk size. -/
theorem batch_eval (odf : Arr Mat → Option (Arr ℝ)) (P : Mat → Prop) (f : Mat → ℝ)
    (hodf : ∀ l : List Mat, (∀ g ∈ l, P g) → odf (.many l) = some (.many (l.map f))) (l : List Mat) (hl : ∀ g ∈ l, P g)
    (chunk : ℤ) (hc : 0 < chunk) :
    evalBatch odf (.many l) chunk = odf (.many l) := by
  unfold evalBatch
  simp only
  split
  · rfl
  · rename_i h
    rw [if_neg (not_le.2 hc)]
    have hs : 0 < chunk.toNat := by omega
    have hfl := chunks_flatten chunk.toNat hs l
    have hne : chunks chunk.toNat l ≠ [] := by
      intro h0
      rw [h0] at hfl
      simp only [List.flatten_nil] at hfl
      rw [← hfl] at h
      simp at h
      omega
    have hall : ∀ c ∈ chunks chunk.toNat l, ∀ g ∈ c, P g := by
      intro c hc g hg
      refine hl g ?_
      rw [← hfl]
      exact List.mem_flatten.2 ⟨c, hc, hg⟩
    have hm : (chunks chunk.toNat l).mapM (fun c => odf (.many c)) =
        some ((chunks chunk.toNat l).map fun c => Arr.many (c.map f)) := by
      generalize chunks chunk.toNat l = cs at hall
      induction cs with
      | nil => rfl
      | cons c cs ih =>
        rw [List.mapM_cons, hodf c (hall c (by simp)), ih (fun c' hc' => hall c' (List.mem_cons_of_mem _ hc'))]
        rfl
    rw [hm, Option.bind_some, concat_map f _ hne, hfl, hodf l hl]

/-- C128: so for every ODF with modes, and for the uniform one. -/
theorem batch_odf (o : Unimodal) (hG : Grouped o.kernel) (hm : ∀ m ∈ o.modes, IsRot m) (l : List Mat)
    (hl : ∀ g ∈ l, IsRot g) (chunk : ℤ) (hc : 0 < chunk) :
    evalBatch (unimodalEval o) (.many l) chunk =
        some (.many (l.map (density (kernelOf o.kernel) o.modes o.weights))) ∧
      evalBatch uniformEval (.many l) chunk = some (.many (l.map fun _ => 1)) := by
  refine ⟨?_, ?_⟩
  · rw [batch_eval (unimodalEval o) IsRot _ (fun l hl => odf_eval o hG hm (.many l) hl) l hl chunk hc]
    exact odf_eval o hG hm (.many l) hl
  · rw [batch_eval uniformEval IsRot (fun _ => 1) (fun l _ => rfl) l hl chunk hc]
    rfl

/-- C128: a chunk size of zero or less works only for arrays that are not longer than it: for no non-empty array. -/
theorem batch_refused (odf : Arr Mat → Option (Arr ℝ)) (l : List Mat) (hl : l ≠ []) (chunk : ℤ) (hc : chunk ≤ 0) :
    evalBatch odf (.many l) chunk = none := by
  have hp : 0 < l.length := List.length_pos_iff.2 hl
  unfold evalBatch
  simp only
  rw [if_neg (by push Not; omega), if_pos hc]

/-! ## Texture index -/

theorem sum_sq_ge (l : List ℝ) : l.sum ^ 2 ≤ l.length * (l.map (· ^ 2)).sum := by
  have key : ∀ a : ℝ, 0 ≤ (l.map fun x => (x - a) ^ 2).sum := by
    intro a
    refine List.sum_nonneg fun x hx => ?_
    obtain ⟨y, -, rfl⟩ := List.mem_map.1 hx
    positivity
  have e : ∀ a : ℝ, (l.map fun x => (x - a) ^ 2).sum = (l.map (· ^ 2)).sum - 2 * a * l.sum + l.length * a ^ 2 := by
    intro a
    induction l with
    | nil => simp
    | cons b l ih =>
      have := ih (fun a => List.sum_nonneg fun x hx => by
        obtain ⟨y, -, rfl⟩ := List.mem_map.1 hx
        positivity)
      simp only [List.map_cons, List.sum_cons, List.length_cons]
      rw [this]
      push_cast
      ring
  by_cases hl : l = []
  · subst hl; simp
  have hn : (0 : ℝ) < l.length := by exact_mod_cast List.length_pos_iff.2 hl
  have h := key (l.sum / l.length)
  rw [e] at h
  have h2 : (l.map (· ^ 2)).sum - 2 * (l.sum / l.length) * l.sum + l.length * (l.sum / l.length) ^ 2 =
      ((l.length : ℝ) * (l.map (· ^ 2)).sum - l.sum ^ 2) / l.length := by field_simp; ring
  rw [h2, le_div_iff₀ hn, zero_mul] at h
  linarith

/-- C128: the sampled texture index is at least 1, and so is the norm; a constant factor of the ODF does not change
it; a constant ODF has index 1. -/
theorem sampled_index (values : List ℝ) :
    (∀ J, textureIndex none values = some J → 1 ≤ J) ∧ (∀ n, textureNorm none values = some n → 1 ≤ n) ∧
      (∀ a : ℝ, a ≠ 0 → textureIndex none (values.map (a * ·)) = textureIndex none values) ∧
      (∀ c : ℝ, c ≠ 0 → values ≠ [] → textureIndex none (values.map fun _ => c) = some 1) := by
  have unfolded : ∀ vs : List ℝ, textureIndex none vs = if vs = [] then none else
      if vs.sum / vs.length = 0 then none else some ((vs.map (· ^ 2)).sum / vs.length / (vs.sum / vs.length) ^ 2) := by
    intro vs
    unfold textureIndex mean
    by_cases hv : vs = []
    · subst hv; simp
    · simp [hv]
  have hJ : ∀ J, textureIndex none values = some J → 1 ≤ J := by
    intro J hJ
    rw [unfolded] at hJ
    split at hJ
    · exact absurd hJ (by simp)
    rename_i hv
    split at hJ
    · exact absurd hJ (by simp)
    rename_i hm
    simp only [Option.some.injEq] at hJ
    have hn : (0 : ℝ) < values.length := by exact_mod_cast List.length_pos_iff.2 hv
    have hs : values.sum ≠ 0 := fun h => hm (by rw [h, zero_div])
    have hp : 0 < values.sum ^ 2 := by positivity
    rw [← hJ, show (values.map (· ^ 2)).sum / values.length / (values.sum / values.length) ^ 2 =
      values.length * (values.map (· ^ 2)).sum / values.sum ^ 2 by field_simp, le_div_iff₀ hp, one_mul]
    exact sum_sq_ge values
  refine ⟨hJ, ?_, ?_, ?_⟩
  · intro n hn
    unfold textureNorm at hn
    obtain ⟨J, h1, rfl⟩ := Option.map_eq_some_iff.1 hn
    rw [Real.one_le_sqrt]
    exact hJ J h1
  · intro a ha
    rw [unfolded, unfolded]
    have e1 : (values.map (a * ·)).sum = a * values.sum := by rw [List.sum_map_mul_left]; simp
    have e2 : ((values.map (a * ·)).map (· ^ 2)).sum = a ^ 2 * (values.map (· ^ 2)).sum := by
      rw [List.map_map, ← List.sum_map_mul_left]
      congr 1
      refine List.map_congr_left fun x _ => ?_
      simp only [Function.comp]; ring
    rw [e1, e2]
    simp only [List.length_map, List.map_eq_nil_iff]
    by_cases hv : values = []
    · simp [hv]
    rw [if_neg hv, if_neg hv]
    have hn : (values.length : ℝ) ≠ 0 := by
      have := List.length_pos_iff.2 hv; exact_mod_cast this.ne'
    by_cases hs : values.sum = 0
    · simp [hs]
    have n1 : ¬ a * values.sum / values.length = 0 := div_ne_zero (mul_ne_zero ha hs) hn
    have n2 : ¬ values.sum / values.length = 0 := div_ne_zero hs hn
    rw [if_neg n1, if_neg n2]
    congr 1
    field_simp
  · intro c hc hv
    rw [unfolded]
    have hn : (values.length : ℝ) ≠ 0 := by
      have := List.length_pos_iff.2 hv; exact_mod_cast this.ne'
    rw [if_neg (by simpa using hv)]
    simp only [List.map_const', List.sum_replicate, List.length_replicate, List.map_replicate, nsmul_eq_mul]
    rw [if_neg (by rw [mul_div_cancel_left₀ _ hn]; exact hc)]
    congr 1
    field_simp

/-- C128: a closed form is used when there is one: index and norm of the uniform ODF are exactly 1, and of a single
mode without symmetry the norm is at least 1 and its square the mean square of the kernel. -/
theorem closed_index (values : List ℝ) (sigma : ℕ → ℝ) (h : ℝ) (c s : Symm) (o : Unimodal)
    (hk : mkKernel sigma h c s = some o.kernel) (h1 : o.modes.length = 1) (hs : ¬ HasSymmetry o.kernel) :
    textureIndex uniformIndex values = some 1 ∧ textureNorm uniformIndex values = some 1 ∧
      ∃ n, textureNorm (analyticIndex o) values = some n ∧ 1 ≤ n ∧
        n ^ 2 = angleMean (fun ω => kernelValue o.kernel ω ^ 2) := by
  obtain ⟨hJ, hne⟩ := analytic_index sigma h c s o hk
  refine ⟨by simp [textureIndex, uniformIndex], by simp [textureNorm, textureIndex, uniformIndex], ?_⟩
  cases ha : analyticIndex o with
  | none => exact absurd ha (hne.2 ⟨h1, hs⟩)
  | some J =>
    obtain ⟨e, hj⟩ := hJ J ha
    refine ⟨√J, rfl, Real.one_le_sqrt.2 hj, ?_⟩
    rw [Real.sq_sqrt (by linarith), e]

/-! ## The reduced angle, and examples -/

/-- C127: with symmetry, the misorientation angle is the smallest one between the first orientation and the
symmetric images of the second. -/
theorem reduced_angle (k : Kernel) (gc gs : List (Quat ℝ)) (hc : k.crystal.getD [⟨1, 0, 0, 0⟩] = gc)
    (hs : k.sample.getD [⟨1, 0, 0, 0⟩] = gs) (uc : ∀ g ∈ gc, UnitQ g) (us : ∀ g ∈ gs, UnitQ g) (nc : gc ≠ []) (ns : gs ≠ [])
    (p q : Quat ℝ) (hp : UnitQ p) (hq : UnitQ q) :
    ∃ θ, misorientationAngle p q (misorientationSyms k).1 (misorientationSyms k).2 = some θ ∧
      (∃ s ∈ gs, ∃ c ∈ gc, θ = rawAngle (rotMat p) (rotMat s * rotMat q * rotMat c)) ∧
      ∀ s ∈ gs, ∀ c ∈ gc, θ ≤ rawAngle (rotMat p) (rotMat s * rotMat q * rotMat c) := by
  simp only [misorientationSyms, hc, hs]
  have hi := invertQuat_same hp
  have ui : UnitQ (invertQuat p) := by unfold UnitQ; rw [sameUpToSign_norm hi, norm2_conj]; exact hp
  have raw : ∀ r : Quat ℝ, UnitQ r → rawAngle (rotMat p) (rotMat r) = 2 * Real.arccos (cosHalf p r) := by
    intro r hr
    have h0 : 0 ≤ cosHalf p r := abs_nonneg _
    have h1 := cosHalf_le_one hp hr
    unfold rawAngle angleOfTrace
    rw [← rotMat_conj, ← rotMat_mul_aux, rotMat_trace, unit_mul (unit_conj hp) hr]
    have e : (Quat.qmul (conj p) r).w ^ 2 = cosHalf p r ^ 2 := by unfold cosHalf; rw [sq_abs]
    rw [e, show (4 * cosHalf p r ^ 2 - 1 - 1) / 2 = 2 * cosHalf p r ^ 2 - 1 by ring,
      min_eq_right (by nlinarith), max_eq_right (by nlinarith)]
    have e2 : Real.cos (2 * Real.arccos (cosHalf p r)) = 2 * cosHalf p r ^ 2 - 1 := by
      rw [Real.cos_two_mul, Real.cos_arccos (by linarith) h1]
    rw [← e2, Real.arccos_cos (by have := Real.arccos_nonneg (cosHalf p r); linarith)]
    have := Real.arccos_le_pi_div_two.2 h0
    linarith
  have hmat : ∀ s c, rotMat s * rotMat q * rotMat c = rotMat (Quat.qmul s (Quat.qmul q c)) := by
    intro s c; rw [rotMat_mul_aux, rotMat_mul_aux, Matrix.mul_assoc]
  have el : (gc.flatMap fun g => gs.map fun s =>
      fixQuat (ofVec (prodMatRight (invertQuat p) *ᵥ (prodMatLeft s *ᵥ (prodMatRight g *ᵥ Quat.vec q))))) =
      gc.flatMap fun g => gs.map fun s => fixQuat (Quat.qmul (Quat.qmul s (Quat.qmul q g)) (invertQuat p)) := by
    simp only [prodRight_aux, prodLeft_aux, ofVec_vec]
  have hu : ∀ s ∈ gs, ∀ c ∈ gc, UnitQ (Quat.qmul s (Quat.qmul q c)) := fun s h c h' => unit_mul (us s h) (unit_mul hq (uc c h'))
  have hw : ∀ s ∈ gs, ∀ c ∈ gc, (fixQuat (Quat.qmul (Quat.qmul s (Quat.qmul q c)) (invertQuat p))).w =
      cosHalf p (Quat.qmul s (Quat.qmul q c)) := by
    intro s hs c hc
    rw [(fixQuat_unit (unit_mul (hu s hs c hc) ui)).2.2, w_comm]
    exact sameUpToSign_abs (sameUpToSign_mul hi _).1
  unfold misorientationAngle
  rw [el]
  obtain ⟨hn, hsp⟩ := argmaxW_spec (gc.flatMap fun g => gs.map fun s =>
    fixQuat (Quat.qmul (Quat.qmul s (Quat.qmul q g)) (invertQuat p)))
  cases hr : argmaxW (gc.flatMap fun g => gs.map fun s =>
      fixQuat (Quat.qmul (Quat.qmul s (Quat.qmul q g)) (invertQuat p))) with
  | none =>
    exfalso
    have := hn.1 hr
    obtain ⟨c, hc'⟩ := List.exists_mem_of_ne_nil gc nc
    obtain ⟨s, hs'⟩ := List.exists_mem_of_ne_nil gs ns
    have hmem : fixQuat (Quat.qmul (Quat.qmul s (Quat.qmul q c)) (invertQuat p)) ∈ gc.flatMap fun g => gs.map fun s =>
        fixQuat (Quat.qmul (Quat.qmul s (Quat.qmul q g)) (invertQuat p)) :=
      List.mem_flatMap.2 ⟨c, hc', List.mem_map.2 ⟨s, hs', rfl⟩⟩
    rw [this] at hmem
    simp at hmem
  | some b =>
    obtain ⟨hm, hmax⟩ := hsp b hr
    obtain ⟨c, hc', hm⟩ := List.mem_flatMap.1 hm
    obtain ⟨s, hs', rfl⟩ := List.mem_map.1 hm
    have h1 := cosHalf_le_one hp (hu s hs' c hc')
    have h0 : 0 ≤ cosHalf p (Quat.qmul s (Quat.qmul q c)) := abs_nonneg _
    refine ⟨2 * Real.arccos (cosHalf p (Quat.qmul s (Quat.qmul q c))), ?_, ⟨s, hs', c, hc', ?_⟩, ?_⟩
    · simp only [hr, Option.bind_eq_bind, Option.bind_some, hw s hs' c hc']
      rw [if_neg (by rw [abs_of_nonneg h0]; linarith), min_eq_right h1, max_eq_right (by linarith)]
      rfl
    · rw [hmat, raw _ (hu s hs' c hc')]
    · intro s2 hs2 c2 hc2
      rw [hmat, raw _ (hu s2 hs2 c2 hc2)]
      have := hmax _ (List.mem_flatMap.2 ⟨c2, hc2, List.mem_map.2 ⟨s2, hs2, rfl⟩⟩)
      rw [hw s hs' c hc', hw s2 hs2 c2 hc2] at this
      have := Real.arccos_le_arccos this
      linarith

/-- A cubic kernel with orthorhombic sample symmetry meets the hypotheses: it exists, its operators are groups of 24
and 4, and symmetry is on. -/
theorem cubic_example (sigma : ℕ → ℝ) (hs : ∀ i, sigma i = 1 ∨ sigma i = -1) :
    ∃ k, mkKernel sigma (Real.pi / 12) (.label (.tag .oh)) (.label .orthorhombic) = some k ∧ Grouped k ∧
      HasSymmetry k ∧ (ops k.crystal).length = 24 ∧ (ops k.sample).length = 4 := by
  obtain ⟨k0, hk0⟩ := (halfwidth_range sigma (Real.pi / 12)).1 (by have := Real.pi_pos; linarith) (by have := Real.pi_pos; linarith)
  have hk : ∃ k, mkKernel sigma (Real.pi / 12) (.label (.tag .oh)) (.label .orthorhombic) = some k := by
    unfold mkKernel at hk0 ⊢
    split at hk0
    · exact absurd hk0 (by simp)
    rename_i h0
    rw [if_neg h0]
    simp only at hk0 ⊢
    split at hk0
    · exact absurd hk0 (by simp)
    rename_i h1
    rw [if_neg h1]
    exact ⟨_, rfl⟩
  obtain ⟨k, hk⟩ := hk
  obtain ⟨-, -, -, -, -, -, h1, h2⟩ := mk_parts hk
  obtain ⟨-, -, h3⟩ := laue_group sigma hs .oh
  obtain ⟨-, -, h4⟩ := laue_group sigma hs .d2h
  have e1 : k.crystal = some (quatOfLaueGroup sigma .oh) := (Option.some.inj h1).symm
  have e2 : k.sample = some (quatOfLaueGroup sigma .d2h) := (Option.some.inj h2).symm
  refine ⟨k, hk, label_groups sigma hs _ _ _ (by simp) (by simp) k hk, ?_, ?_, ?_⟩
  · rintro ⟨h, -⟩
    rw [e1, label_symmetry sigma hs] at h
    simp at h
  · rw [e1]; simp [ops, h3, laueOrder]
  · rw [e2]; simp [ops, h4, laueOrder]

/-- The sum over the images of an orientation is a mean that the operators leave alone. -/
theorem mean_example (S C : List Mat) (hS : IsGroup S) (hC : IsGroup C) (r : Mat) :
    IsMean S C (fun f => imageMean S C f r) := by
  refine ⟨fun f g => ?_, fun a f => ?_, fun f a ha b hb => ?_⟩
  · unfold imageMean
    rw [← add_div]
    congr 1
    rw [← List.sum_map_add]
    congr 1
    refine List.map_congr_left fun s _ => ?_
    rw [List.sum_map_add]
  · unfold imageMean
    rw [mul_div_assoc']
    congr 1
    rw [← List.sum_map_mul_left]
    congr 1
    refine List.map_congr_left fun s _ => ?_
    rw [List.sum_map_mul_left]
  · unfold imageMean
    congr 1
    have h := ((group_left hS ha).map fun s => (C.map fun c => f (s * r * c)).sum).sum_eq
    rw [List.map_map] at h
    rw [← h]
    congr 1
    refine List.map_congr_left fun s _ => ?_
    simp only [Function.comp]
    have h := ((group_right hC hb).map fun c => f (a * s * r * c)).sum_eq
    rw [List.map_map] at h
    rw [← h]
    simp only [Function.comp_def, Matrix.mul_assoc]

end Hexrd.Odf
