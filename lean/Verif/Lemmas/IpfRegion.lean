import Verif.Lemmas.IpfTriangle

/-! The fillet, the point on the boundary and the two angles of a direction. -/
namespace Hexrd.Ipf

open Matrix Hexrd.UnitCell Spec Hexrd.SpaceGroup

theorem snap_nonneg' (d : ℝ) : 0 ≤ snapDet d ↔ -eps < d := by rw [← snap_nonneg, sign_nonneg_iff]

theorem eps_small : eps < 1 / 100000 := by unfold eps Cell.eps; norm_num

/-- The three vertices of a sector of one triangle. -/
structure Tri (s : Sector) (A B C : V3) : Prop where
  vs : s.vertices = [A, B, C]
  nice : Nice A B C
  top : 0 < (A + B + C) 0

/-- The barycentre is a positive multiple of the sum of the vertices. -/
theorem bary {s : Sector} {A B C : V3} (h : Tri s A B C) :
    ∃ t : ℝ, 1 / 3 ≤ t ∧ barycenter s = t • (A + B + C) ∧ barycenter s ⬝ᵥ barycenter s = 1 := by
  have hn := h.nice
  have hS : (A + B + C) ⬝ᵥ (A + B + C) = 3 + 2 * ((A ⬝ᵥ B) + (B ⬝ᵥ C) + (C ⬝ᵥ A)) := by
    simp only [add_dotProduct, dotProduct_add]
    rw [hn.a, hn.b, hn.c, dotProduct_comm B A, dotProduct_comm C B, dotProduct_comm A C]
    ring
  have hab := hn.flat.le
  have hbc := hn.rot.flat.le
  have hca := hn.rot.rot.flat.le
  have h0 := hn.ab
  have h1 := hn.bc
  have h2 := hn.ca
  have hN : norm (A + B + C) ^ 2 = 3 + 2 * ((A ⬝ᵥ B) + (B ⬝ᵥ C) + (C ⬝ᵥ A)) := by rw [norm_sq, hS]
  have hN0 : 0 ≤ norm (A + B + C) := Real.sqrt_nonneg _
  have hN1 : norm (A + B + C) ≤ 3 := by nlinarith
  have hN2 : 0 < norm (A + B + C) := by
    rcases hN0.lt_or_eq with h' | h'
    · exact h'
    · rw [← h', zero_pow two_ne_zero] at hN
      linarith
  have e3 : norm (((3 : ℝ)⁻¹) • (A + B + C)) = norm (A + B + C) / 3 := by
    have : norm (((3 : ℝ)⁻¹) • (A + B + C)) ^ 2 = (norm (A + B + C) / 3) ^ 2 := by
      rw [norm_sq, smul_dotProduct, dotProduct_smul, div_pow, norm_sq, smul_eq_mul, smul_eq_mul]
      ring
    have h' : 0 ≤ norm (((3 : ℝ)⁻¹) • (A + B + C)) := Real.sqrt_nonneg _
    exact le_antisymm (le_of_sq_le_sq this.le (by positivity)) (le_of_sq_le_sq this.ge h')
  have e : barycenter s = (norm (A + B + C))⁻¹ • (A + B + C) := by
    unfold barycenter
    rw [h.vs]
    simp only [List.length_cons, List.length_nil, List.sum_cons, List.sum_nil, add_zero, Nat.reduceAdd, Nat.cast_ofNat,
      zero_add, ← add_assoc]
    norm_num only
    rw [show ((1 : ℝ) / 3) = 3⁻¹ by norm_num, e3, smul_smul]
    congr 1
    field_simp
  refine ⟨(norm (A + B + C))⁻¹, ?_, e, ?_⟩
  · rw [div_le_iff₀ (by norm_num), inv_mul_eq_div, le_div_iff₀ hN2]
    linarith
  · rw [e, smul_dotProduct, dotProduct_smul, ← norm_sq, smul_eq_mul, smul_eq_mul]
    field_simp

/-- The three signs of a fillet. -/
theorem patch_signs (t : ℝ) (A B C d : V3) {a b c : ℝ} (hd : d = a • A + b • B + c • C) :
    triple d (t • (A + B + C)) A = t * ((b - c) * triple A B C) ∧ triple d A B = c * triple A B C ∧
    triple d B (t • (A + B + C)) = t * ((a - c) * triple A B C) := by
  subst hd
  refine ⟨?_, ?_, ?_⟩ <;>
    simp only [triple, cross, dotProduct, Fin.sum_univ_three, Matrix.cons_val_zero, Matrix.cons_val_one, Matrix.cons_val,
        Pi.smul_apply, Pi.add_apply, smul_eq_mul] <;> ring

theorem patch_iff (t : ℝ) (A B C d : V3) {a b c : ℝ} (hd : d = a • A + b • B + c • C) :
    insidePatch [t • (A + B + C), A, B] d = true ↔
      -eps < t * ((b - c) * triple A B C) ∧ -eps < c * triple A B C ∧ -eps < t * ((a - c) * triple A B C) := by
  obtain ⟨e1, e2, e3⟩ := patch_signs t A B C d hd
  unfold insidePatch
  simp only [List.length_cons, List.length_nil, Nat.reduceAdd, List.all_eq_true, List.mem_range, decide_eq_true_eq, snap_nonneg']
  rw [← e1, ← e2, ← e3]
  constructor
  · intro h
    exact ⟨h 0 (by norm_num), h 1 (by norm_num), h 2 (by norm_num)⟩
  · rintro ⟨h0, h1, h2⟩ i hi
    match i, hi with
    | 0, _ => exact h0
    | 1, _ => exact h1
    | 2, _ => exact h2

theorem patch_of_least {t : ℝ} (ht : 0 ≤ t) {A B C d : V3} (hn : Nice A B C) {a b c : ℝ} (hd : d = a • A + b • B + c • C)
    (hc : 0 ≤ c) (hca : c ≤ a) (hcb : c ≤ b) : insidePatch [t • (A + B + C), A, B] d = true := by
  rw [patch_iff t A B C d hd]
  have he := eps_pos
  have hD : 0 ≤ triple A B C := by linarith [hn.det]
  have h1 := mul_nonneg ht (mul_nonneg (sub_nonneg.2 hcb) hD)
  have h2 := mul_nonneg hc hD
  have h3 := mul_nonneg ht (mul_nonneg (sub_nonneg.2 hca) hD)
  exact ⟨by linarith, by linarith, by linarith⟩

theorem least_of_patch {t : ℝ} (ht : 1 / 3 ≤ t) {A B C d : V3} (hn : Nice A B C) {a b c : ℝ} (hd : d = a • A + b • B + c • C)
    (h : insidePatch [t • (A + B + C), A, B] d = true) : c ≤ a + 1 / 1000 ∧ c ≤ b + 1 / 1000 := by
  rw [patch_iff t A B C d hd] at h
  obtain ⟨h1, -, h3⟩ := h
  have he := eps_small
  have hD := hn.det
  have key : ∀ x : ℝ, -eps < t * (x * triple A B C) → -(1 / 1000) ≤ x := by
    intro x hx
    by_contra hc
    have hc : x < -(1 / 1000) := not_le.1 hc
    have h5 : x * triple A B C ≤ -(1 / 1000) * (3 / 10) := by nlinarith
    nlinarith
  have := key _ h1
  have := key _ h3
  exact ⟨by linarith, by linarith⟩

/-- The coordinates of a direction of the triangle, and its fillet. -/
theorem region {s : Sector} {A B C : V3} (h : Tri s A B C) {d : V3} (h1 : 0 ≤ triple A B d) (h2 : 0 ≤ triple A d C)
    (h3 : 0 ≤ triple d B C) : ∃ (f : ℕ) (A' B' C' : V3) (a b c : ℝ), f ≤ 2 ∧ filletRegion s d = f ∧ edge s f = (A', B') ∧
      Nice A' B' C' ∧ A' + B' + C' = A + B + C ∧ d = a • A' + b • B' + c • C' ∧ 0 ≤ a ∧ 0 ≤ b ∧ 0 ≤ c ∧ c ≤ a + 1 / 1000 ∧
      c ≤ b + 1 / 1000 := by
  have hn := h.nice
  have hD : 0 < triple A B C := by linarith [hn.det]
  obtain ⟨t, ht, eb, -⟩ := bary h
  have ht0 : 0 ≤ t := by linarith
  have hd := cramer A B C d hD.ne'
  have ha : 0 ≤ triple d B C / triple A B C := div_nonneg h3 hD.le
  have hb : 0 ≤ triple A d C / triple A B C := div_nonneg h2 hD.le
  have hc : 0 ≤ triple A B d / triple A B C := div_nonneg h1 hD.le
  generalize triple d B C / triple A B C = a at hd ha
  generalize triple A d C / triple A B C = b at hd hb
  generalize triple A B d / triple A B C = c at hd hc
  have hdB : d = b • B + c • C + a • A := by rw [hd]; abel
  have hdC : d = c • C + a • A + b • B := by rw [hd]; abel
  have sB : B + C + A = A + B + C := by abel
  have sC : C + A + B = A + B + C := by abel
  have nB := hn.rot
  have nC := hn.rot.rot
  have hne : ∀ x : V3, ∀ y z : V3, Nice x y z → x + y + z = A + B + C → barycenter s ≠ x := by
    intro x y z hx hsum e
    have e1 : triple (barycenter s) x y = t * triple x y z := by
      rw [eb, ← hsum]
      simp only [triple, cross, dotProduct, Fin.sum_univ_three, Matrix.cons_val_zero, Matrix.cons_val_one, Matrix.cons_val,
        Pi.smul_apply, Pi.add_apply, smul_eq_mul]
      ring
    have e2 : triple x x y = 0 := by
      simp only [triple, cross, dotProduct, Fin.sum_univ_three, Matrix.cons_val_zero, Matrix.cons_val_one, Matrix.cons_val]
      ring
    rw [e, e2] at e1
    nlinarith [hx.det]
  have hfil : (s.vertices.filter fun v => !decide (barycenter s = v)) = [A, B, C] := by
    rw [h.vs]
    refine List.filter_eq_self.2 ?_
    intro x hx
    simp only [List.mem_cons, List.not_mem_nil, or_false] at hx
    rcases hx with rfl | rfl | rfl
    · simpa using hne x B C hn rfl
    · simpa using hne x C A nB sB
    · simpa using hne x A B nC sC
  have e0 : edge s ((0 : ℕ) : ℤ) = (A, B) := by unfold edge vertex; rw [h.vs]; rfl
  have e1 : edge s ((1 : ℕ) : ℤ) = (B, C) := by unfold edge vertex; rw [h.vs]; rfl
  have e2 : edge s ((2 : ℕ) : ℤ) = (C, A) := by unfold edge vertex; rw [h.vs]; simp
  have efr : filletRegion s d = match (List.range 3).find? fun i => insidePatch [barycenter s, [A, B, C].getD (i % 3) 0, [A, B, C].getD ((i + 1) % 3) 0] d with
      | some i => (i : ℤ)
      | none => -1 := by
    unfold filletRegion
    simp only
    rw [hfil]
    rfl
  have er : List.range 3 = [0, 1, 2] := rfl
  rw [er] at efr
  simp only [List.find?_cons, List.find?_nil, Nat.zero_mod, Nat.reduceMod, Nat.reduceAdd, zero_add, Nat.mod_self, List.getD_cons_zero, List.getD_cons_succ] at efr
  by_cases q0 : insidePatch [barycenter s, A, B] d = true
  · rw [q0] at efr
    rw [eb] at q0
    obtain ⟨k1, k2⟩ := least_of_patch ht hn hd q0
    exact ⟨0, A, B, C, a, b, c, by norm_num, efr, e0, hn, rfl, hd, ha, hb, hc, k1, k2⟩
  by_cases q1 : insidePatch [barycenter s, B, C] d = true
  · rw [Bool.eq_false_iff.2 q0, q1] at efr
    rw [eb, ← sB] at q1
    obtain ⟨k1, k2⟩ := least_of_patch ht nB hdB q1
    exact ⟨1, B, C, A, b, c, a, by norm_num, efr, e1, nB, sB, hdB, hb, hc, ha, k1, k2⟩
  by_cases q2 : insidePatch [barycenter s, C, A] d = true
  · rw [Bool.eq_false_iff.2 q0, Bool.eq_false_iff.2 q1, q2] at efr
    rw [eb, ← sC] at q2
    obtain ⟨k1, k2⟩ := least_of_patch ht nC hdC q2
    exact ⟨2, C, A, B, c, a, b, by norm_num, efr, e2, nC, sC, hdC, hc, ha, hb, k1, k2⟩
  exfalso
  rw [eb] at q0 q1 q2
  rw [← sB] at q1
  rw [← sC] at q2
  rcases le_total a b with x | x <;> rcases le_total b c with y | y <;> rcases le_total a c with z | z
  all_goals first
    | exact q0 (patch_of_least ht0 hn hd hc (by linarith) (by linarith))
    | exact q1 (patch_of_least ht0 nB hdB ha (by linarith) (by linarith))
    | exact q2 (patch_of_least ht0 nC hdC hb (by linarith) (by linarith))

theorem bary_top {s : Sector} {A B C : V3} (h : Tri s A B C) : barycenter s ≠ ![0, 0, 1] := by
  intro e
  obtain ⟨t, ht, eb, -⟩ := bary h
  have h0 := congrFun (eb.symm.trans e) 0
  rw [Pi.smul_apply, smul_eq_mul] at h0
  simp only [Matrix.cons_val_zero] at h0
  have := mul_pos (show 0 < t by linarith) h.top
  linarith

theorem arccos_clamp (x : ℝ) : Real.arccos (clampCos x) = Real.arccos x := by
  unfold clampCos
  split_ifs with h
  · rcases le_total 0 x with h0 | h0
    · rw [abs_of_nonneg h0] at h
      rw [sign_pos (by linarith), Real.arccos_of_one_le h.le]
      simp
    · rw [abs_of_nonpos h0] at h
      have e : Real.arccos x = Real.pi := Real.arccos_of_le_neg_one (by linarith)
      rw [sign_neg (by linarith), e]
      simp
  · rfl

/-- The angles of a direction of the triangle. -/
theorem angles {s : Sector} {A B C : V3} (h : Tri s A B C) {d : V3} (h1 : 0 ≤ triple A B d) (h2 : 0 ≤ triple A d C)
    (h3 : 0 ≤ triple d B C) (hd1 : d ⬝ᵥ d = 1) :
    (0 ≤ rho s d ∧ rho s d ≤ 2 * Real.pi) ∧ 0 ≤ theta s d ∧ theta s d ≤ Real.pi / 2 := by
  obtain ⟨f, A', B', C', a, b, c, hf, ef, ee, hn, hs, hd, ha, hb, hc, hca, hcb⟩ := region h h1 h2 h3
  have hft := foot hn hd hd1 ha hb hc (by norm_num : (0 : ℝ) ≤ 1 / 1000) (by norm_num) hca hcb
  have epb : pointOnBoundary s d =
      (norm (d - (((norm (cross B' A'))⁻¹ • cross B' A') ⬝ᵥ d) • ((norm (cross B' A'))⁻¹ • cross B' A')))⁻¹ •
        (d - (((norm (cross B' A'))⁻¹ • cross B' A') ⬝ᵥ d) • ((norm (cross B' A'))⁻¹ • cross B' A')) := by
    unfold pointOnBoundary
    simp only
    rw [ef, ee]
    exact if_pos hft.1
  obtain ⟨-, k1, k2, k3⟩ := hft
  rw [← epb] at k1 k2 k3
  have hp := Real.pi_pos
  have hff : (0 : ℝ) ≤ f ∧ (f : ℝ) ≤ 2 := ⟨by positivity, by exact_mod_cast hf⟩
  obtain ⟨t, ht, eb, -⟩ := bary h
  constructor
  · have h0 := hn.ab
    have hlt := hn.flat
    have hpos : 0 < Real.arccos (A' ⬝ᵥ B') := Real.arccos_pos.2 hlt
    have hle : Real.arccos (A' ⬝ᵥ pointOnBoundary s d) ≤ Real.arccos (A' ⬝ᵥ B') := Real.arccos_le_arccos k1
    have hnn := Real.arccos_nonneg (A' ⬝ᵥ pointOnBoundary s d)
    have e1 : (3 : ℝ) = (s.vertices.length : ℝ) := by rw [h.vs]; norm_num
    have er : rho s d = if Real.arccos (A' ⬝ᵥ pointOnBoundary s d) ≠ 0 then
        2 * Real.pi * Real.arccos (A' ⬝ᵥ pointOnBoundary s d) / Real.arccos (A' ⬝ᵥ B') / 3 + f * 2 * Real.pi / 3
        else f * 2 * Real.pi / 3 := by
      unfold rho
      simp only
      rw [if_neg (bary_top h), ef, ee, ← e1]
      have a1 : ¬ |A' ⬝ᵥ B'| > 1 := by rw [abs_of_nonneg h0]; linarith
      have a2 : ¬ |A' ⬝ᵥ pointOnBoundary s d| > 1 := by rw [abs_of_nonneg (h0.trans k1)]; linarith
      simp only [if_neg a1, if_neg a2, Int.cast_natCast]
    rw [er]
    have hr1 : Real.arccos (A' ⬝ᵥ pointOnBoundary s d) / Real.arccos (A' ⬝ᵥ B') ≤ 1 := (div_le_one hpos).2 hle
    have hr0 : 0 ≤ Real.arccos (A' ⬝ᵥ pointOnBoundary s d) / Real.arccos (A' ⬝ᵥ B') := div_nonneg hnn hpos.le
    have er2 : 2 * Real.pi * Real.arccos (A' ⬝ᵥ pointOnBoundary s d) / Real.arccos (A' ⬝ᵥ B') / 3 =
        2 * Real.pi / 3 * (Real.arccos (A' ⬝ᵥ pointOnBoundary s d) / Real.arccos (A' ⬝ᵥ B')) := by ring
    rw [er2]
    have hq := mul_le_mul_of_nonneg_left hr1 (show 0 ≤ 2 * Real.pi / 3 by positivity)
    have hq0 := mul_nonneg (show 0 ≤ 2 * Real.pi / 3 by positivity) hr0
    have hfp := mul_le_mul_of_nonneg_right hff.2 hp.le
    have hfp0 := mul_nonneg hff.1 hp.le
    split_ifs <;> constructor <;> linarith
  · unfold theta
    simp only
    rw [if_neg (bary_top h), arccos_clamp, arccos_clamp]
    have hle : barycenter s ⬝ᵥ pointOnBoundary s d ≤ barycenter s ⬝ᵥ d := by
      rw [eb, smul_dotProduct, smul_dotProduct, smul_eq_mul, smul_eq_mul, ← hs]
      exact mul_le_mul_of_nonneg_left k3 (by linarith)
    have ho := Real.arccos_le_arccos hle
    have hn1 := Real.arccos_nonneg (barycenter s ⬝ᵥ d)
    have hn2 := Real.arccos_nonneg (barycenter s ⬝ᵥ pointOnBoundary s d)
    split_ifs with h0
    · exact ⟨le_rfl, by linarith⟩
    · have hpos : 0 < Real.arccos (barycenter s ⬝ᵥ pointOnBoundary s d) := lt_of_le_of_ne hn2 (Ne.symm h0)
      have hr1 : Real.arccos (barycenter s ⬝ᵥ d) / Real.arccos (barycenter s ⬝ᵥ pointOnBoundary s d) ≤ 1 := (div_le_one hpos).2 ho
      have hr0 : 0 ≤ Real.arccos (barycenter s ⬝ᵥ d) / Real.arccos (barycenter s ⬝ᵥ pointOnBoundary s d) := div_nonneg hn1 hpos.le
      have e : Real.pi * Real.arccos (barycenter s ⬝ᵥ d) / Real.arccos (barycenter s ⬝ᵥ pointOnBoundary s d) / 2 =
          Real.pi / 2 * (Real.arccos (barycenter s ⬝ᵥ d) / Real.arccos (barycenter s ⬝ᵥ pointOnBoundary s d)) := by ring
      rw [e]
      exact ⟨mul_nonneg (by positivity) hr0, by simpa using mul_le_mul_of_nonneg_left hr1 (show 0 ≤ Real.pi / 2 by positivity)⟩

/-- The sectors of the four groups are such triangles. -/
theorem super_tri {g : PG} (hg : isSuper g) :
    Tri (sector g) (vertex (sector g) 0) (vertex (sector g) 1) (vertex (sector g) 2) := by
  have h2 : √2 * √2 = 2 := Real.mul_self_sqrt (by norm_num)
  have h3 : √3 * √3 = 3 := Real.mul_self_sqrt (by norm_num)
  obtain ⟨a1, a2⟩ : (1414 / 1000 : ℝ) ≤ √2 ∧ √2 ≤ 1415 / 1000 :=
    ⟨Real.le_sqrt_of_sq_le (by norm_num), Real.sqrt_le_iff.2 ⟨by norm_num, by norm_num⟩⟩
  obtain ⟨b1, b2⟩ : (1732 / 1000 : ℝ) ≤ √3 ∧ √3 ≤ 1733 / 1000 :=
    ⟨Real.le_sqrt_of_sq_le (by norm_num), Real.sqrt_le_iff.2 ⟨by norm_num, by norm_num⟩⟩
  have i2 : 1 / √2 = √2 / 2 := by field_simp; linarith
  have i3 : 1 / √3 = √3 / 3 := by field_simp; linarith
  rcases hg with rfl | rfl | rfl | rfl
  all_goals
    refine ⟨rfl, ⟨?_, ?_, ?_, ?_, ?_, ?_, ?_, ?_, ?_, ?_⟩, ?_⟩ <;>
      simp only [sector, vertex, triple, cross, dotProduct, Fin.sum_univ_three, List.getD_cons_zero, List.getD_cons_succ,
        Matrix.cons_val_zero, Matrix.cons_val_one, Matrix.cons_val, Pi.add_apply, i2, i3] <;>
      generalize √2 = r2 at * <;> generalize √3 = r3 at * <;> first | norm_num; done | nlinarith

end Hexrd.Ipf
