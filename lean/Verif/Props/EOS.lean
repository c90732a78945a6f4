import Verif.Spec.EOS
import Mathlib.Tactic.Linarith
import Mathlib.Tactic.Ring
import Mathlib.Tactic.NormNum
import Mathlib.Tactic.Positivity
import Mathlib.Tactic.FieldSimp
import Mathlib.Tactic.LinearCombination
import Mathlib.Topology.Order.IntermediateValue
import Mathlib.Topology.Instances.Real.Lemmas

/-!
C110: the equation of state.
-/

namespace Hexrd.EOS

theorem cube_root {x : ℝ} (hx : 0 < x) : (x ^ 3) ^ (2 / 3 : ℝ) = x ^ 2 := by
  rw [← Real.rpow_natCast x 3, ← Real.rpow_mul hx.le, ← Real.rpow_natCast x 2]; norm_num

theorem half_power {x : ℝ} (hx : 0 < x) : (x ^ 2) ^ (2.5 : ℝ) = x ^ 5 := by
  rw [← Real.rpow_natCast x 2, ← Real.rpow_mul hx.le, ← Real.rpow_natCast x 5]; norm_num

/-- C110: the pressure is the third-order Birch–Murnaghan pressure. -/
theorem pressure_bm3 (m : Eos) (T : Option ℝ) (x : ℝ) (hx : 0 < x) (hv : 0 < vt m T) :
    calcPressure m (vt m T / x ^ 3) T = bm3 (kt m T) (ktp m T) x := by
  unfold calcPressure bm3
  have e : vt m T / (vt m T / x ^ 3) = x ^ 3 := by field_simp
  simp only [e, cube_root hx]
  have e2 : 1 + 2 * (0.5 * (x ^ 2 - 1)) = x ^ 2 := by ring
  rw [e2, half_power hx]
  ring

theorem poly_zero (m : Eos) (P : ℝ) (T : Option ℝ) (x : ℝ) (hk : kt m T ≠ 0) :
    poly m P T x = 0 ↔ bm3 (kt m T) (ktp m T) x = P := by
  have e : bm3 (kt m T) (ktp m T) x - P = 3 / 2 * kt m T * poly m P T x := by
    unfold poly bm3; field_simp; ring
  constructor
  · intro h; rw [h, mul_zero] at e; linarith
  · intro h
    rw [h, sub_self] at e
    have := mul_eq_zero.1 e.symm
    exact this.resolve_left (mul_ne_zero (by norm_num) hk)

theorem exists_cube {V v : ℝ} (hV : 0 < V) (hv : 0 < v) : ∃ x, 0 < x ∧ V = v / x ^ 3 := by
  refine ⟨(v / V) ^ (1 / 3 : ℝ), by positivity, ?_⟩
  rw [← Real.rpow_natCast, ← Real.rpow_mul (by positivity)]
  norm_num
  field_simp

theorem ratios_iff (m : Eos) (P : ℝ) (T : Option ℝ) (hk : kt m T ≠ 0) (hv : 0 < vt m T) (r : ℝ) :
    r ∈ ratios m P T ↔ r * vt m T ∈ compressed m P T := by
  constructor
  · rintro ⟨x, hx, hp, rfl, h0, h1⟩
    have hx3 : 0 < x ^ 3 := by
      rcases lt_trichotomy (x ^ 3) 0 with h | h | h
      · exact absurd h0 (not_le.2 (div_neg_of_pos_of_neg one_pos h))
      · exact absurd (pow_eq_zero_iff (by norm_num) |>.1 h) hx
      · exact h
    have hxp : 0 < x := by
      by_contra hc
      have : x ^ 3 ≤ 0 := by nlinarith [sq_nonneg x, not_lt.1 hc]
      linarith
    refine ⟨by positivity, mul_le_of_le_one_left hv.le h1, ?_⟩
    rw [show 1 / x ^ 3 * vt m T = vt m T / x ^ 3 by ring, pressure_bm3 m T x hxp hv]
    exact (poly_zero m P T x hk).1 hp
  · rintro ⟨h0, h1, h2⟩
    have hr : 0 < r := (pos_iff_pos_of_mul_pos h0).2 hv
    obtain ⟨x, hx, hV⟩ := exists_cube h0 hv
    have hrx : r = 1 / x ^ 3 := by
      have : r * vt m T = (1 / x ^ 3) * vt m T := by rw [hV]; ring
      exact mul_right_cancel₀ hv.ne' this
    refine ⟨x, hx.ne', ?_, hrx, hr.le, ?_⟩
    · rw [poly_zero m P T x hk, ← pressure_bm3 m T x hx hv, ← hV, h2]
    · by_contra hc
      nlinarith [not_le.1 hc]

/-- C110: the volume at a pressure is the largest volume, not above the reference volume, that has this pressure; if there is none it
is the reference volume. -/
theorem volume_spec (m : Eos) (P : ℝ) (T : Option ℝ) (V : ℝ) (hk : kt m T ≠ 0) (hv : 0 < vt m T) :
    CalcVolume m (some P) T V ↔ (compressed m P T = ∅ ∧ V = vt m T) ∨ IsGreatest (compressed m P T) V := by
  have key : ∀ V, V ∈ compressed m P T → V / vt m T ∈ ratios m P T := by
    intro V hV
    rw [ratios_iff m P T hk hv, div_mul_cancel₀ _ hv.ne']; exact hV
  constructor
  · rintro (⟨h, rfl⟩ | ⟨r, ⟨hr, hmax⟩, rfl⟩)
    · left
      refine ⟨Set.eq_empty_iff_forall_notMem.2 fun V hV => ?_, rfl⟩
      have := key V hV
      rw [h] at this; exact this
    · right
      refine ⟨(ratios_iff m P T hk hv r).1 hr, fun W hW => ?_⟩
      have := hmax (key W hW)
      rwa [div_le_iff₀ hv] at this
  · rintro (⟨h, rfl⟩ | ⟨hV, hmax⟩)
    · left
      refine ⟨Set.eq_empty_iff_forall_notMem.2 fun r hr => ?_, rfl⟩
      have := (ratios_iff m P T hk hv r).1 hr
      rw [h] at this; exact this
    · right
      refine ⟨V / vt m T, ⟨key V hV, fun r hr => ?_⟩, (div_mul_cancel₀ _ hv.ne').symm⟩
      rw [le_div_iff₀ hv]
      exact hmax ((ratios_iff m P T hk hv r).1 hr)

/-- The pressure grows with compression. -/
theorem bm3_lt {k k' x y : ℝ} (hk : 0 < k) (hk' : 4 ≤ k') (hx : 1 ≤ x) (hxy : x < y) : bm3 k k' x < bm3 k k' y := by
  have h2 : x ^ 2 < y ^ 2 := pow_lt_pow_left₀ hxy (by linarith) (by norm_num)
  have h5 : x ^ 5 < y ^ 5 := pow_lt_pow_left₀ hxy (by linarith) (by norm_num)
  have h1 : 1 ≤ x ^ 2 := one_le_pow₀ hx
  have h15 : 1 ≤ x ^ 5 := one_le_pow₀ hx
  have e : ∀ z : ℝ, bm3 k k' z = 3 / 2 * k * (z ^ 5 * (z ^ 2 - 1) * (1 + 3 / 4 * (k' - 4) * (z ^ 2 - 1))) := fun z => by unfold bm3; ring
  rw [e, e]
  refine mul_lt_mul_of_pos_left ?_ (by positivity)
  have a1 : x ^ 5 * (x ^ 2 - 1) < y ^ 5 * (y ^ 2 - 1) :=
    mul_lt_mul'' h5 (by linarith) (by linarith) (by linarith)
  have a2 : 1 + 3 / 4 * (k' - 4) * (x ^ 2 - 1) ≤ 1 + 3 / 4 * (k' - 4) * (y ^ 2 - 1) := by
    have : 0 ≤ 3 / 4 * (k' - 4) := by linarith
    nlinarith
  have a3 : 0 < 1 + 3 / 4 * (k' - 4) * (x ^ 2 - 1) := by
    have : 0 ≤ 3 / 4 * (k' - 4) * (x ^ 2 - 1) := mul_nonneg (by linarith) (by linarith)
    linarith
  exact mul_lt_mul a1 a2 a3 (mul_nonneg (by linarith) (by linarith))

theorem compressed_unique (m : Eos) (P : ℝ) (T : Option ℝ) (hk : 0 < kt m T) (hk' : 4 ≤ ktp m T) (hv : 0 < vt m T) {V W : ℝ}
    (hV : V ∈ compressed m P T) (hW : W ∈ compressed m P T) : V = W := by
  obtain ⟨v0, v1, v2⟩ := hV
  obtain ⟨w0, w1, w2⟩ := hW
  obtain ⟨x, hx, rfl⟩ := exists_cube v0 hv
  obtain ⟨y, hy, rfl⟩ := exists_cube w0 hv
  rw [pressure_bm3 m T _ hx hv] at v2
  rw [pressure_bm3 m T _ hy hv] at w2
  have ge : ∀ z : ℝ, 0 < z → vt m T / z ^ 3 ≤ vt m T → 1 ≤ z := by
    intro z hz h
    rw [div_le_iff₀ (by positivity)] at h
    by_contra hc
    have := pow_lt_one₀ hz.le (not_le.1 hc) (n := 3) (by norm_num)
    nlinarith
  have hxy : x = y := by
    rcases lt_trichotomy x y with h | h | h
    · have := bm3_lt hk hk' (ge x hx v1) h; linarith
    · exact h
    · have := bm3_lt hk hk' (ge y hy w1) h; linarith
  rw [hxy]

theorem compressed_exists (m : Eos) (P : ℝ) (T : Option ℝ) (hk : 0 < kt m T) (hk' : 4 ≤ ktp m T) (hv : 0 < vt m T) (hP : 0 ≤ P) :
    ∃ V, V ∈ compressed m P T := by
  have hc : Continuous fun x => bm3 (kt m T) (ktp m T) x := by unfold bm3; fun_prop
  have h1 : bm3 (kt m T) (ktp m T) 1 = 0 := by simp [bm3]
  set y := 2 + P / kt m T with hy
  have hPk : 0 ≤ P / kt m T := by positivity
  have hbig : P ≤ bm3 (kt m T) (ktp m T) y := by
    have y2 : 2 ≤ y := by linarith
    have e : bm3 (kt m T) (ktp m T) y = 3 / 2 * kt m T * (y ^ 5 * (y ^ 2 - 1) * (1 + 3 / 4 * (ktp m T - 4) * (y ^ 2 - 1))) := by unfold bm3; ring
    have hs : 3 ≤ y ^ 2 - 1 := by nlinarith
    have h5 : y ≤ y ^ 5 := le_self_pow₀ (by linarith) (by norm_num)
    have a1 : y * 3 ≤ y ^ 5 * (y ^ 2 - 1) := mul_le_mul h5 hs (by norm_num) (by positivity)
    have a2 : 1 ≤ 1 + 3 / 4 * (ktp m T - 4) * (y ^ 2 - 1) := by
      have : 0 ≤ 3 / 4 * (ktp m T - 4) * (y ^ 2 - 1) := mul_nonneg (by linarith) (by linarith)
      linarith
    have a3 : y * 3 * 1 ≤ y ^ 5 * (y ^ 2 - 1) * (1 + 3 / 4 * (ktp m T - 4) * (y ^ 2 - 1)) :=
      mul_le_mul a1 a2 (by norm_num) (mul_nonneg (by positivity) (by linarith))
    rw [e]
    calc P = kt m T * (P / kt m T) := by field_simp
      _ ≤ kt m T * (y * 3 * 1) := mul_le_mul_of_nonneg_left (by linarith) hk.le
      _ ≤ 3 / 2 * kt m T * (y * 3 * 1) := by nlinarith
      _ ≤ _ := mul_le_mul_of_nonneg_left a3 (by positivity)
  obtain ⟨x, hx, hxP⟩ := intermediate_value_Icc (by linarith : (1 : ℝ) ≤ y) hc.continuousOn ⟨by rw [h1]; exact hP, hbig⟩
  have hx0 : 0 < x := by linarith [hx.1]
  refine ⟨vt m T / x ^ 3, by positivity, ?_, ?_⟩
  · exact div_le_self hv.le (one_le_pow₀ hx.1)
  · rw [pressure_bm3 m T x hx0 hv]; exact hxP

/-- C110: for a non-negative pressure and a pressure derivative of at least 4 the volume is the only one, up to the reference
volume, that has this pressure: volume and pressure are inverse to each other. -/
theorem volume_inverse_partial (m : Eos) (P : ℝ) (T : Option ℝ) (V : ℝ) (hk : 0 < kt m T) (hk' : 4 ≤ ktp m T) (hv : 0 < vt m T)
    (hP : 0 ≤ P) : CalcVolume m (some P) T V ↔ 0 < V ∧ V ≤ vt m T ∧ calcPressure m V T = P := by
  rw [volume_spec m P T V hk.ne' hv]
  obtain ⟨W, hW⟩ := compressed_exists m P T hk hk' hv hP
  constructor
  · rintro (⟨h, -⟩ | h)
    · rw [h] at hW; exact hW.elim
    · exact h.1
  · intro h
    exact Or.inr ⟨h, fun U hU => (compressed_unique m P T hk hk' hv hU h).le⟩

/-- C110: there is always a result, and only one. -/
theorem volume_total (m : Eos) (P T : Option ℝ) (hk : 0 < kt m T) (hk' : 4 ≤ ktp m T) (hv : 0 < vt m T) : ∃! V, CalcVolume m P T V := by
  cases P with
  | none => exact ⟨vt m T, rfl, fun _ h => h⟩
  | some P =>
    simp only [volume_spec m P T _ hk.ne' hv]
    by_cases h : compressed m P T = ∅
    · refine ⟨vt m T, Or.inl ⟨h, rfl⟩, ?_⟩
      rintro W (⟨-, hW⟩ | ⟨hW, -⟩)
      · exact hW
      · rw [h] at hW; exact hW.elim
    · obtain ⟨V, hV⟩ := Set.nonempty_iff_ne_empty.2 h
      refine ⟨V, Or.inr ⟨hV, fun U hU => (compressed_unique m P T hk hk' hv hU hV).le⟩, ?_⟩
      rintro W (⟨h', -⟩ | ⟨hW, -⟩)
      · exact absurd h' h
      · exact compressed_unique m P T hk hk' hv hW hV

/-- C110 fails for tension: a negative pressure gives the volume at no pressure. -/
theorem volume_tension (m : Eos) (P : ℝ) (T : Option ℝ) (V : ℝ) (hk : 0 < kt m T) (hk' : 4 ≤ ktp m T) (hv : 0 < vt m T) (hP : P < 0)
    (h : CalcVolume m (some P) T V) : V = vt m T ∧ calcPressure m V T = 0 := by
  have h1 : calcPressure m (vt m T) T = 0 := by
    have := pressure_bm3 m T 1 one_pos hv
    simpa [bm3] using this
  rw [volume_spec m P T V hk.ne' hv] at h
  have hV : V = vt m T := by
    rcases h with ⟨-, h⟩ | ⟨⟨v0, v1, v2⟩, -⟩
    · exact h
    · exfalso
      obtain ⟨x, hx, rfl⟩ := exists_cube v0 hv
      rw [pressure_bm3 m T x hx hv] at v2
      rcases eq_or_lt_of_le (show 1 ≤ x by
        rw [div_le_iff₀ (by positivity)] at v1
        by_contra hc
        have := pow_lt_one₀ hx.le (not_le.1 hc) (n := 3) (by norm_num)
        nlinarith) with h | h
      · rw [← h] at v2; simp [bm3] at v2; linarith
      · have := bm3_lt hk hk' le_rfl h
        simp [bm3] at this v2
        linarith
  exact ⟨hV, hV ▸ h1⟩

/-- C110 fails for the moduli that every new material has, a bulk modulus of 100 and the pressure derivative 0 (material.py:210-215):
no volume has the pressure 100, and the reference volume is returned. -/
theorem volume_no_root (v : ℝ) (hv : 0 < v) :
    CalcVolume ⟨v, 100, 0, 0, 0, 0, 0⟩ (some 100) none v ∧ calcPressure ⟨v, 100, 0, 0, 0, 0, 0⟩ v none = 0 := by
  constructor
  · rw [volume_spec _ _ _ _ (by norm_num [kt]) (by simpa [vt] using hv)]
    left
    refine ⟨Set.eq_empty_iff_forall_notMem.2 ?_, rfl⟩
    rintro V ⟨v0, v1, v2⟩
    obtain ⟨x, hx, rfl⟩ := exists_cube v0 (show 0 < vt ⟨v, 100, 0, 0, 0, 0, 0⟩ none by simpa [vt] using hv)
    rw [pressure_bm3 _ _ x hx (by simpa [vt] using hv)] at v2
    simp only [bm3, kt, ktp] at v2
    have hu : x ^ 7 - x ^ 5 = x ^ 5 * (x ^ 2 - 1) := by ring
    rw [hu] at v2
    have h5 : 0 < x ^ 5 := by positivity
    have hq : (x ^ 2 - 1) * (4 - 3 * x ^ 2) ≤ 1 / 12 := by nlinarith [sq_nonneg (x ^ 2 - 7 / 6)]
    have v3 : x ^ 5 * ((x ^ 2 - 1) * (4 - 3 * x ^ 2)) = 2 / 3 := by linarith
    have hpos : 0 < (x ^ 2 - 1) * (4 - 3 * x ^ 2) := by
      by_contra hc
      have := mul_nonpos_of_nonneg_of_nonpos h5.le (not_lt.1 hc)
      linarith
    have hlt : x ^ 2 < 4 / 3 := by
      by_contra hc
      have : (x ^ 2 - 1) * (4 - 3 * x ^ 2) ≤ 0 := mul_nonpos_of_nonneg_of_nonpos (by linarith [not_lt.1 hc]) (by linarith [not_lt.1 hc])
      linarith
    have hx2 : x < 2 := by nlinarith
    have h4 : x ^ 5 < 4 := by
      have : x ^ 5 = (x ^ 2) ^ 2 * x := by ring
      rw [this]
      have : (x ^ 2) ^ 2 ≤ 16 / 9 := by nlinarith [sq_nonneg x]
      nlinarith
    nlinarith
  · have := pressure_bm3 ⟨v, 100, 0, 0, 0, 0, 0⟩ none 1 one_pos (by simpa [vt] using hv)
    simpa [bm3, vt] using this

/-- C110: the cell of the lattice parameters at no pressure has the reference volume. -/
theorem lparms0_volume (m : Eos) (K : ℝ) (l : ℝ × ℝ × ℝ) (hv : 0 < m.v0) (hl : 0 < l.1 * l.2.1 * l.2.2 * K) :
    let l0 := lparms0 m (l.1 * l.2.1 * l.2.2 * K) l
    l0.1 * l0.2.1 * l0.2.2 * K * 1e3 = m.v0 := by
  have hs : 0 < ptLpFactor m (l.1 * l.2.1 * l.2.2 * K) := by unfold ptLpFactor; positivity
  have h3 : ptLpFactor m (l.1 * l.2.1 * l.2.2 * K) ^ 3 = l.1 * l.2.1 * l.2.2 * K * 1e3 / m.v0 := by
    unfold ptLpFactor
    rw [← Real.rpow_natCast, ← Real.rpow_mul (by positivity)]; norm_num
  simp only [lparms0]
  generalize ptLpFactor m (l.1 * l.2.1 * l.2.2 * K) = s at *
  have hK : l.1 * l.2.1 * l.2.2 * K ≠ 0 := hl.ne'
  have e : l.1 / s * (l.2.1 / s) * (l.2.2 / s) * K * 1e3 = l.1 * l.2.1 * l.2.2 * K * 1e3 / s ^ 3 := by field_simp
  rw [e, h3]
  field_simp
  exact div_self hK

/-- C110: the volume of the cell at a pressure and a temperature: it is the volume of the equation of state divided by the thermal
expansion. -/
theorem lp_volume (m : Eos) (K : ℝ) (l : ℝ × ℝ × ℝ) (T : Option ℝ) (V : ℝ) (hv : 0 < m.v0) (hl : 0 < l.1 * l.2.1 * l.2.2 * K)
    (hV : 0 < V) :
    let l' := lpAtPT m (l.1 * l.2.1 * l.2.2 * K) l T V
    l'.1 * l'.2.1 * l'.2.2 * K * 1e3 = V * (m.v0 / vt m T) := by
  have hvt : 0 < vt m T := by
    cases T <;> simp only [vt] <;> positivity
  have h0 := lparms0_volume m K l hv hl
  simp only [lpAtPT] at h0 ⊢
  have h3 : lpFactor m T V ^ 3 = V / vt m T := by
    unfold lpFactor
    rw [← Real.rpow_natCast, ← Real.rpow_mul (by positivity)]; norm_num
  generalize lpFactor m T V = f at *
  calc _ = f ^ 3 * ((lparms0 m (l.1 * l.2.1 * l.2.2 * K) l).1 * (lparms0 m (l.1 * l.2.1 * l.2.2 * K) l).2.1 *
        (lparms0 m (l.1 * l.2.1 * l.2.2 * K) l).2.2 * K * 1e3) := by ring
    _ = _ := by rw [h3, h0]; ring

/-- C110: the cell has the volume of the equation of state exactly if there is no thermal expansion. -/
theorem lp_volume_iff (m : Eos) (K : ℝ) (l : ℝ × ℝ × ℝ) (T : Option ℝ) (V : ℝ) (hv : 0 < m.v0) (hl : 0 < l.1 * l.2.1 * l.2.2 * K)
    (hV : 0 < V) :
    (let l' := lpAtPT m (l.1 * l.2.1 * l.2.2 * K) l T V
     l'.1 * l'.2.1 * l'.2.2 * K * 1e3 = V) ↔ vt m T = m.v0 := by
  have hvt : 0 < vt m T := by
    cases T <;> simp only [vt] <;> positivity
  have h := lp_volume m K l T V hv hl hV
  simp only [] at h ⊢
  rw [h]
  constructor
  · intro h
    have := mul_left_cancel₀ hV.ne' (h.trans (mul_one V).symm)
    rw [div_eq_one_iff_eq hvt.ne'] at this
    exact this.symm
  · intro h; rw [h, div_self hv.ne', mul_one]

/-- C110 fails for heating: without a pressure the lattice parameters are the same at every temperature. -/
theorem lp_no_expansion (m : Eos) (vol : ℝ) (l : ℝ × ℝ × ℝ) (T : Option ℝ) (V : ℝ) (hv : 0 < m.v0) (h : CalcVolume m none T V) :
    lpAtPT m vol l T V = lparms0 m vol l := by
  have hvt : 0 < vt m T := by
    cases T <;> simp only [vt] <;> positivity
  have hV : V = vt m T := h
  have : lpFactor m T V = 1 := by unfold lpFactor; rw [hV, div_self hvt.ne', Real.one_rpow]
  simp [lpAtPT, this]

/-- Iron-like constants meet the hypotheses. -/
example : ∃ m : Eos, 0 < kt m (some 500) ∧ 4 ≤ ktp m (some 500) ∧ 0 < vt m (some 500) ∧ vt m (some 500) ≠ m.v0 := by
  refine ⟨⟨23.5, 165, 5.3, 3.5e-5, 0, -0.02, 0⟩, by norm_num [kt], by norm_num [ktp], by simp only [vt]; positivity, ?_⟩
  simp only [vt]
  intro h
  have : Real.exp (3.5e-5 * (500 - 298) + 0.5 * 0 * (500 ^ 2 - 298 ^ 2)) = 1 := by linarith
  rw [Real.exp_eq_one_iff] at this
  norm_num at this

end Hexrd.EOS
