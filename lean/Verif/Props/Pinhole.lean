import Verif.Spec.Pinhole
import Mathlib.Tactic.Linarith
import Mathlib.Tactic.Ring
import Mathlib.Tactic.FieldSimp
import Mathlib.Tactic.Positivity
import Mathlib.Tactic.LinearCombination
import Mathlib.Tactic.NormNum

/-! Distortions of a pinhole camera: the angles are those of straight rays. -/

namespace Hexrd.Pinhole

theorem layer_real (c s D L : ℝ) (hs : 0 ≤ s) (hcs : c ^ 2 + s ^ 2 = 1) (hL : 0 < L) (hD : L < D) (θ : ℝ) (h0 : 0 ≤ θ)
    (hpi : θ ≤ Real.pi) (hc : Real.cos θ = c) (hsn : Real.sin θ = s) :
    θ + Real.arctan (s / (D / L - c)) = Real.arccos ((D * c - L) / Real.sqrt (D ^ 2 - 2 * D * L * c + L ^ 2)) := by
  have hc1 : c ≤ 1 := by nlinarith
  have hden : 0 < D - L * c := by nlinarith
  have hquot : s / (D / L - c) = L * s / (D - L * c) := by field_simp
  set δ := Real.arctan (s / (D / L - c)) with hδ
  set R := Real.sqrt (D ^ 2 - 2 * D * L * c + L ^ 2) with hR
  have hR2 : D ^ 2 - 2 * D * L * c + L ^ 2 = (D - L * c) ^ 2 + (L * s) ^ 2 := by linear_combination -L ^ 2 * hcs
  have hRpos : 0 < R := by rw [hR, hR2]; positivity
  have hRsq : R ^ 2 = (D - L * c) ^ 2 + (L * s) ^ 2 := by
    rw [hR, Real.sq_sqrt (by rw [hR2]; positivity), hR2]
  have hcosd : Real.cos δ = (D - L * c) / R := by
    rw [hδ, Real.cos_arctan, hquot]
    have : 1 + (L * s / (D - L * c)) ^ 2 = (R / (D - L * c)) ^ 2 := by
      field_simp
      linarith
    rw [this, Real.sqrt_sq (by positivity)]
    field_simp
  have hsind : Real.sin δ = L * s / R := by
    rw [hδ, Real.sin_arctan, hquot]
    have : 1 + (L * s / (D - L * c)) ^ 2 = (R / (D - L * c)) ^ 2 := by
      field_simp
      linarith
    rw [this, Real.sqrt_sq (by positivity)]
    field_simp
  have hd0 : 0 ≤ δ := by
    rw [hδ, Real.arctan_nonneg, hquot]; positivity
  have hd1 : δ < Real.pi / 2 := Real.arctan_lt_pi_div_two _
  have hcos : Real.cos (θ + δ) = (D * c - L) / R := by
    rw [Real.cos_add, hc, hsn, hcosd, hsind]
    field_simp
    linear_combination -L * hcs
  have hsin : 0 ≤ Real.sin (θ + δ) := by
    rw [Real.sin_add, hc, hsn, hcosd, hsind]
    have : s * ((D - L * c) / R) + c * (L * s / R) = s * D / R := by field_simp; ring
    rw [this]
    have : 0 < D := by linarith
    positivity
  have hle : θ + δ ≤ Real.pi := by
    by_contra hh
    push Not at hh
    have : Real.sin (θ + δ) < 0 := by
      have e : θ + δ = (θ + δ - Real.pi) + Real.pi := by ring
      rw [e, Real.sin_add_pi]
      have : 0 < Real.sin (θ + δ - Real.pi) := Real.sin_pos_of_pos_of_lt_pi (by linarith) (by linarith)
      linarith
    linarith
  rw [← hcos, Real.arccos_cos (by linarith) hle]

/-- The nominal angle plus the correction is the scattering angle in the layer. The source is at the distance `source` before the
pinhole along the beam `b`; the ray that reaches the detector in the direction `d` through the centre of the pinhole comes from the
point of the layer at `-zs / |d.z| d`, whose height over the centre is `zs`. -/
theorem layer_angle (b d : Vec) (hb : Spec.inner b b = 1) (hd : Spec.inner d d = 1) (source zs : ℝ) (hz : 0 < zs) (hdz : d.z ≠ 0)
    (hs : zs / |d.z| < source) :
    let p := Spec.smul (-(zs / |d.z|)) d
    |p.z| = zs ∧ Spec.angle b d + layerCorr source zs |d.z| (Spec.angle b d) =
      Spec.scattering (Spec.smul (-source) b) p ⟨0, 0, 0⟩ := by
  have hz0 : 0 < |d.z| := abs_pos.2 hdz
  have hL : 0 < zs / |d.z| := div_pos hz hz0
  set L := zs / |d.z| with hLdef
  refine ⟨?_, ?_⟩
  · simp only [Spec.smul, abs_mul, abs_neg, abs_of_pos hL]
    rw [hLdef]; field_simp
  have hang : Spec.angle b d = Real.arccos (Spec.inner b d) := by
    simp [Spec.angle, Spec.length, hb, hd]
  have hcs : (Spec.inner b d) ^ 2 ≤ 1 := by
    have : (Spec.inner b d) ^ 2 ≤ Spec.inner b b * Spec.inner d d := by
      simp only [Spec.inner]
      nlinarith [sq_nonneg (b.x * d.y - b.y * d.x), sq_nonneg (b.y * d.z - b.z * d.y), sq_nonneg (b.z * d.x - b.x * d.z)]
    rwa [hb, hd, one_mul] at this
  have hc1 : -1 ≤ Spec.inner b d ∧ Spec.inner b d ≤ 1 := abs_le.1 (by rw [← sq_le_one_iff_abs_le_one]; exact hcs)
  have hD : 0 < source := hL.trans hs
  have hq : source * |d.z| / zs = source / L := by rw [hLdef]; field_simp
  have hcos : Real.cos (Real.arccos (Spec.inner b d)) = Spec.inner b d := Real.cos_arccos hc1.1 hc1.2
  have hsin : Real.sin (Real.arccos (Spec.inner b d)) = Real.sqrt (1 - Spec.inner b d ^ 2) := Real.sin_arccos _
  have main := layer_real (Spec.inner b d) (Real.sqrt (1 - Spec.inner b d ^ 2)) source L (Real.sqrt_nonneg _)
    (by rw [Real.sq_sqrt (by linarith)]; ring) hL hs (Real.arccos (Spec.inner b d)) (Real.arccos_nonneg _) (Real.arccos_le_pi _)
    hcos hsin
  rw [hang, layerCorr, hq, hcos, hsin, main]
  unfold Spec.scattering Spec.angle
  congr 1
  have e1 : Spec.inner (Spec.sub (Spec.smul (-L) d) (Spec.smul (-source) b)) (Spec.sub ⟨0, 0, 0⟩ (Spec.smul (-L) d)) =
      L * (source * Spec.inner b d - L) := by
    have : Spec.inner d d = 1 := hd
    simp only [Spec.inner, Spec.sub, Spec.smul] at this ⊢
    linear_combination (-L ^ 2) * this
  have e2 : Spec.length (Spec.sub (Spec.smul (-L) d) (Spec.smul (-source) b)) =
      Real.sqrt (source ^ 2 - 2 * source * L * Spec.inner b d + L ^ 2) := by
    unfold Spec.length
    congr 1
    simp only [Spec.inner, Spec.sub, Spec.smul] at hb hd ⊢
    linear_combination source ^ 2 * hb + L ^ 2 * hd
  have e3 : Spec.length (Spec.sub ⟨0, 0, 0⟩ (Spec.smul (-L) d)) = L := by
    unfold Spec.length
    rw [show Spec.inner (Spec.sub ⟨0, 0, 0⟩ (Spec.smul (-L) d)) (Spec.sub ⟨0, 0, 0⟩ (Spec.smul (-L) d)) = L ^ 2 by
      simp only [Spec.inner, Spec.sub, Spec.smul] at hd ⊢
      linear_combination L ^ 2 * hd, Real.sqrt_sq hL.le]
  rw [e1, e2, e3]
  rw [mul_comm L, mul_div_mul_right _ _ hL.ne']

/-- A point is kept exactly if some straight ray in its direction passes through both openings. -/
theorem passes_iff (radius thickness : ℝ) (hr : 0 < radius) (ht : 0 < thickness) (d : Vec) (hd : Spec.inner d d = 1) :
    passes radius thickness d ↔ Spec.GoesThrough radius thickness d := by
  set n := Real.sqrt (d.x ^ 2 + d.y ^ 2) with hn
  have hn2 : n ^ 2 = d.x ^ 2 + d.y ^ 2 := Real.sq_sqrt (by positivity)
  have hn0 : 0 ≤ n := Real.sqrt_nonneg _
  have hu : n ^ 2 + |d.z| ^ 2 = 1 := by
    rw [sq_abs, hn2]; simp only [Spec.inner] at hd; linear_combination hd
  have h1 : passes radius thickness d ↔ (0 < |d.z| ∧ thickness * n ≤ 2 * radius * |d.z|) := by
    unfold passes criticalBeta
    rw [not_lt]
    rcases eq_or_lt_of_le (abs_nonneg d.z) with hz | hz
    · rw [← hz, Real.arccos_zero]
      constructor
      · intro h; exact absurd h (not_le.2 (Real.arctan_lt_pi_div_two _))
      · rintro ⟨h, -⟩; exact absurd h (lt_irrefl _)
    · have hz1 : |d.z| ≤ 1 := by nlinarith [sq_nonneg n]
      have hac : Real.arccos |d.z| = Real.arctan (n / |d.z|) := by
        rw [Real.arccos_eq_arctan hz]
        congr 2
        rw [← Real.sqrt_sq hn0]
        congr 1
        linarith
      rw [hac, Real.arctan_le_arctan_iff, div_le_div_iff₀ hz ht]
      constructor
      · intro h; exact ⟨hz, by linarith⟩
      · rintro ⟨-, h⟩; linarith
  rw [h1]
  constructor
  · rintro ⟨hz, hle⟩
    refine ⟨⟨-(thickness / |d.z| / 2 * d.x), -(thickness / |d.z| / 2 * d.y), 0⟩, thickness / |d.z|, ?_, ?_, ?_⟩
    · unfold Spec.InDisc
      have : thickness / |d.z| / 2 * n ≤ radius := by
        rw [div_div, div_mul_eq_mul_div, div_le_iff₀ (by positivity)]; linarith
      have h0 : 0 ≤ thickness / |d.z| / 2 * n := by positivity
      have := pow_le_pow_left₀ h0 this 2
      rw [mul_pow, hn2] at this
      simp only; linarith
    · unfold Spec.InDisc
      have : thickness / |d.z| / 2 * n ≤ radius := by
        rw [div_div, div_mul_eq_mul_div, div_le_iff₀ (by positivity)]; linarith
      have h0 : 0 ≤ thickness / |d.z| / 2 * n := by positivity
      have := pow_le_pow_left₀ h0 this 2
      rw [mul_pow, hn2] at this
      simp only [Spec.add, Spec.smul]; linarith
    · simp only [Spec.add, Spec.smul, zero_add, sub_zero, abs_mul, abs_div, abs_abs]
      rw [abs_of_pos ht]; field_simp
  · rintro ⟨p, t, hp, hq, hz⟩
    simp only [Spec.InDisc, Spec.add, Spec.smul, add_sub_cancel_left, abs_mul] at hp hq hz
    have hzpos : 0 < |d.z| := by
      rcases eq_or_lt_of_le (abs_nonneg d.z) with h | h
      · rw [← h, mul_zero] at hz; exact absurd hz ht.ne
      · exact h
    refine ⟨hzpos, ?_⟩
    have hw : (|t| * n) ^ 2 ≤ (2 * radius) ^ 2 := by
      rw [mul_pow, sq_abs, hn2]
      nlinarith [sq_nonneg (p.x + (p.x + t * d.x)), sq_nonneg (p.y + (p.y + t * d.y))]
    have hw' : |t| * n ≤ 2 * radius := le_of_sq_le_sq₀ hw (by positivity)
    rw [← hz]
    nlinarith
where
  le_of_sq_le_sq₀ {a b : ℝ} (h : a ^ 2 ≤ b ^ 2) (hb : 0 ≤ b) : a ≤ b := by
    by_contra hh; push Not at hh; nlinarith

/-- The reported angle of `tth_corr_layer`: NaN exactly where no ray passes, and else the nominal angle (or nothing) less the
correction for a source in the middle of the layer, which is away from the middle of the pinhole by half of both thicknesses and
the standoff. The azimuth is as given. The map has the correction itself. -/
theorem layer_reported (source standoff layer thickness radius : ℝ) (hr : 0 < radius) (ht : 0 < thickness) (d : Vec)
    (hd : Spec.inner d d = 1) (tth eta : ℝ) (nominal : Bool) :
    ((tthCorrLayer source standoff layer thickness radius d tth eta nominal).1 = none ↔ ¬ Spec.GoesThrough radius thickness d) ∧
      (tthCorrLayer source standoff layer thickness radius d tth eta nominal).2 = eta ∧
      (∀ a, (tthCorrLayer source standoff layer thickness radius d tth eta nominal).1 = some a →
        (if nominal then tth else 0) - a = layerCorr source (thickness / 2 + standoff + layer / 2) |d.z| tth) ∧
      tthCorrMapLayer source standoff layer thickness d tth = layerCorr source (thickness / 2 + standoff + layer / 2) |d.z| tth := by
  have e : layerDistance standoff layer thickness = thickness / 2 + standoff + layer / 2 := by
    unfold layerDistance; ring
  refine ⟨?_, rfl, ?_, by rw [tthCorrMapLayer, e]⟩
  · rw [← passes_iff radius thickness hr ht d hd]
    simp only [tthCorrLayer]
    split <;> simp_all
  · intro a ha
    simp only [tthCorrLayer, e] at ha
    split at ha
    · simp only [Option.some.injEq] at ha
      rw [← ha]
      cases nominal <;> simp
    · cases ha

/-- The other correction moves the angle seen from the pinhole to the nominal one: added to the angle from the pinhole, the
reported nominal angle gives twice the nominal angle; without the nominal angle the difference is reported. -/
theorem pinhole_reported (pin tth eta : ℝ) :
    pin + (tthCorrPinhole pin tth eta true).1 = tth + tth ∧ pin + (tthCorrPinhole pin tth eta false).1 = tth ∧
      (tthCorrPinhole pin tth eta true).2 = eta ∧ (tthCorrPinhole pin tth eta false).2 = eta := by
  refine ⟨?_, ?_, rfl, rfl⟩ <;> simp [tthCorrPinhole] <;> ring

/-- The correction is positive off the beam, and grows with the distance of the layer. -/
theorem layer_mono (source zs zs' cosBeta tth : ℝ) (hz : 0 < zs) (hzz : zs < zs') (hs : zs' < source * cosBeta)
    (h0 : 0 < tth) (h1 : tth < Real.pi) :
    0 < layerCorr source zs cosBeta tth ∧ layerCorr source zs cosBeta tth < layerCorr source zs' cosBeta tth := by
  have hsin : 0 < Real.sin tth := Real.sin_pos_of_pos_of_lt_pi h0 h1
  have hz' : 0 < zs' := hz.trans hzz
  have hcos : Real.cos tth ≤ 1 := Real.cos_le_one _
  have a1 : 1 < source * cosBeta / zs' := by rw [one_lt_div hz']; exact hs
  have a2 : source * cosBeta / zs' < source * cosBeta / zs := by
    apply div_lt_div_of_pos_left _ hz hzz
    linarith
  constructor
  · unfold layerCorr
    rw [Real.arctan_pos]
    exact div_pos hsin (by linarith)
  · unfold layerCorr
    rw [Real.arctan_lt_arctan_iff]
    exact div_lt_div_of_pos_left hsin (by linarith) (by linarith)

/-- The origin of the other correction is on the wall of the bore, but on its back face only if the radius is 1. -/
theorem jhe_origin (radius thickness eta : ℝ) (ht : 0 < thickness) :
    (jheOrigin radius thickness eta).x ^ 2 + (jheOrigin radius thickness eta).y ^ 2 = radius ^ 2 ∧
      ((jheOrigin radius thickness eta).z = -(thickness / 2) ↔ radius = 1) := by
  constructor
  · simp only [jheOrigin]
    linear_combination radius ^ 2 * Real.sin_sq_add_cos_sq eta
  · simp only [jheOrigin]
    constructor
    · intro h; nlinarith
    · rintro rfl; norm_num; ring

/-- A camera of the size in use: the layer at 1 mm, the source at 24 mm, a ray at 60 degrees to the axis. -/
example : ∃ b d : Vec, Spec.inner b b = 1 ∧ Spec.inner d d = 1 ∧ d.z ≠ 0 ∧ (1 : ℝ) / |d.z| < 24 :=
  ⟨⟨0, 0, -1⟩, ⟨3 / 5, 0, -4 / 5⟩, by norm_num [Spec.inner], by norm_num [Spec.inner], by norm_num, by norm_num [abs_of_neg]⟩

end Hexrd.Pinhole
