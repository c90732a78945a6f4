import Verif.Props.Pinhole
import Verif.Props.TestGrid

/-! The elements of the pinhole: scattering angles, visibility, weights and the mean angle. -/

namespace Hexrd.Pinhole

theorem atan2_cos (y x : ℝ) : Real.sqrt (x ^ 2 + y ^ 2) * Real.cos (atan2 y x) = x := by
  unfold atan2
  by_cases h : (⟨x, y⟩ : ℂ) = 0
  · obtain ⟨rfl, rfl⟩ : x = 0 ∧ y = 0 := by simpa [Complex.ext_iff] using h
    simp
  · rw [Complex.cos_arg h, Complex.norm_eq_sqrt_sq_add_sq]
    have : Real.sqrt (x ^ 2 + y ^ 2) ≠ 0 := by
      rw [← Complex.norm_eq_sqrt_sq_add_sq ⟨x, y⟩]; exact norm_ne_zero_iff.2 h
    field_simp

theorem atan2_sin (y x : ℝ) : Real.sqrt (x ^ 2 + y ^ 2) * Real.sin (atan2 y x) = y := by
  unfold atan2
  by_cases h : (⟨x, y⟩ : ℂ) = 0
  · obtain ⟨rfl, rfl⟩ : x = 0 ∧ y = 0 := by simpa [Complex.ext_iff] using h
    simp
  · rw [Complex.sin_arg, Complex.norm_eq_sqrt_sq_add_sq]
    have : Real.sqrt (x ^ 2 + y ^ 2) ≠ 0 := by
      rw [← Complex.norm_eq_sqrt_sq_add_sq ⟨x, y⟩]; exact norm_ne_zero_iff.2 h
    field_simp

/-- The two angles of a vector give its direction. -/
theorem polar_unit (u v w ρ : ℝ) (hρ : 0 < ρ) (h : ρ ^ 2 = u ^ 2 + v ^ 2 + w ^ 2) :
    let a := atan2 (Real.sqrt (u ^ 2 + v ^ 2)) w
    let f := atan2 v u
    ρ * Real.cos a = w ∧ ρ * (Real.sin a * Real.cos f) = u ∧ ρ * (Real.sin a * Real.sin f) = v := by
  intro a f
  have hsq : Real.sqrt (u ^ 2 + v ^ 2) ^ 2 = u ^ 2 + v ^ 2 := Real.sq_sqrt (by positivity)
  have hr : Real.sqrt (w ^ 2 + Real.sqrt (u ^ 2 + v ^ 2) ^ 2) = ρ := by
    rw [hsq, show w ^ 2 + (u ^ 2 + v ^ 2) = ρ ^ 2 by rw [h]; ring, Real.sqrt_sq hρ.le]
  have h1 := atan2_cos (Real.sqrt (u ^ 2 + v ^ 2)) w
  have h2 := atan2_sin (Real.sqrt (u ^ 2 + v ^ 2)) w
  rw [hr] at h1 h2
  refine ⟨h1, ?_, ?_⟩
  · rw [← mul_assoc, h2]; exact atan2_cos v u
  · rw [← mul_assoc, h2]; exact atan2_sin v u

theorem cauchy (u v w x y z : ℝ) : (w * z - u * x - v * y) ^ 2 ≤ (u ^ 2 + v ^ 2 + w ^ 2) * (x ^ 2 + y ^ 2 + z ^ 2) := by
  nlinarith [sq_nonneg (u * y - v * x), sq_nonneg (u * z + w * x), sq_nonneg (v * z + w * y)]

/-- The angle of an element is the scattering angle there of the ray from the source to the detector point. -/
theorem scatter_eq (c : Camera) (hc : Spec.Valid c) (e : Element) (he : Spec.OnWall c e) :
    scatter c e = Spec.scattering (Spec.source c) (Spec.place c e) (Spec.detector c) := by
  have hz : -c.h / 2 ≤ e.z ∧ e.z ≤ c.h / 2 := by
    unfold Spec.OnWall at he
    have := hc.h
    split at he
    · exact ⟨he.1.le, he.2.le⟩
    · rw [he]; constructor <;> linarith
    · rw [he]; constructor <;> linarith
  have hrx := hc.rx
  have hrd := hc.rd
  -- the two vectors, divided by the distances
  set ux := Real.sin c.alpha * Real.cos c.phix - c.d / (2 * c.rx) * Real.cos e.phi with hux
  set vx := Real.sin c.alpha * Real.sin c.phix - c.d / (2 * c.rx) * Real.sin e.phi with hvx
  set wx := Real.cos c.alpha + e.z / c.rx with hwx
  set ud := Real.sin c.beta * Real.cos c.phid - c.d / (2 * c.rd) * Real.cos e.phi with hud
  set vd := Real.sin c.beta * Real.sin c.phid - c.d / (2 * c.rd) * Real.sin e.phi with hvd
  set wd := Real.cos c.beta - e.z / c.rd with hwd
  have hwx0 : 0 < wx := by
    have : c.rx * wx = c.rx * Real.cos c.alpha + e.z := by rw [hwx]; field_simp
    have h2 : 0 < c.rx * wx := by rw [this]; linarith [hc.x, hz.1]
    exact (mul_pos_iff_of_pos_left hrx).1 h2
  have hwd0 : 0 < wd := by
    have : c.rd * wd = c.rd * Real.cos c.beta - e.z := by rw [hwd]; field_simp
    have h2 : 0 < c.rd * wd := by rw [this]; linarith [hc.y, hz.2]
    exact (mul_pos_iff_of_pos_left hrd).1 h2
  set ρx := Real.sqrt (ux ^ 2 + vx ^ 2 + wx ^ 2) with hρx
  set ρd := Real.sqrt (ud ^ 2 + vd ^ 2 + wd ^ 2) with hρd
  have hρx0 : 0 < ρx := Real.sqrt_pos.2 (by positivity)
  have hρd0 : 0 < ρd := Real.sqrt_pos.2 (by positivity)
  have hρx2 : ρx ^ 2 = ux ^ 2 + vx ^ 2 + wx ^ 2 := Real.sq_sqrt (by positivity)
  have hρd2 : ρd ^ 2 = ud ^ 2 + vd ^ 2 + wd ^ 2 := Real.sq_sqrt (by positivity)
  have hsx : sourceAngles c e = (atan2 (Real.sqrt (ux ^ 2 + vx ^ 2)) wx, atan2 vx ux) := by
    have : Real.sin c.alpha ^ 2 + 2 * (c.d / (2 * c.rx)) * Real.sin c.alpha * cosDx c e + (c.d / (2 * c.rx)) ^ 2 = ux ^ 2 + vx ^ 2 := by
      rw [cosDx, Real.cos_add_pi, Real.cos_sub, hux, hvx]
      linear_combination (-Real.sin c.alpha ^ 2) * Real.sin_sq_add_cos_sq c.phix -
        (c.d / (2 * c.rx)) ^ 2 * Real.sin_sq_add_cos_sq e.phi
    simp only [sourceAngles]
    rw [this]
  have hsd : detectorAngles c e = (atan2 (Real.sqrt (ud ^ 2 + vd ^ 2)) wd, atan2 vd ud) := by
    have : Real.sin c.beta ^ 2 + 2 * (c.d / (2 * c.rd)) * Real.sin c.beta * cosDd c e + (c.d / (2 * c.rd)) ^ 2 = ud ^ 2 + vd ^ 2 := by
      rw [cosDd, Real.cos_add_pi, Real.cos_sub, hud, hvd]
      linear_combination (-Real.sin c.beta ^ 2) * Real.sin_sq_add_cos_sq c.phid -
        (c.d / (2 * c.rd)) ^ 2 * Real.sin_sq_add_cos_sq e.phi
    simp only [detectorAngles]
    rw [this]
  obtain ⟨x1, x2, x3⟩ := polar_unit ux vx wx ρx hρx0 hρx2
  obtain ⟨d1, d2, d3⟩ := polar_unit ud vd wd ρd hρd0 hρd2
  unfold scatter
  simp only [hsx, hsd]
  set ax := atan2 (Real.sqrt (ux ^ 2 + vx ^ 2)) wx
  set fx := atan2 vx ux
  set ad := atan2 (Real.sqrt (ud ^ 2 + vd ^ 2)) wd
  set fd := atan2 vd ud
  have harg : Real.cos ax * Real.cos ad - Real.sin ax * Real.sin ad * Real.cos (fd - fx) =
      (wx * wd - ux * ud - vx * vd) / (ρx * ρd) := by
    rw [eq_div_iff (by positivity), Real.cos_sub]
    rw [← x1, ← d1, ← x2, ← d2, ← x3, ← d3]
    ring
  rw [harg]
  have habs : |(wx * wd - ux * ud - vx * vd) / (ρx * ρd)| ≤ 1 := by
    rw [abs_div, abs_of_pos (show 0 < ρx * ρd by positivity), div_le_one (by positivity)]
    apply abs_le_of_sq_le_sq _ (by positivity)
    rw [mul_pow, hρx2, hρd2]
    exact cauchy ux vx wx ud vd wd
  obtain ⟨l1, l2⟩ := abs_le.1 habs
  rw [min_eq_right l2, max_eq_right l1]
  unfold Spec.scattering Spec.angle
  congr 1
  have hX : Spec.sub (Spec.place c e) (Spec.source c) = ⟨-(c.rx * ux), -(c.rx * vx), c.rx * wx⟩ := by
    simp only [Spec.sub, Spec.place, Spec.source, Spec.polar, Real.sin_pi_sub, Real.cos_pi_sub, hux, hvx, hwx, Vec.mk.injEq]
    refine ⟨?_, ?_, ?_⟩ <;> · field_simp; try ring
  have hY : Spec.sub (Spec.detector c) (Spec.place c e) = ⟨c.rd * ud, c.rd * vd, c.rd * wd⟩ := by
    simp only [Spec.sub, Spec.place, Spec.detector, Spec.polar, hud, hvd, hwd, Vec.mk.injEq]
    refine ⟨?_, ?_, ?_⟩ <;> · field_simp
  rw [hX, hY]
  have hl1 : Spec.length ⟨-(c.rx * ux), -(c.rx * vx), c.rx * wx⟩ = c.rx * ρx := by
    unfold Spec.length
    rw [show Spec.inner ⟨-(c.rx * ux), -(c.rx * vx), c.rx * wx⟩ ⟨-(c.rx * ux), -(c.rx * vx), c.rx * wx⟩ = (c.rx * ρx) ^ 2 by
      rw [mul_pow, hρx2]; simp only [Spec.inner]; ring, Real.sqrt_sq (by positivity)]
  have hl2 : Spec.length ⟨c.rd * ud, c.rd * vd, c.rd * wd⟩ = c.rd * ρd := by
    unfold Spec.length
    rw [show Spec.inner ⟨c.rd * ud, c.rd * vd, c.rd * wd⟩ ⟨c.rd * ud, c.rd * vd, c.rd * wd⟩ = (c.rd * ρd) ^ 2 by
      rw [mul_pow, hρd2]; simp only [Spec.inner]; ring, Real.sqrt_sq (by positivity)]
  rw [hl1, hl2]
  simp only [Spec.inner]
  field_simp
  ring

theorem clear_real (r s k φ ψ H : ℝ) (hs : 0 < s) (hk : 0 < k) (hH : 0 < H) :
    (∀ t > 0, t * k ≤ H → (r * Real.cos φ + t * (s * Real.cos ψ)) ^ 2 + (r * Real.sin φ + t * (s * Real.sin ψ)) ^ 2 < r ^ 2) ↔
      H * s < 2 * r * Real.cos (φ - ψ + Real.pi) * k := by
  have key : ∀ t, (r * Real.cos φ + t * (s * Real.cos ψ)) ^ 2 + (r * Real.sin φ + t * (s * Real.sin ψ)) ^ 2 =
      r ^ 2 + t * s * (t * s - 2 * r * Real.cos (φ - ψ + Real.pi)) := by
    intro t
    rw [Real.cos_add_pi, Real.cos_sub]
    linear_combination r ^ 2 * Real.sin_sq_add_cos_sq φ + (t * s) ^ 2 * Real.sin_sq_add_cos_sq ψ
  simp only [key]
  set K := 2 * r * Real.cos (φ - ψ + Real.pi)
  constructor
  · intro h
    have := h (H / k) (by positivity) (by rw [div_mul_cancel₀ _ hk.ne'])
    have h2 : 0 < H / k * s := by positivity
    have h3 : H / k * s - K < 0 := by
      by_contra hh
      push Not at hh
      nlinarith [mul_nonneg h2.le hh]
    have h4 : H / k * s * k = H * s := by field_simp
    nlinarith
  · intro h t ht htk
    have h2 : 0 < t * s := by positivity
    have h3 : t * s * k < K * k := by nlinarith
    have h4 : t * s < K := lt_of_mul_lt_mul_right h3 hk.le
    nlinarith

theorem clear_up (c : Camera) (hc : Spec.Valid c) (e : Element) (hz : e.z < c.h / 2) :
    Spec.Clear (c.d / 2) (Spec.place c e) (Spec.polar 1 c.beta c.phid) (c.h / 2) ↔
      (c.h / 2 - e.z) * Real.sin c.beta < c.d * cosDd c e * Real.cos c.beta := by
  have hs : 0 < Real.sin c.beta := Real.sin_pos_of_pos_of_lt_pi hc.b0 (by linarith [hc.b1, Real.pi_pos])
  have hk : 0 < Real.cos c.beta := Real.cos_pos_of_mem_Ioo ⟨by linarith [hc.b0, Real.pi_pos], hc.b1⟩
  have := clear_real (c.d / 2) (Real.sin c.beta) (Real.cos c.beta) e.phi c.phid (c.h / 2 - e.z) hs hk (by linarith)
  rw [show 2 * (c.d / 2) * Real.cos (e.phi - c.phid + Real.pi) = c.d * cosDd c e by rw [cosDd]; ring] at this
  rw [← this]
  simp only [Spec.Clear, Spec.add, Spec.smul, Spec.place, Spec.polar, one_mul]
  constructor
  · intro h t ht htk; exact h t ht (by linarith)
  · intro h t ht htk; exact h t ht (by linarith)

theorem clear_down (c : Camera) (hc : Spec.Valid c) (e : Element) (hz : -c.h / 2 < e.z) :
    Spec.ClearDown (c.d / 2) (Spec.place c e) (Spec.polar 1 (Real.pi - c.alpha) c.phix) (-c.h / 2) ↔
      (e.z + c.h / 2) * Real.sin c.alpha < c.d * cosDx c e * Real.cos c.alpha := by
  have hs : 0 < Real.sin c.alpha := Real.sin_pos_of_pos_of_lt_pi hc.a0 (by linarith [hc.a1, Real.pi_pos])
  have hk : 0 < Real.cos c.alpha := Real.cos_pos_of_mem_Ioo ⟨by linarith [hc.a0, Real.pi_pos], hc.a1⟩
  have := clear_real (c.d / 2) (Real.sin c.alpha) (Real.cos c.alpha) e.phi c.phix (e.z + c.h / 2) hs hk (by linarith)
  rw [show 2 * (c.d / 2) * Real.cos (e.phi - c.phix + Real.pi) = c.d * cosDx c e by rw [cosDx]; ring] at this
  rw [← this]
  simp only [Spec.ClearDown, Spec.add, Spec.smul, Spec.place, Spec.polar, one_mul, Real.sin_pi_sub, Real.cos_pi_sub]
  constructor
  · intro h t ht htk; exact h t ht (by linarith)
  · intro h t ht htk; exact h t ht (by linarith)

/-- An element counts exactly if the ways to the detector and to the source are clear, in the direction these have from the centre;
an edge is on the face and needs only the one through the bore. -/
theorem seen_iff (c : Camera) (hc : Spec.Valid c) (e : Element) (he : Spec.OnWall c e) :
    seen c e ↔ (e.kind ≠ .dEdge → Spec.Clear (c.d / 2) (Spec.place c e) (Spec.polar 1 c.beta c.phid) (c.h / 2)) ∧
      (e.kind ≠ .xEdge → Spec.ClearDown (c.d / 2) (Spec.place c e) (Spec.polar 1 (Real.pi - c.alpha) c.phix) (-c.h / 2)) := by
  have hh := hc.h
  have hd := hc.d
  have hsb : 0 < Real.sin c.beta := Real.sin_pos_of_pos_of_lt_pi hc.b0 (by linarith [hc.b1, Real.pi_pos])
  have hcb : 0 < Real.cos c.beta := Real.cos_pos_of_mem_Ioo ⟨by linarith [hc.b0, Real.pi_pos], hc.b1⟩
  have hsa : 0 < Real.sin c.alpha := Real.sin_pos_of_pos_of_lt_pi hc.a0 (by linarith [hc.a1, Real.pi_pos])
  have hca : 0 < Real.cos c.alpha := Real.cos_pos_of_mem_Ioo ⟨by linarith [hc.a0, Real.pi_pos], hc.a1⟩
  have tb : ∀ z K : ℝ, z > c.h / 2 - c.d / Real.tan c.beta * K ↔ (c.h / 2 - z) * Real.sin c.beta < c.d * K * Real.cos c.beta := by
    intro z K
    rw [Real.tan_eq_sin_div_cos, show c.d / (Real.sin c.beta / Real.cos c.beta) * K = c.d * K * Real.cos c.beta / Real.sin c.beta by
      field_simp]
    rw [← lt_div_iff₀ hsb]
    constructor <;> intro h <;> linarith
  have ta : ∀ z K : ℝ, z < -c.h / 2 + c.d / Real.tan c.alpha * K ↔
      (z + c.h / 2) * Real.sin c.alpha < c.d * K * Real.cos c.alpha := by
    intro z K
    rw [Real.tan_eq_sin_div_cos, show c.d / (Real.sin c.alpha / Real.cos c.alpha) * K = c.d * K * Real.cos c.alpha / Real.sin c.alpha by
      field_simp]
    rw [← lt_div_iff₀ hsa]
    constructor <;> intro h <;> linarith
  rcases hk : e.kind
  · simp only [Spec.OnWall, hk] at he
    rw [clear_up c hc e he.2, clear_down c hc e he.1]
    simp only [seen, hk]
    rw [tb, ta]
    simp
  · simp only [Spec.OnWall, hk] at he
    rw [clear_up c hc e (by rw [he]; linarith)]
    simp only [seen, hk]
    rw [he, Real.tan_eq_sin_div_cos]
    have : c.h / c.d * (Real.sin c.beta / Real.cos c.beta) < cosDd c e ↔
        (c.h / 2 - -c.h / 2) * Real.sin c.beta < c.d * cosDd c e * Real.cos c.beta := by
      rw [div_mul_div_comm, div_lt_iff₀ (by positivity)]
      constructor <;> intro h <;> linarith
    rw [this]
    simp
  · simp only [Spec.OnWall, hk] at he
    rw [clear_down c hc e (by rw [he]; linarith)]
    simp only [seen, hk]
    rw [he, Real.tan_eq_sin_div_cos]
    have : c.h / c.d * (Real.sin c.alpha / Real.cos c.alpha) < cosDx c e ↔
        (c.h / 2 + c.h / 2) * Real.sin c.alpha < c.d * cosDx c e * Real.cos c.alpha := by
      rw [div_mul_div_comm, div_lt_iff₀ (by positivity)]
      constructor <;> intro h <;> linarith
    rw [this]
    simp

theorem axialCount_pos (c : Camera) (np : ℕ) : 0 < axialCount c np := lt_of_lt_of_le (by norm_num) (le_max_left _ _)

/-- The number of rows: three, or more if elements as wide as high need more. -/
theorem axialCount_rows (c : Camera) (hh : 0 < c.h) (hd : 0 < c.d) (np : ℕ) :
    3 ≤ axialCount c np ∧ (np * (c.h / axialCount c np) < 4 / 3 * (Real.pi * c.d)) ∧
      (3 * (Real.pi * c.d) ≤ np * c.h → Real.pi * c.d / np ≤ c.h / axialCount c np) := by
  have hp : 0 < Real.pi * c.d := by positivity
  have hq : 0 ≤ np * c.h / (Real.pi * c.d) := by positivity
  have h3 : 3 ≤ axialCount c np := le_max_left _ _
  have h3' : (3 : ℝ) ≤ axialCount c np := by exact_mod_cast h3
  have hcast : ((⌊np * c.h / (Real.pi * c.d)⌋.toNat : ℕ) : ℝ) = (⌊np * c.h / (Real.pi * c.d)⌋ : ℝ) := by
    have : ((⌊np * c.h / (Real.pi * c.d)⌋.toNat : ℕ) : ℤ) = ⌊np * c.h / (Real.pi * c.d)⌋ :=
      Int.toNat_of_nonneg (Int.floor_nonneg.mpr hq)
    exact_mod_cast this
  have hlt := Int.lt_floor_add_one (np * c.h / (Real.pi * c.d))
  have hle := Int.floor_le (np * c.h / (Real.pi * c.d))
  have hge : (⌊np * c.h / (Real.pi * c.d)⌋ : ℝ) ≤ axialCount c np := by
    rw [← hcast]; exact_mod_cast le_max_right 3 ⌊np * c.h / (Real.pi * c.d)⌋.toNat
  refine ⟨h3, ?_, ?_⟩
  · rw [div_lt_iff₀ hp] at hlt
    rw [← mul_div_assoc, div_lt_iff₀ (by linarith)]
    nlinarith
  · intro h
    have hn : (0 : ℝ) < np := by
      rcases Nat.eq_zero_or_pos np with h0 | h0
      · rw [h0] at h; simp at h; nlinarith
      · exact_mod_cast h0
    have h3q : (3 : ℝ) ≤ np * c.h / (Real.pi * c.d) := by rw [le_div_iff₀ hp]; exact h
    have hm : (axialCount c np : ℝ) ≤ np * c.h / (Real.pi * c.d) := by
      unfold axialCount
      push_cast
      rw [hcast]
      exact max_le h3q hle
    rw [le_div_iff₀ hp] at hm
    rw [div_le_div_iff₀ hn (by linarith)]
    linarith

/-- Elements that count have a positive weight, the others none. -/
theorem weight_pos (c : Camera) (hc : Spec.Valid c) (np : ℕ) (hnp : 0 < np) (e : Element) (he : Spec.OnWall c e) :
    0 ≤ weight c np e ∧ (0 < weight c np e ↔ seen c e) := by
  by_cases hs : seen c e
  swap
  · simp [weight, hs]
  have hw : weight c np e = volume c np e := by simp [weight, hs]
  suffices 0 < volume c np e by rw [hw]; exact ⟨this.le, by simp [this, hs]⟩
  have hh := hc.h
  have hd := hc.d
  have hmu := hc.mu
  have hpi := Real.pi_pos
  have hsb : 0 < Real.sin c.beta := Real.sin_pos_of_pos_of_lt_pi hc.b0 (by linarith [hc.b1, Real.pi_pos])
  have hcb : 0 < Real.cos c.beta := Real.cos_pos_of_mem_Ioo ⟨by linarith [hc.b0, Real.pi_pos], hc.b1⟩
  have hsa : 0 < Real.sin c.alpha := Real.sin_pos_of_pos_of_lt_pi hc.a0 (by linarith [hc.a1, Real.pi_pos])
  have hca : 0 < Real.cos c.alpha := Real.cos_pos_of_mem_Ioo ⟨by linarith [hc.a0, Real.pi_pos], hc.a1⟩
  have htb : 0 < Real.tan c.beta := by rw [Real.tan_eq_sin_div_cos]; positivity
  have hta : 0 < Real.tan c.alpha := by rw [Real.tan_eq_sin_div_cos]; positivity
  have hnp' : (0 : ℝ) < np := by exact_mod_cast hnp
  have hnz : (0 : ℝ) < axialCount c np := by exact_mod_cast axialCount_pos c np
  rcases hk : e.kind
  · simp only [Spec.OnWall, hk] at he
    simp only [seen, hk] at hs
    have h1 : 0 < cosDd c e := by
      by_contra hn
      push Not at hn
      have : c.d / Real.tan c.beta * cosDd c e ≤ 0 := mul_nonpos_of_nonneg_of_nonpos (by positivity) hn
      linarith [hs.1, he.2]
    have h2 : 0 < cosDx c e := by
      by_contra hn
      push Not at hn
      have : c.d / Real.tan c.alpha * cosDx c e ≤ 0 := mul_nonpos_of_nonneg_of_nonpos (by positivity) hn
      linarith [hs.2, he.1]
    simp only [volume, hk]
    positivity
  · simp only [seen, hk] at hs
    have h1 : 0 < cosDd c e := lt_trans (by positivity) hs
    simp only [volume, hk]
    have h3 : (0 : ℝ) ≤ if cosDx c e ≤ 0 then 0 else Real.cos c.alpha * cosDx c e := by
      split
      · exact le_refl _
      · next h => push Not at h; positivity
    positivity
  · simp only [seen, hk] at hs
    have h1 : 0 < cosDx c e := lt_trans (by positivity) hs
    simp only [volume, hk]
    have h3 : (0 : ℝ) ≤ if cosDd c e ≤ 0 then 0 else Real.cos c.beta * cosDd c e := by
      split
      · exact le_refl _
      · next h => push Not at h; positivity
    positivity

theorem sum_bounds {α : Type} (es : List α) (w f : α → ℝ) (hw : ∀ e ∈ es, 0 ≤ w e) (lo hi : ℝ)
    (hf : ∀ e ∈ es, 0 < w e → lo ≤ f e ∧ f e ≤ hi) :
    lo * (es.map w).sum ≤ (es.map fun e => w e * f e).sum ∧ (es.map fun e => w e * f e).sum ≤ hi * (es.map w).sum := by
  induction es with
  | nil => simp
  | cons e es ih =>
    obtain ⟨h1, h2⟩ := ih (fun e he => hw e (List.mem_cons_of_mem _ he)) fun e he => hf e (List.mem_cons_of_mem _ he)
    have h3 := hw e (List.mem_cons_self ..)
    have h4 : lo * w e ≤ w e * f e ∧ w e * f e ≤ hi * w e := by
      rcases eq_or_lt_of_le h3 with h | h
      · rw [← h]; simp
      · have := hf e (List.mem_cons_self ..) h
        constructor <;> nlinarith
    simp only [List.map_cons, List.sum_cons]
    constructor <;> nlinarith [h4.1, h4.2]

theorem sum_zero_iff {α : Type} (es : List α) (w : α → ℝ) (hw : ∀ e ∈ es, 0 ≤ w e) :
    (es.map w).sum = 0 ↔ ∀ e ∈ es, ¬ 0 < w e := by
  induction es with
  | nil => simp
  | cons e es ih =>
    have h1 := hw e (List.mem_cons_self ..)
    have hw' : ∀ e ∈ es, 0 ≤ w e := fun e he => hw e (List.mem_cons_of_mem _ he)
    have h2 : 0 ≤ (es.map w).sum := List.sum_nonneg (by
      intro x hx; rw [List.mem_map] at hx; obtain ⟨a, ha, rfl⟩ := hx; exact hw' a ha)
    have h3 := ih hw'
    rw [List.map_cons, List.sum_cons, List.forall_mem_cons, ← h3]
    constructor
    · intro h; exact ⟨by linarith, by linarith⟩
    · rintro ⟨h4, h5⟩; linarith

/-- The grid of the pinhole: `np` azimuths in the middle of equal arcs; on each face an edge, and between them equal bands. -/
theorem elements_eq (c : Camera) (hh : 0 < c.h) (np : ℕ) (hnp : 0 < np) :
    ∃ phis, phis = ((List.range np).map fun k : ℕ => ((k : ℝ) + 1 / 2) * (2 * Real.pi / np)) ∧
      elements c np = some (phis.map (fun p => ⟨.xEdge, p, -c.h / 2⟩) ++
        ((GrainMap.Spec.centres (-c.h / 2) (c.h / axialCount c np) (axialCount c np)).flatMap fun z =>
          phis.map fun p => ⟨.surface, p, z⟩) ++ phis.map fun p => ⟨.dEdge, p, c.h / 2⟩) := by
  refine ⟨_, rfl, ?_⟩
  have hnp' : (0 : ℝ) < np := by exact_mod_cast hnp
  have hnz : (0 : ℝ) < axialCount c np := by exact_mod_cast axialCount_pos c np
  set nz := axialCount c np with hnzdef
  have hpi := Real.pi_pos
  have e1 : GrainMap.arange (2 * Real.pi / np / 2) (2 * Real.pi) (2 * Real.pi / np) =
      some ((List.range np).map fun k : ℕ => ((k : ℝ) + 1 / 2) * (2 * Real.pi / np)) := by
    unfold GrainMap.arange
    rw [if_neg (by positivity)]
    have : (2 * Real.pi - 2 * Real.pi / np / 2) / (2 * Real.pi / np) = np - 1 / 2 := by field_simp
    rw [this]
    have : ⌈(np - 1 / 2 : ℝ)⌉ = (np : ℤ) := by
      rw [Int.ceil_eq_iff]; push_cast; constructor <;> linarith
    rw [this, Int.toNat_natCast]
    congr 1
    apply List.map_congr_left
    intro k _
    ring
  have e2 : GrainMap.arange (-c.h / 2 - c.h / nz / 2) (c.h / 2 + c.h / nz / 1.999) (c.h / nz) =
      some ((List.range (nz + 2)).map fun k : ℕ => -c.h / 2 - c.h / nz / 2 + k * (c.h / nz)) := by
    unfold GrainMap.arange
    rw [if_neg (by positivity)]
    have : (c.h / 2 + c.h / nz / 1.999 - (-c.h / 2 - c.h / nz / 2)) / (c.h / nz) = nz + (1 / 1.999 + 1 / 2) := by
      field_simp; ring
    rw [this]
    have : ⌈(nz + (1 / 1.999 + 1 / 2) : ℝ)⌉ = ((nz + 2 : ℕ) : ℤ) := by
      rw [Int.ceil_eq_iff]; push_cast; norm_num; linarith
    rw [this, Int.toNat_natCast]
  have e3 : ((List.range (nz + 2)).map fun k : ℕ => -c.h / 2 - c.h / nz / 2 + k * (c.h / nz)).tail.dropLast =
      GrainMap.Spec.centres (-c.h / 2) (c.h / nz) nz := by
    rw [List.range_succ_eq_map, List.map_cons, List.tail_cons, List.map_map, List.range_succ, List.map_append, List.map_singleton,
      List.dropLast_concat]
    unfold GrainMap.Spec.centres
    apply List.map_congr_left
    intro k _
    simp only [Function.comp_apply, Nat.succ_eq_add_one, Nat.cast_add, Nat.cast_one]
    ring
  simp only [elements, ← hnzdef]
  rw [e1, e2]
  simp only [Option.bind_eq_bind, Option.bind_some, e3]
  rfl

/-- All places of the grid are on the wall or the edges. -/
theorem elements_onWall (c : Camera) (hh : 0 < c.h) (np : ℕ) (hnp : 0 < np) (es : List Element) (h : elements c np = some es) :
    es.length = (axialCount c np + 2) * np ∧ ∀ e ∈ es, Spec.OnWall c e := by
  obtain ⟨phis, hp, he⟩ := elements_eq c hh np hnp
  rw [he] at h
  cases h
  have hl : phis.length = np := by rw [hp]; simp
  have hnz : (0 : ℝ) < axialCount c np := by exact_mod_cast axialCount_pos c np
  constructor
  · rw [List.length_append, List.length_append, List.length_map, List.length_map, hl,
      GrainMap.flatMap_length _ _ np (fun z _ => by rw [List.length_map, hl])]
    simp only [GrainMap.Spec.centres, List.length_map, List.length_range]
    ring
  · intro e hm
    simp only [List.mem_append, List.mem_map, List.mem_flatMap] at hm
    rcases hm with (⟨p, -, rfl⟩ | ⟨z, hz, p, -, rfl⟩) | ⟨p, -, rfl⟩
    · simp [Spec.OnWall]
    · simp only [Spec.OnWall]
      simp only [GrainMap.Spec.centres, List.mem_map, List.mem_range] at hz
      obtain ⟨k, hk, rfl⟩ := hz
      have hk' : (k : ℝ) + 1 ≤ axialCount c np := by exact_mod_cast hk
      have hs : 0 < c.h / axialCount c np := by positivity
      have ht : (axialCount c np : ℝ) * (c.h / axialCount c np) = c.h := by field_simp
      have hk0 : (0 : ℝ) ≤ k := Nat.cast_nonneg k
      constructor
      · nlinarith
      · nlinarith
    · simp [Spec.OnWall]

/-- The angle seen through the pinhole: there is none exactly if no element counts; else it lies between any bounds of the scattering
angles at the elements that count. -/
theorem mean_angle (c : Camera) (hc : Spec.Valid c) (np : ℕ) (hnp : 0 < np) :
    ∃ es, elements c np = some es ∧
      (meanAngle c np es = none ↔ ∀ e ∈ es, ¬ seen c e) ∧
      ∀ q, meanAngle c np es = some q → ∀ lo hi : ℝ,
        (∀ e ∈ es, seen c e → lo ≤ Spec.scattering (Spec.source c) (Spec.place c e) (Spec.detector c) ∧
          Spec.scattering (Spec.source c) (Spec.place c e) (Spec.detector c) ≤ hi) → lo ≤ q ∧ q ≤ hi := by
  obtain ⟨phis, -, he⟩ := elements_eq c hc.h np hnp
  refine ⟨_, he, ?_⟩
  have hw := (elements_onWall c hc.h np hnp _ he).2
  clear he
  generalize phis.map (fun p => (⟨.xEdge, p, -c.h / 2⟩ : Element)) ++
        ((GrainMap.Spec.centres (-c.h / 2) (c.h / axialCount c np) (axialCount c np)).flatMap fun z =>
          phis.map fun p => (⟨.surface, p, z⟩ : Element)) ++ phis.map (fun p => (⟨.dEdge, p, c.h / 2⟩ : Element)) = es at hw
  have h0 : ∀ e ∈ es, 0 ≤ weight c np e := fun e he => (weight_pos c hc np hnp e (hw e he)).1
  have hz := sum_zero_iff es (weight c np) h0
  constructor
  · unfold meanAngle
    simp only
    split
    · next h =>
      simp only [true_iff]
      intro e he hs
      exact hz.1 h e he ((weight_pos c hc np hnp e (hw e he)).2.2 hs)
    · next h =>
      simp only [reduceCtorEq, false_iff]
      intro hn
      exact h (hz.2 fun e he hp => hn e he ((weight_pos c hc np hnp e (hw e he)).2.1 hp))
  · intro q hq lo hi hb
    unfold meanAngle at hq
    simp only at hq
    split at hq
    · cases hq
    · next h =>
      cases hq
      have hpos : 0 < (es.map (weight c np)).sum := lt_of_le_of_ne (List.sum_nonneg (by
        intro x hx; rw [List.mem_map] at hx; obtain ⟨a, ha, rfl⟩ := hx; exact h0 a ha)) (Ne.symm h)
      obtain ⟨b1, b2⟩ := sum_bounds es (weight c np) (scatter c) h0 lo hi (by
        intro e he hp
        rw [scatter_eq c hc e (hw e he)]
        exact hb e he ((weight_pos c hc np hnp e (hw e he)).2.1 hp))
      exact ⟨by rw [le_div_iff₀ hpos]; exact b1, by rw [div_le_iff₀ hpos]; exact b2⟩

/-- A small camera. -/
example : ∃ c : Camera, Spec.Valid c ∧ ∃ e : Element, Spec.OnWall c e ∧ seen c e := by
  refine ⟨⟨10, Real.pi / 4, 0, 10, Real.pi / 4, 0, 1, 4, 1⟩, ?_, ⟨.surface, Real.pi, 0⟩, ?_, ?_⟩
  · have := Real.pi_pos
    have h2 : (1 : ℝ) < Real.sqrt 2 := by rw [Real.lt_sqrt] <;> norm_num
    constructor <;> simp only [Real.cos_pi_div_four] <;> linarith
  · norm_num [Spec.OnWall]
  · have : Real.cos (Real.pi - 0 + Real.pi) = 1 := by rw [sub_zero, ← two_mul, Real.cos_two_pi]
    simp only [seen, cosDd, cosDx, this, Real.tan_pi_div_four]
    norm_num

end Hexrd.Pinhole
