import Verif.Lemmas.Cylinder
import Mathlib.Analysis.Real.Pi.Bounds

/-!
C73: cylindrical detectors.
-/

namespace Hexrd.Cylinder

open Matrix Hexrd.Transforms Hexrd.Transforms.Spec Spec

variable {pn : Panel}

/-- C73: `cart_to_dvecs` gives the vector from the crystal to the point of the bent sheet. -/
theorem cartToDvec_is_sheet (h : IsRotation pn.rmat) (xy : ℝ × ℝ) (ts tc : V) (rs : M) :
    crystalPosition rs ts tc + cartToDvec pn xy ts rs tc = sheet pn.rmat pn.tvec pn.radius xy.1 xy.2 := by
  have e : cartToDvec pn xy ts rs tc = fun j => toPanel pn ts tc rs j + mulV pn.rmat
      ![pn.radius * Real.sin (xy.1 / pn.radius), xy.2, pn.radius * (1 - Real.cos (xy.1 / pn.radius))] j := by
    apply fr_ext h
    ext i
    rw [fr_warp h]
    have := fr_lin pn.rmat 1 1 (toPanel pn ts tc rs) (mulV pn.rmat
      ![pn.radius * Real.sin (xy.1 / pn.radius), xy.2, pn.radius * (1 - Real.cos (xy.1 / pn.radius))]) i
    simp only [one_mul, fr_mulV h] at this
    rw [this]
  rw [e, mulV_eq]
  ext i
  simp only [crystalPosition, sheet, toPanel, mulV_eq, Pi.add_apply]
  ring

theorem quadratic_root {a b c s t : ℝ} (ha : 0 < a) (hc : 0 < c) (hs : 0 < s) (ht : 0 < t)
    (es : a * s ^ 2 - 2 * b * s = c) (et : a * t ^ 2 - 2 * b * t = c) : s = t := by
  by_contra hne
  have h1 : (s - t) * (a * (s + t) - 2 * b) = 0 := by linear_combination es - et
  rcases mul_eq_zero.1 h1 with h | h
  · exact hne (by linarith)
  · have h2 : s * (a * s - 2 * b) = c := by linear_combination es
    have h3 : a * s - 2 * b = -(a * t) := by linarith
    rw [h3] at h2
    nlinarith [mul_pos hs (mul_pos ha ht)]

theorem inside_iff (h : IsRotation pn.rmat) (ts tc : V) (rs : M) :
    Inside pn.rmat pn.tvec pn.radius (crystalPosition rs ts tc) ↔
      fr pn.rmat (toPanel pn ts tc rs) 0 ^ 2 + (fr pn.rmat (toPanel pn ts tc rs) 2 + pn.radius) ^ 2 <
        pn.radius ^ 2 := by
  have e : ∀ i, local_ pn.rmat pn.tvec (crystalPosition rs ts tc) i = -fr pn.rmat (toPanel pn ts tc rs) i := by
    intro i
    have : crystalPosition rs ts tc - pn.tvec = fun j => (-1) * toPanel pn ts tc rs j := by
      ext j; simp [crystalPosition, toPanel, mulV_eq]
    rw [local_, ← mulTV_eq, this]
    have := fr_smul pn.rmat (-1) (toPanel pn ts tc rs) i
    rw [fr] at this
    rw [this]; ring
  unfold Inside
  rw [e, e]
  have a1 : ∀ x y : ℝ, (-x) ^ 2 + (-y - pn.radius) ^ 2 = x ^ 2 + (y + pn.radius) ^ 2 := fun x y => by ring
  rw [a1]

/-- The ray from inside the cylinder meets it at one point ahead; the code finds that point, and its coordinates. -/
theorem dvecToXY_value (h : IsRotation pn.rmat) (hr : 0 < pn.radius) {u ts tc : V} {rs : M} (hu : IsUnit3 u)
    (hin : Inside pn.rmat pn.tvec pn.radius (crystalPosition rs ts tc))
    (hax : 1 / 10 ^ 10 ≤ 1 - (u ⬝ᵥ (pn.rmat *ᵥ ![0, 1, 0])) ^ 2) :
    ∃ th y s : ℝ, -Real.pi < th ∧ th ≤ Real.pi ∧ 0 < s ∧
      (∀ i, s * fr pn.rmat u i = fr pn.rmat (toPanel pn ts tc rs) i +
        (![pn.radius * Real.sin th, y, pn.radius * (1 - Real.cos th)] : V) i) ∧
      (∀ s' th' y' : ℝ, 0 < s' → (∀ i, s' * fr pn.rmat u i = fr pn.rmat (toPanel pn ts tc rs) i +
        (![pn.radius * Real.sin th', y', pn.radius * (1 - Real.cos th')] : V) i) → s' = s) ∧
      dvecToXY pn u ts tc rs = if |y| > pn.physicalSize.1 / 2 ∨ |th| ≥ pn.angleExtent then (none, false)
        else (some (pn.radius * th, y), true) := by
  rw [inside_iff h] at hin
  rw [← mulV_eq, ← dot_eq] at hax
  have hc1 : dot u (mulV pn.rmat ![0, 1, 0]) = fr pn.rmat u 1 := dot_c h u
  rw [hc1] at hax
  rw [IsUnit3, ← dot_eq, dot_fr h] at hu
  set w := fr pn.rmat u with hw
  set t := fr pn.rmat (toPanel pn ts tc rs) with ht
  set R := pn.radius with hR
  have hu' : w 0 ^ 2 + w 1 ^ 2 + w 2 ^ 2 = 1 := by simp only [dot] at hu; linear_combination hu
  set d := delta (mulV pn.rmat ![0, 0, -1]) pn.tvec R ts tc rs with hd
  have d0 : fr pn.rmat d 0 = t 0 := by rw [hd, fr_delta h]; simp [ht]
  have d1 : fr pn.rmat d 1 = t 1 := by rw [hd, fr_delta h]; simp [ht]
  have d2 : fr pn.rmat d 2 = t 2 + R := by rw [hd, fr_delta h]; simp [ht, hR]
  have hA : (1 : ℝ) - w 1 ^ 2 = w 0 ^ 2 + w 2 ^ 2 := by linarith
  have hApos : 0 < 1 - w 1 ^ 2 := lt_of_lt_of_le (by norm_num) hax
  have hdd : dot d d = t 0 ^ 2 + t 1 ^ 2 + (t 2 + R) ^ 2 := by rw [dot_fr h]; simp only [dot, d0, d1, d2]; ring
  have hB : dot u d = w 0 * t 0 + w 1 * t 1 + w 2 * (t 2 + R) := by
    rw [dot_fr h]; simp only [dot, d0, d1, d2, ← hw]
  set A := 1 - w 1 ^ 2 with hAd
  set B := w 0 * t 0 + w 2 * (t 2 + R) with hBd
  set C := R ^ 2 - (t 0 ^ 2 + (t 2 + R) ^ 2) with hCd
  have hCpos : 0 < C := by linarith
  have hdisc : 0 < B ^ 2 + A * C := by positivity
  set s := (B + √(B ^ 2 + A * C)) / A with hs
  have hsq : |B| < √(B ^ 2 + A * C) := by
    rw [← Real.sqrt_sq_eq_abs]
    exact Real.sqrt_lt_sqrt (sq_nonneg _) (by nlinarith [mul_pos hApos hCpos])
  have hspos : 0 < s := div_pos (by linarith [neg_abs_le B]) hApos
  have hroot : A * s ^ 2 - 2 * B * s = C := by
    have e1 : A * s - B = √(B ^ 2 + A * C) := by rw [hs]; field_simp; ring
    have e2 : (A * s - B) ^ 2 = B ^ 2 + A * C := by rw [e1, Real.sq_sqrt hdisc.le]
    have : A * (A * s ^ 2 - 2 * B * s) = A * C := by linear_combination e2
    exact mul_left_cancel₀ hApos.ne' this
  have hcyl : (s * w 0 - t 0) ^ 2 + (s * w 2 - (t 2 + R)) ^ 2 = R ^ 2 := by
    rw [hA, hBd, hCd] at hroot; linear_combination hroot
  obtain ⟨th, th1, th2, hcos, hsin⟩ := circle_angle (s := (s * w 0 - t 0) / R) (c := -(s * w 2 - (t 2 + R)) / R)
    (by field_simp; linear_combination hcyl)
  have es : s * w 0 = t 0 + R * Real.sin th := by rw [hsin]; field_simp; ring
  have ec : s * w 2 = t 2 + R * (1 - Real.cos th) := by rw [hcos]; field_simp; ring
  refine ⟨th, s * w 1 - t 1, s, th1, th2, hspos, ?_, ?_, ?_⟩
  · intro i; fin_cases i
    · exact es
    · simp
    · exact ec
  · intro s' th' y' hs' e'
    have e0 : s' * w 0 = t 0 + R * Real.sin th' := e' 0
    have e2 : s' * w 2 = t 2 + R * (1 - Real.cos th') := e' 2
    refine quadratic_root hApos hCpos hs' hspos ?_ hroot
    have e3 : (s' * w 0 - t 0) ^ 2 + (s' * w 2 - (t 2 + R)) ^ 2 = R ^ 2 := by
      rw [e0, e2]; linear_combination R ^ 2 * Real.sin_sq_add_cos_sq th'
    rw [hA, hBd, hCd]; linear_combination e3
  · have hq : unitvecToCylinder u pn.caxis pn.paxis R pn.tvec ts tc rs = some fun i => s * u i := by
      unfold unitvecToCylinder
      simp only [unitNormal_eq h, ← hd]
      rw [Real.sq_sqrt (by rw [hdd]; positivity), hdd, hB, dot_c h, dot_c h, d1, ← hw]
      have k1 : w 0 * t 0 + w 1 * t 1 + w 2 * (t 2 + R) - w 1 * t 1 = B := by rw [hBd]; ring
      have k2 : R ^ 2 - (t 0 ^ 2 + t 1 ^ 2 + (t 2 + R) ^ 2) + t 1 ^ 2 = C := by rw [hCd]; ring
      rw [k1, k2, ← hAd, if_neg (by rw [abs_of_pos hApos]; linarith), if_neg (by linarith)]
    have hfq : ∀ i, fr pn.rmat (fun j => s * u j - d j) i = s * w i - fr pn.rmat d i := by
      intro i; rw [fr_sub, fr_smul]
    have hdp : dot (fun i => s * u i - d i) pn.caxis = s * w 1 - t 1 := by rw [dot_c h, hfq, d1]
    have hwxy : ∀ k : ℝ, ∀ i, fr pn.rmat (fun j => (s * u j - d j) - k * pn.caxis j) i =
        s * w i - fr pn.rmat d i - k * (![0, 1, 0] : V) i := by
      intro k i
      rw [fr_sub, hfq, fr_smul, Panel.caxis, fr_mulV h]
    have hn : ∀ k : ℝ, dot (fun j => (s * u j - d j) - k * pn.caxis j) (mulV pn.rmat ![0, 0, -1]) / R =
        Real.cos th := by
      intro k
      rw [dot_n h, hwxy, d2, hcos]; simp
    have hp : ∀ k : ℝ, dot (fun j => (s * u j - d j) - k * pn.caxis j) pn.paxis = R * Real.sin th := by
      intro k
      rw [dot_p h, hwxy, d0, hsin]; simp; field_simp
    unfold dvecToXY
    simp only [← hR, hq, clip, cross_cp h, ← hd, hdp, hn, clampOne_cos, arccos_cos_abs th1.le th2,
      Bool.or_eq_true, decide_eq_true_eq]
    rw [mul_one_div]
    by_cases hcond : |s * w 1 - t 1| > pn.physicalSize.1 / 2 ∨ |th| ≥ pn.angleExtent
    · simp only [if_pos hcond, dewarp, Option.map_none]
    · simp only [if_neg hcond, dewarp, Option.map_some, unitNormal_eq h, ← hd, hdp, hn, hp, clampOne_cos,
        arccos_cos_abs th1.le th2]
      rw [mul_assoc, signed_abs hr th1 th2]

/-- Hitting the sheet, in the panel's frame. -/
theorem on_ray_iff (h : IsRotation pn.rmat) (u ts tc : V) (rs : M) (s x y : ℝ) :
    crystalPosition rs ts tc + s • u = sheet pn.rmat pn.tvec pn.radius x y ↔
      ∀ i, s * fr pn.rmat u i = fr pn.rmat (toPanel pn ts tc rs) i +
        (![pn.radius * Real.sin (x / pn.radius), y, pn.radius * (1 - Real.cos (x / pn.radius))] : V) i := by
  rw [← cartToDvec_is_sheet h (x, y) ts tc rs]
  constructor
  · intro e i
    have : s • u = cartToDvec pn (x, y) ts rs tc := add_left_cancel e
    rw [← fr_warp h (x, y), ← this]
    exact (fr_smul pn.rmat s u i).symm
  · intro e
    congr 1
    apply fr_ext h
    ext i
    rw [fr_warp h, ← e]
    exact fr_smul pn.rmat s u i

theorem angle_unique {r a b : ℝ} (hr : 0 < r) (ha1 : -Real.pi < a) (ha2 : a ≤ Real.pi) (hb1 : -Real.pi < b)
    (hb2 : b ≤ Real.pi) (hs : Real.sin a = Real.sin b) (hc : Real.cos a = Real.cos b) : a = b := by
  rw [← signed_abs hr ha1 ha2, ← signed_abs hr hb1 hb2, hs, ← arccos_cos_abs ha1.le ha2,
    ← arccos_cos_abs hb1.le hb2, hc]

/-- C73, projection is exact: for a crystal inside the cylinder and any direction not along the cylinder axis, the
projection returns a point and marks it valid exactly when that point of the panel lies on the ray ahead of the
crystal. -/
theorem projection_exact (h : IsRotation pn.rmat) (hr : 0 < pn.radius)
    (hw : pn.physicalSize.2 ≤ 2 * Real.pi * pn.radius) {u ts tc : V} {rs : M} (hu : IsUnit3 u)
    (hin : Inside pn.rmat pn.tvec pn.radius (crystalPosition rs ts tc))
    (hax : 1 / 10 ^ 10 ≤ 1 - (u ⬝ᵥ (pn.rmat *ᵥ ![0, 1, 0])) ^ 2) (xy : ℝ × ℝ) :
    dvecToXY pn u ts tc rs = (some xy, true) ↔
      RayHits pn.rmat pn.tvec pn.radius (pn.rows * pn.psr) (pn.cols * pn.psc) (crystalPosition rs ts tc) u xy := by
  obtain ⟨th, y, s, h1, h2, hs, he, huniq, hv⟩ := dvecToXY_value h hr hu hin hax
  have ext : pn.angleExtent = pn.cols * pn.psc / 2 / pn.radius := by
    simp only [Panel.angleExtent, Panel.physicalSize]; ring
  have hsz1 : pn.physicalSize.1 = pn.rows * pn.psr := rfl
  have hsz2 : pn.physicalSize.2 = pn.cols * pn.psc := rfl
  rw [hsz2] at hw
  have habs : ∀ a : ℝ, |pn.radius * a| < pn.cols * pn.psc / 2 ↔ |a| < pn.angleExtent := by
    intro a
    rw [abs_mul, abs_of_pos hr, ext, lt_div_iff₀ hr, mul_comm]
  rw [hv, hsz1]
  constructor
  · intro e
    split at e
    · exact absurd e (by simp)
    · rename_i hc
      push Not at hc
      simp only [Prod.mk.injEq, Option.some.injEq, and_true] at e
      subst e
      refine ⟨hc.1, (habs th).2 hc.2, s, hs, (on_ray_iff h u ts tc rs s _ _).2 ?_⟩
      rw [mul_div_cancel_left₀ _ hr.ne']
      exact he
  · rintro ⟨a1, a2, s', hs', e'⟩
    rw [on_ray_iff h] at e'
    obtain rfl := huniq s' _ _ hs' e'
    have hx : xy.1 = pn.radius * (xy.1 / pn.radius) := by field_simp
    rw [hx, habs] at a2
    have hpi : pn.angleExtent ≤ Real.pi := by
      rw [ext, div_le_iff₀ hr]; linarith
    have hlt := abs_lt.1 (lt_of_lt_of_le a2 hpi)
    have k : ∀ i, (![pn.radius * Real.sin th, y, pn.radius * (1 - Real.cos th)] : V) i =
        (![pn.radius * Real.sin (xy.1 / pn.radius), xy.2, pn.radius * (1 - Real.cos (xy.1 / pn.radius))] : V) i := by
      intro i; linarith [he i, e' i]
    have k0 : pn.radius * Real.sin th = pn.radius * Real.sin (xy.1 / pn.radius) := k 0
    have k1 : y = xy.2 := k 1
    have k2 : pn.radius * (1 - Real.cos th) = pn.radius * (1 - Real.cos (xy.1 / pn.radius)) := k 2
    have hth : th = xy.1 / pn.radius := angle_unique hr h1 h2 hlt.1 hlt.2.le (mul_left_cancel₀ hr.ne' k0)
      (by have := mul_left_cancel₀ hr.ne' k2; linarith)
    rw [hth, k1, if_neg (by push Not; exact ⟨a1, a2⟩), ← hx]

/-- C73: otherwise the projection says that the ray misses the panel. -/
theorem projection_miss (h : IsRotation pn.rmat) (hr : 0 < pn.radius)
    (hw : pn.physicalSize.2 ≤ 2 * Real.pi * pn.radius) {u ts tc : V} {rs : M} (hu : IsUnit3 u)
    (hin : Inside pn.rmat pn.tvec pn.radius (crystalPosition rs ts tc))
    (hax : 1 / 10 ^ 10 ≤ 1 - (u ⬝ᵥ (pn.rmat *ᵥ ![0, 1, 0])) ^ 2) :
    dvecToXY pn u ts tc rs = (none, false) ↔ ∀ xy, ¬ RayHits pn.rmat pn.tvec pn.radius (pn.rows * pn.psr)
      (pn.cols * pn.psc) (crystalPosition rs ts tc) u xy := by
  constructor
  · intro e xy hx
    rw [← projection_exact h hr hw hu hin hax, e] at hx
    simp at hx
  · intro hno
    obtain ⟨th, y, s, -, -, -, -, -, hv⟩ := dvecToXY_value h hr hu hin hax
    rw [hv]
    split
    · rfl
    · rename_i hc
      rw [if_neg hc] at hv
      exact absurd ((projection_exact h hr hw hu hin hax _).1 hv) (hno _)

/-! ### Angles -/

/-- C73: the two angles computed from a direction are the polar angles of that direction about the beam: two-theta
is in `[0, π]`, eta in `(-π, π]`, and the direction made from them is the direction they were computed from. -/
theorem dvecToAngs_spec {b e d : V} (hb : IsUnit3 b) (hbe : e ⨯₃ b ≠ 0) (hd : IsUnit3 d) :
    0 ≤ (dvecToAngs d b e).1 ∧ (dvecToAngs d b e).1 ≤ Real.pi ∧ -Real.pi < (dvecToAngs d b e).2 ∧
      (dvecToAngs d b e).2 ≤ Real.pi ∧
      anglesToDvec (dvecToAngs d b e).1 (dvecToAngs d b e).2 0 b e 0 1 = d := by
  have hE := eigenBeamFrame_isBeamFrame hbe
  have hbd : IsDirection b b := ⟨hb, 1, one_pos, by simp⟩
  have hb2 := beam_in_frame hE hbd
  set rb := eigenBeamFrame b e with hrb
  have hbb : dot b b = 1 := by rw [dot_eq]; exact hb
  have hn : 0 < dot (cross e b) (cross e b) := by
    refine lt_of_le_of_ne (dot_self_nonneg _) fun h0 => hbe ?_
    have := dot_self_eq_zero h0.symm
    rw [← this]; ext i; fin_cases i <;> simp [cross, crossProduct]
  have hub : eigenUnit b = b := by rw [eigenUnit_of_pos (by rw [hbb]; norm_num), hbb]; simp
  have hue : eigenUnit (cross e b) = fun i => cross e b i / √(dot (cross e b) (cross e b)) := eigenUnit_of_pos hn
  have hy : (fun i => cross e b i / √(dot (cross e b) (cross e b))) = fun i => rb i 1 := by
    rw [← hue]; ext i; rw [hrb]; fin_cases i <;> simp [eigenBeamFrame, ofCols]
  have hx : cross b (fun i => rb i 1) = fun i => rb i 0 := by
    rw [← hy, ← hue]; ext i; rw [hrb, eigenBeamFrame, hub]; fin_cases i <;> simp [ofCols]
  obtain ⟨r00, r11, r22, r01, r02, r12⟩ := rot_entries hE.1.1
  have hxx : dot (fun i => rb i 0) (fun i => rb i 0) = 1 := by simp only [dot]; linarith
  have hx1 : (fun i => (fun i => rb i 0) i / √(dot (fun i => rb i 0) (fun i => rb i 0))) = fun i => rb i 0 := by
    rw [hxx]; simp
  set q := mulTV rb d with hq
  have hqq : q 0 ^ 2 + q 1 ^ 2 + q 2 ^ 2 = 1 := by
    have : dot q q = 1 := by rw [hq, dot_mulTV_mulTV hE.1.1, dot_eq]; exact hd
    simp only [dot] at this; linear_combination this
  have hq2 : dot b d = -q 2 := by rw [hb2, hq]; simp [dot, mulTV]; ring
  have hle : |(-q 2)| ≤ 1 := by rw [abs_neg]; exact abs_le_one_iff_mul_self_le_one.2 (by nlinarith)
  have hval : dvecToAngs d b e = (Real.arccos (-q 2), atan2 (q 1) (q 0)) := by
    unfold dvecToAngs
    simp only [hy, hx, hx1, hq2, clampOne_of_le hle]
    refine Prod.ext rfl ?_
    have e1 : ∀ k : ℝ, dot (fun i => rb i 1) (fun i => d i - k * b i) = q 1 := by
      intro k; rw [hb2]; simp only [dot, hq, mulTV]; simp
      linear_combination k * r12
    have e0 : ∀ k : ℝ, dot (fun i => rb i 0) (fun i => d i - k * b i) = q 0 := by
      intro k; rw [hb2]; simp only [dot, hq, mulTV]; simp
      linear_combination k * r02
    simp only [e1, e0]
  rw [hval]
  have hs : Real.sin (Real.arccos (-q 2)) = ‖(⟨q 0, q 1⟩ : ℂ)‖ := by
    rw [Real.sin_arccos, Complex.norm_def, Complex.normSq_mk]; congr 1; linear_combination -hqq
  refine ⟨Real.arccos_nonneg _, Real.arccos_le_pi _, Complex.neg_pi_lt_arg _, Complex.arg_le_pi _, ?_⟩
  unfold anglesToDvec
  rw [toCrystal_eq, Real.cos_arccos (abs_le.1 hle).1 (abs_le.1 hle).2, hs, atan2, Complex.norm_mul_cos_arg,
    Complex.norm_mul_sin_arg]
  have e3 : (![q 0, q 1, - -q 2] : V) = q := by ext i; fin_cases i <;> simp
  have e4 : ∀ v : V, mulTV (1 : M) (mulTV (sampleRmat 0 0) v) = v := by
    intro v; ext i; fin_cases i <;> simp [mulTV, sampleRmat]
  simp only [e3, e4]
  rw [← hrb, hq, mulV_mulTV hE.1.1]

/-- C73: conversely, the angles of the direction made from a pair of angles are those angles. -/
theorem dvecToAngs_of_angles {b e : V} (hb : IsUnit3 b) (hbe : e ⨯₃ b ≠ 0) {tth eta : ℝ}
    (ht : 0 < tth ∧ tth < Real.pi) (he : -Real.pi < eta ∧ eta ≤ Real.pi) :
    dvecToAngs (anglesToDvec tth eta 0 b e 0 1) b e = (tth, eta) := by
  have hbd : IsDirection b b := ⟨hb, 1, one_pos, by simp⟩
  have hE := eigenBeamFrame_isBeamFrame hbe
  have hu := (anglesToDvec_twoTheta hbe hbd (rc := 1) ⟨by simp, by simp⟩ tth eta 0 0).1
  obtain ⟨a1, a2, a3, a4, a5⟩ := dvecToAngs_spec hb hbe hu
  set o := dvecToAngs (anglesToDvec tth eta 0 b e 0 1) b e with ho
  have e4 : ∀ v : V, mulTV (1 : M) (mulTV (sampleRmat 0 0) v) = v := by
    intro v; ext i; fin_cases i <;> simp [mulTV, sampleRmat]
  unfold anglesToDvec at a5
  simp only [toCrystal_eq, e4] at a5
  have a6 := congrArg (mulTV (eigenBeamFrame b e)) a5
  rw [mulTV_mulV hE.1.1, mulTV_mulV hE.1.1] at a6
  have c0 := congrFun a6 0; have c1 := congrFun a6 1; have c2 := congrFun a6 2
  simp at c0 c1 c2
  have h1 : o.1 = tth := Real.injOn_cos ⟨a1, a2⟩ ⟨ht.1.le, ht.2.le⟩ c2
  have hs : 0 < Real.sin tth := Real.sin_pos_of_pos_of_lt_pi ht.1 ht.2
  rw [h1] at c0 c1
  refine Prod.ext h1 (angle_unique one_pos a3 a4 he.1 he.2 (mul_left_cancel₀ hs.ne' c1) (mul_left_cancel₀ hs.ne' c0))

/-! ### Round trips -/

theorem cartToDvec_ne_zero (h : IsRotation pn.rmat) {ts tc : V} {rs : M}
    (hin : Inside pn.rmat pn.tvec pn.radius (crystalPosition rs ts tc)) (xy : ℝ × ℝ) :
    0 < dot (cartToDvec pn xy ts rs tc) (cartToDvec pn xy ts rs tc) := by
  rw [inside_iff h] at hin
  rw [dot_fr h]
  refine lt_of_le_of_ne (dot_self_nonneg _) fun h0 => ?_
  have hz := dot_self_eq_zero h0.symm
  have z0 := congrFun hz 0; have z2 := congrFun hz 2
  rw [fr_warp h] at z0 z2
  simp at z0 z2
  have e0 : fr pn.rmat (toPanel pn ts tc rs) 0 = -(pn.radius * Real.sin (xy.1 / pn.radius)) := by linarith
  have e2 : fr pn.rmat (toPanel pn ts tc rs) 2 + pn.radius = pn.radius * Real.cos (xy.1 / pn.radius) := by linarith
  rw [e0, e2] at hin
  have := Real.sin_sq_add_cos_sq (xy.1 / pn.radius)
  nlinarith

/-- C73: the direction computed from a point of the panel is the unit vector from the crystal to that point. -/
theorem cartToAngles_direction (h : IsRotation pn.rmat) {ts tc : V} {rs : M}
    (hin : Inside pn.rmat pn.tvec pn.radius (crystalPosition rs ts tc)) (xy : ℝ × ℝ) (b e : V) :
    IsDirection (cartToAngles pn xy b e ts rs tc).2
      (sheet pn.rmat pn.tvec pn.radius xy.1 xy.2 - crystalPosition rs ts tc) := by
  have hp := cartToDvec_ne_zero h hin xy
  rw [← cartToDvec_is_sheet h xy ts tc rs, add_sub_cancel_left]
  have := eigenUnit_isDirection hp
  rw [eigenUnit_of_pos hp] at this
  exact this

/-- C73, round trip: a point of the panel is converted to angles and projected back on the panel at the same point.
-/
theorem cart_angles_cart (h : IsRotation pn.rmat) (hr : 0 < pn.radius)
    (hw : pn.physicalSize.2 ≤ 2 * Real.pi * pn.radius) {b e ts tc : V} {rs : M} (hb : IsUnit3 b) (hbe : e ⨯₃ b ≠ 0)
    (hin : Inside pn.rmat pn.tvec pn.radius (crystalPosition rs ts tc)) {xy : ℝ × ℝ}
    (hy : |xy.2| ≤ pn.rows * pn.psr / 2) (hx : |xy.1| < pn.cols * pn.psc / 2)
    (hax : 1 / 10 ^ 10 ≤ 1 - ((cartToAngles pn xy b e ts rs tc).2 ⬝ᵥ (pn.rmat *ᵥ ![0, 1, 0])) ^ 2) :
    projectAngles pn (cartToAngles pn xy b e ts rs tc).1.1 (cartToAngles pn xy b e ts rs tc).1.2 0 0 b e ts tc rs =
      (some xy, true) := by
  have hdir := cartToAngles_direction h hin xy b e
  have h5 := (dvecToAngs_spec hb hbe hdir.1).2.2.2.2
  have e1 : (cartToAngles pn xy b e ts rs tc).1 = dvecToAngs (cartToAngles pn xy b e ts rs tc).2 b e := rfl
  unfold projectAngles
  rw [e1, h5, projection_exact h hr hw hdir.1 hin hax]
  obtain ⟨-, c, hc, e⟩ := hdir
  exact ⟨hy, hx, c, hc, by rw [← e]; abel⟩

/-- C73, round trip: a pair of angles is projected on the panel and, if it hits, read back from the point. -/
theorem angles_cart_angles (h : IsRotation pn.rmat) (hr : 0 < pn.radius)
    (hw : pn.physicalSize.2 ≤ 2 * Real.pi * pn.radius) {b e ts tc : V} {rs : M} (hb : IsUnit3 b) (hbe : e ⨯₃ b ≠ 0)
    (hin : Inside pn.rmat pn.tvec pn.radius (crystalPosition rs ts tc)) {tth eta : ℝ}
    (ht : 0 < tth ∧ tth < Real.pi) (he : -Real.pi < eta ∧ eta ≤ Real.pi)
    (hax : 1 / 10 ^ 10 ≤ 1 - (anglesToDvec tth eta 0 b e 0 1 ⬝ᵥ (pn.rmat *ᵥ ![0, 1, 0])) ^ 2) {xy : ℝ × ℝ}
    (hp : projectAngles pn tth eta 0 0 b e ts tc rs = (some xy, true)) :
    (cartToAngles pn xy b e ts rs tc).1 = (tth, eta) := by
  have hbd : IsDirection b b := ⟨hb, 1, one_pos, by simp⟩
  have hu := (anglesToDvec_twoTheta hbe hbd (rc := 1) ⟨by simp, by simp⟩ tth eta 0 0).1
  unfold projectAngles at hp
  rw [projection_exact h hr hw hu hin hax] at hp
  obtain ⟨-, -, s, hs, e1⟩ := hp
  have hdir := cartToAngles_direction h hin xy b e
  rw [← e1, add_sub_cancel_left] at hdir
  have e2 : (cartToAngles pn xy b e ts rs tc).2 = anglesToDvec tth eta 0 b e 0 1 :=
    isDirection_unique hdir ⟨hu, s, hs, rfl⟩
  have e3 : (cartToAngles pn xy b e ts rs tc).1 = dvecToAngs (cartToAngles pn xy b e ts rs tc).2 b e := rfl
  rw [e3, e2, dvecToAngs_of_angles hb hbe ht he]

/-! ### Normals and the angle of incidence -/

/-- C73: the local normal is the unit vector that points from the cylinder axis to the point of the sheet. -/
theorem localNormal_radial (h : IsRotation pn.rmat) (xy : ℝ × ℝ) :
    IsUnit3 (localNormal pn xy.1) ∧
      sheet pn.rmat pn.tvec pn.radius xy.1 xy.2 =
        pn.tvec + pn.rmat *ᵥ ![0, xy.2, pn.radius] + pn.radius • localNormal pn xy.1 := by
  have e : localNormal pn xy.1 =
      mulV pn.rmat ![Real.sin (xy.1 / pn.radius), 0, -Real.cos (xy.1 / pn.radius)] := by
    ext i
    simp only [localNormal, cross_pc h]
    fin_cases i <;> simp [Panel.paxis, mulV] <;> ring
  constructor
  · rw [IsUnit3, ← dot_eq, e, dot_mulV_mulV h.1]
    simp [dot]; linear_combination Real.sin_sq_add_cos_sq (xy.1 / pn.radius)
  · rw [e, sheet, ← mulV_eq, ← mulV_eq]
    ext i
    simp only [Pi.add_apply, Pi.smul_apply, smul_eq_mul, add_assoc]
    congr 1
    fin_cases i <;> simp [mulV] <;> ring

/-- C73: with the sample (at the origin) inside the cylinder, every ray meets the sheet from the inside, so that
the secant of the angle of incidence is at least one. -/
theorem secb_ge_one (h : IsRotation pn.rmat) (hr : 0 < pn.radius)
    (hin : Inside pn.rmat pn.tvec pn.radius 0) (xy : ℝ × ℝ) : 1 ≤ secb pn xy := by
  have e0 : crystalPosition 1 0 0 = 0 := by simp [crystalPosition]
  rw [← e0] at hin
  have hp := cartToDvec_ne_zero h hin xy
  rw [inside_iff h] at hin
  have e : localNormal pn xy.1 =
      mulV pn.rmat ![Real.sin (xy.1 / pn.radius), 0, -Real.cos (xy.1 / pn.radius)] := by
    ext i
    simp only [localNormal, cross_pc h]
    fin_cases i <;> simp [Panel.paxis, mulV] <;> ring
  set v := cartToDvec pn xy 0 1 0 with hv
  have hn : dot v (localNormal pn xy.1) = fr pn.rmat v 0 * Real.sin (xy.1 / pn.radius) -
      fr pn.rmat v 2 * Real.cos (xy.1 / pn.radius) := by
    rw [dot_fr h, e, fr_mulV h]; simp [dot]; ring
  have hl : dot (localNormal pn xy.1) (localNormal pn xy.1) = 1 := by
    rw [dot_eq]; exact (localNormal_radial h xy).1
  have hsc := Real.sin_sq_add_cos_sq (xy.1 / pn.radius)
  set S := Real.sin (xy.1 / pn.radius)
  set C := Real.cos (xy.1 / pn.radius)
  set t := fr pn.rmat (toPanel pn 0 0 1)
  have f0 : fr pn.rmat v 0 = t 0 + pn.radius * S := by rw [hv, fr_warp h]; simp [t, S]
  have f2 : fr pn.rmat v 2 = t 2 + pn.radius * (1 - C) := by rw [hv, fr_warp h]; simp [t, C]
  have hpos : 0 < dot v (localNormal pn xy.1) := by
    rw [hn, f0, f2]
    have hk : (t 0 * S - (t 2 + pn.radius) * C) ^ 2 < pn.radius ^ 2 := by
      have : (t 0 * S - (t 2 + pn.radius) * C) ^ 2 + (t 0 * C + (t 2 + pn.radius) * S) ^ 2 =
          t 0 ^ 2 + (t 2 + pn.radius) ^ 2 := by
        linear_combination (t 0 ^ 2 + (t 2 + pn.radius) ^ 2) * hsc
      nlinarith [sq_nonneg (t 0 * C + (t 2 + pn.radius) * S)]
    have hk2 := (abs_lt.1 (abs_lt_of_sq_lt_sq hk hr.le)).1
    nlinarith
  have hcs : dot v (localNormal pn xy.1) ≤ √(dot v v) := by
    apply Real.le_sqrt_of_sq_le
    have h1 := Transforms.dot_cross_self v (localNormal pn xy.1)
    have h2 := dot_self_nonneg (cross v (localNormal pn xy.1))
    rw [hl, mul_one] at h1
    linarith
  have hsq : 0 < √(dot v v) := Real.sqrt_pos.2 hp
  unfold secb
  rw [← hv]
  have e3 : dot (fun i => v i / √(dot v v)) (localNormal pn xy.1) = dot v (localNormal pn xy.1) / √(dot v v) := by
    simp only [dot]; ring
  simp only [e3]
  rw [one_div_div, le_div_iff₀ hpos]
  linarith

/-! ### A concrete panel, and where the code departs from the geometry -/

/-- A panel 4 by 4 bent with radius 1 around the sample. -/
noncomputable def demo : Panel := ⟨1, ![0, 0, -1], 1, 40, 40, 1 / 10, 1 / 10⟩

theorem one_rot : IsRotation (1 : M) := ⟨by simp, by simp⟩

theorem demo_inside : Inside demo.rmat demo.tvec demo.radius (crystalPosition 1 0 0) := by
  unfold Inside local_ crystalPosition demo
  simp

theorem demo_width : demo.physicalSize.2 ≤ 2 * Real.pi * demo.radius := by
  have := Real.pi_gt_three
  simp only [demo, Panel.physicalSize]
  push_cast
  linarith

theorem demo_frame : (![1, 0, 0] : V) ⨯₃ ![0, 0, -1] ≠ 0 := by
  intro h
  have := congrFun h 1
  simp [cross_apply] at this

/-- The hypotheses of `projection_exact` hold for the demonstration panel and a direction that hits it off centre. -/
example : IsRotation demo.rmat ∧ 0 < demo.radius ∧ demo.physicalSize.2 ≤ 2 * Real.pi * demo.radius ∧
    IsUnit3 ![3 / 5, 0, -4 / 5] ∧ Inside demo.rmat demo.tvec demo.radius (crystalPosition 1 0 0) ∧
    (1 : ℝ) / 10 ^ 10 ≤ 1 - (![3 / 5, 0, -4 / 5] ⬝ᵥ (demo.rmat *ᵥ ![0, 1, 0])) ^ 2 := by
  refine ⟨one_rot, one_pos, demo_width, ?_, demo_inside, ?_⟩
  · simp [IsUnit3, dotProduct, Fin.sum_univ_three]; norm_num
  · simp [demo, dotProduct, Fin.sum_univ_three]; norm_num

theorem demo_hit {chi : ℝ} (h : |chi| ≤ Real.pi / 4) :
    dvecToXY demo ![0, -Real.sin chi, -Real.cos chi] 0 0 1 = (some (0, -Real.tan chi), true) := by
  have hpi := Real.pi_pos
  have hc : 0 < Real.cos chi := Real.cos_pos_of_mem_Ioo
    ⟨by linarith [(abs_le.1 h).1], by linarith [(abs_le.1 h).2]⟩
  have hc2 : 1 / 2 ≤ Real.cos chi ^ 2 := by
    have h1 : Real.cos (Real.pi / 4) ≤ Real.cos chi := by
      rw [← Real.cos_abs chi]
      exact Real.cos_le_cos_of_nonneg_of_le_pi (abs_nonneg _) (by linarith) h
    rw [Real.cos_pi_div_four] at h1
    have h2 : (√2 / 2) ^ 2 = 1 / 2 := by rw [div_pow, Real.sq_sqrt (by norm_num)]; norm_num
    rw [← h2]
    exact pow_le_pow_left₀ (by positivity) h1 2
  have hsc := Real.sin_sq_add_cos_sq chi
  have hu : IsUnit3 ![0, -Real.sin chi, -Real.cos chi] := by
    simp [IsUnit3, dotProduct, Fin.sum_univ_three]; linear_combination hsc
  have hax : (1 : ℝ) / 10 ^ 10 ≤ 1 - (![0, -Real.sin chi, -Real.cos chi] ⬝ᵥ (demo.rmat *ᵥ ![0, 1, 0])) ^ 2 := by
    simp only [demo, one_mulVec]
    simp only [dotProduct, Fin.sum_univ_three]
    simp
    norm_num
    linarith
  rw [projection_exact (pn := demo) one_rot one_pos demo_width hu demo_inside hax]
  refine ⟨?_, ?_, 1 / Real.cos chi, by positivity, ?_⟩
  · simp only [demo]
    push_cast
    rw [abs_neg, Real.tan_eq_sin_div_cos, abs_div, abs_of_pos hc, div_le_iff₀ hc]
    have : Real.sin chi ^ 2 ≤ Real.cos chi ^ 2 := by linarith
    have h3 := abs_le_of_sq_le_sq this hc.le
    linarith
  · simp only [demo]; push_cast; norm_num
  · ext i
    rw [Real.tan_eq_sin_div_cos]
    fin_cases i <;> simp [crystalPosition, sheet, demo] <;> field_simp

/-- Disagreement: `_project_on_detector_cylinder` does not bring the direction back from the sample frame to the
laboratory.  With a tilted sample stage the direct beam (two-theta zero), which meets the demonstration panel at its
centre, is reported at the height `-tan chi`. -/
theorem projectAngles_tilted_stage {chi : ℝ} (h : |chi| ≤ Real.pi / 4) :
    projectAngles demo 0 0 0 chi ![0, 0, -1] ![1, 0, 0] 0 0 1 = (some (0, -Real.tan chi), true) ∧
      RayHits demo.rmat demo.tvec demo.radius (demo.rows * demo.psr) (demo.cols * demo.psc) 0 ![0, 0, -1] (0, 0) := by
  constructor
  · unfold projectAngles
    have hE := eigenBeamFrame_isBeamFrame demo_frame
    have hb : IsDirection (![0, 0, -1] : V) ![0, 0, -1] :=
      ⟨by simp [IsUnit3, dotProduct, Fin.sum_univ_three], 1, one_pos, by simp⟩
    have e : anglesToDvec 0 0 0 ![0, 0, -1] ![1, 0, 0] chi 1 = ![0, -Real.sin chi, -Real.cos chi] := by
      have h1 : (![Real.sin 0 * Real.cos 0, Real.sin 0 * Real.sin 0, -Real.cos 0] : V) = ![0, 0, -1] := by simp
      unfold anglesToDvec
      rw [toCrystal_eq, h1]
      rw [← beam_eq_mulV hE hb]
      ext i; fin_cases i <;> simp [mulTV, sampleRmat]
    rw [e, demo_hit h]
  · refine ⟨by simp [demo]; norm_num, by simp [demo], 1, one_pos, ?_⟩
    ext i; fin_cases i <;> simp [sheet, demo]

/-- For a tilt that is not zero the reported point is another one. -/
example : projectAngles demo 0 0 0 (Real.pi / 4) ![0, 0, -1] ![1, 0, 0] 0 0 1 = (some (0, -1), true) := by
  have := (projectAngles_tilted_stage (chi := Real.pi / 4) (by rw [abs_of_pos (by positivity)])).1
  rwa [Real.tan_pi_div_four] at this

/-- Disagreement: a direction along the cylinder axis never meets the panel, and the projection returns NaN for it
but marks it valid. -/
theorem axis_direction_marked_valid (h : IsRotation pn.rmat) (ts tc : V) (rs : M) :
    dvecToXY pn (pn.rmat *ᵥ ![0, 1, 0]) ts tc rs = (none, true) := by
  have e : dot (pn.rmat *ᵥ ![0, 1, 0]) pn.caxis = 1 := by
    rw [← mulV_eq, Panel.caxis, dot_mulV_mulV h.1]; simp [dot]
  simp [dvecToXY, unitvecToCylinder, e, clip, dewarp]

/-- Disagreement: a panel that curves away from a sample outside its cylinder is reported hit, at its centre, by the
ray that leaves in the opposite direction. -/
theorem backward_ray_reported :
    dvecToXY ⟨1, ![0, 0, 3], 1, 20, 20, 1 / 10, 1 / 10⟩ ![0, 0, -1] 0 0 1 = (some (0, 0), true) ∧
      ∀ xy, ¬ RayHits 1 ![0, 0, 3] 1 2 2 0 ![0, 0, -1] xy := by
  constructor
  · obtain ⟨pn, hpn⟩ : ∃ pn : Panel, pn = ⟨1, ![0, 0, 3], 1, 20, 20, 1 / 10, 1 / 10⟩ := ⟨_, rfl⟩
    rw [← hpn]
    have h : IsRotation pn.rmat := by rw [hpn]; exact one_rot
    have hd : delta (mulV pn.rmat ![0, 0, -1]) pn.tvec pn.radius 0 0 1 = ![0, 0, 4] := by
      ext i; fin_cases i <;> simp [delta, hpn, mulV] <;> norm_num
    have hc : pn.caxis = ![0, 1, 0] := by ext i; fin_cases i <;> simp [Panel.caxis, hpn, mulV]
    have hp : pn.paxis = ![1, 0, 0] := by ext i; fin_cases i <;> simp [Panel.paxis, hpn, mulV]
    have hq : unitvecToCylinder ![0, 0, -1] pn.caxis pn.paxis pn.radius pn.tvec 0 0 1 = some ![0, 0, 3] := by
      unfold unitvecToCylinder
      simp only [unitNormal_eq h, hd]
      have e1 : dot (![0, 0, 4] : V) ![0, 0, 4] = 16 := by simp [dot]; norm_num
      have e2 : dot (![0, 0, -1] : V) ![0, 0, 4] = -4 := by simp [dot]
      have e3 : dot (![0, 0, -1] : V) pn.caxis = 0 := by rw [hc]; simp [dot]
      have e4 : dot (![0, 0, 4] : V) pn.caxis = 0 := by rw [hc]; simp [dot]
      have e5 : pn.radius = 1 := by rw [hpn]
      rw [e1, e2, e3, e4, e5, Real.sq_sqrt (by norm_num), if_neg (by norm_num), if_neg (by norm_num)]
      have e6 : √((-4 - 0 * 0 : ℝ) ^ 2 + (1 - 0 ^ 2) * (1 ^ 2 - 16 + 0 ^ 2)) = 1 := by
        rw [show ((-4 - 0 * 0 : ℝ) ^ 2 + (1 - 0 ^ 2) * (1 ^ 2 - 16 + 0 ^ 2)) = 1 by norm_num, Real.sqrt_one]
      rw [e6]
      congr 1; ext i; fin_cases i <;> simp <;> norm_num
    have hw : (fun i => (![0, 0, 3] : V) i - (![0, 0, 4] : V) i) = ![0, 0, -1] := by
      ext i; fin_cases i <;> simp <;> norm_num
    have w1 : dot (![0, 0, -1] : V) pn.caxis = 0 := by rw [hc]; simp [dot]
    have w2 : dot (![0, 0, -1] : V) pn.paxis = 0 := by rw [hp]; simp [dot]
    have w3 : dot (![0, 0, -1] : V) (mulV pn.rmat ![0, 0, -1]) = 1 := by simp [dot, mulV, hpn]
    have w4 : (fun i => (![0, 0, 3] : V) i - (![0, 0, 4] : V) i - 0 * pn.caxis i) = ![0, 0, -1] := by
      rw [← hw]; ext i; simp
    have c1 : clampOne (1 / 1) = 1 := by simp [clampOne]
    have c2 : pn.physicalSize.1 = 2 := by simp [Panel.physicalSize, hpn]; norm_num
    have c3 : pn.angleExtent = 1 := by simp [Panel.angleExtent, Panel.physicalSize, hpn]; norm_num
    have c5 : pn.radius = 1 := by rw [hpn]
    unfold dvecToXY
    rw [hq]
    have hclip : clip (some ![0, 0, 3]) pn.caxis pn.paxis pn.radius pn.physicalSize pn.angleExtent pn.tvec 0 0 1 =
        (some ![0, 0, 3], true) := by
      unfold clip
      dsimp only
      rw [cross_cp h, hd]
      simp only [show dot (fun i => (![0, 0, 3] : V) i - (![0, 0, 4] : V) i) pn.caxis = 0 by rw [hw, w1], w4, w3, c5,
        c1, c2, c3]
      norm_num
    dsimp only
    rw [hclip]
    unfold dewarp
    dsimp only [Option.map_some]
    rw [unitNormal_eq h, hd, hw, w1, w4, w3, w2, c5, c1]
    simp
  · rintro xy ⟨-, -, s, hs, e⟩
    have := congrFun e 2
    simp [sheet] at this
    linarith [Real.cos_le_one xy.1]

end Hexrd.Cylinder
