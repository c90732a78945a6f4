import Verif.Props.Sectors
import Verif.Lemmas.IpfRegion
import Verif.Props.ColorSpace
import Mathlib.Analysis.Calculus.MeanValue
import Mathlib.Analysis.SpecialFunctions.ExpDeriv
import Mathlib.Analysis.Real.Pi.Bounds
import Mathlib.Algebra.BigOperators.Field

/-!
C138: the colours of directions.
-/
namespace Hexrd.Ipf

open Matrix Hexrd.SpaceGroup Hexrd.UnitCell Hexrd.UnitCell.Cell Spec

/-! ### Hue -/

/-- One of the three bumps of the speed. -/
noncomputable def bump (c u : ℝ) : ℝ := Real.exp (-(4 / 7) * (u - c) ^ 2)

/-- Its derivative. -/
noncomputable def bump' (c u : ℝ) : ℝ := -(8 / 7) * (u - c) * bump c u

/-- Its second derivative. -/
noncomputable def bump'' (c u : ℝ) : ℝ := (-(8 / 7) + (8 / 7) ^ 2 * (u - c) ^ 2) * bump c u

theorem bump_deriv (c u : ℝ) : HasDerivAt (bump c) (bump' c u) u := by
  have h1 : HasDerivAt (fun u : ℝ => -(4 / 7) * (u - c) ^ 2) (-(4 / 7) * (2 * (u - c))) u := by
    have := (((hasDerivAt_id u).sub_const c).pow 2).const_mul (-(4 / 7))
    simpa using this
  have := h1.exp
  refine this.congr_deriv ?_
  unfold bump' bump
  ring

theorem bump'_deriv (c u : ℝ) : HasDerivAt (bump' c) (bump'' c u) u := by
  have h1 : HasDerivAt (fun u : ℝ => -(8 / 7) * (u - c)) (-(8 / 7)) u := by
    have := ((hasDerivAt_id u).sub_const c).const_mul (-(8 / 7))
    simpa using this
  have := h1.mul (bump_deriv c u)
  refine this.congr_deriv ?_
  unfold bump'' bump'
  ring

theorem bump_le (c u : ℝ) : 0 < bump c u ∧ |bump' c u| ≤ 8 / 7 ∧ |bump'' c u| ≤ 16 / 7 := by
  have hp : 0 < bump c u := Real.exp_pos _
  set r := u - c with hr
  have hb : bump c u * (1 + 4 / 7 * r ^ 2) ≤ 1 := by
    have h := Real.add_one_le_exp (4 / 7 * r ^ 2)
    have e : bump c u * Real.exp (4 / 7 * r ^ 2) = 1 := by
      unfold bump
      rw [← Real.exp_add, ← hr]
      simp
    nlinarith
  have hb1 : bump c u ≤ 1 := by nlinarith [sq_nonneg r]
  have hb2 : bump c u * (8 / 7 * r ^ 2) ≤ 1 := by
    have h : 8 / 7 * r ^ 2 ≤ Real.exp (4 / 7 * r ^ 2) := by
      have := Real.quadratic_le_exp_of_nonneg (show 0 ≤ 4 / 7 * r ^ 2 by positivity)
      nlinarith [sq_nonneg (4 / 7 * r ^ 2 - 1)]
    have e : bump c u * Real.exp (4 / 7 * r ^ 2) = 1 := by
      unfold bump
      rw [← Real.exp_add, ← hr]
      simp
    nlinarith
  refine ⟨hp, ?_, ?_⟩
  · unfold bump'
    rw [← hr, abs_le]
    constructor
    · nlinarith [mul_nonneg hp.le (sq_nonneg (r - 1)), mul_nonneg hp.le (sq_nonneg r)]
    · nlinarith [mul_nonneg hp.le (sq_nonneg (r + 1)), mul_nonneg hp.le (sq_nonneg r)]
  · unfold bump''
    rw [← hr, abs_le]
    constructor
    · nlinarith [mul_nonneg hp.le (sq_nonneg r)]
    · nlinarith

theorem hueSpeed_eq (u : ℝ) :
    hueSpeed u = 1 / 2 + bump Real.pi u + bump (5 * Real.pi / 3) u + bump (Real.pi / 3) u := by
  unfold hueSpeed bump
  simp only
  congr 3 <;> ring_nf

/-- Derivative of the speed. -/
noncomputable def speed' (u : ℝ) : ℝ := bump' Real.pi u + bump' (5 * Real.pi / 3) u + bump' (Real.pi / 3) u

/-- Second derivative of the speed. -/
noncomputable def speed'' (u : ℝ) : ℝ := bump'' Real.pi u + bump'' (5 * Real.pi / 3) u + bump'' (Real.pi / 3) u

theorem speed_deriv (u : ℝ) : HasDerivAt hueSpeed (speed' u) u := by
  have h := (((bump_deriv Real.pi u).const_add (1 / 2)).add (bump_deriv (5 * Real.pi / 3) u)).add (bump_deriv (Real.pi / 3) u)
  refine (h.congr_of_eventuallyEq (Filter.Eventually.of_forall fun x => ?_))
  rw [hueSpeed_eq]
  rfl

theorem speed'_deriv (u : ℝ) : HasDerivAt speed' (speed'' u) u :=
  ((bump'_deriv Real.pi u).add (bump'_deriv (5 * Real.pi / 3) u)).add (bump'_deriv (Real.pi / 3) u)

theorem speed_bounds (u : ℝ) : 1 / 2 < hueSpeed u ∧ |speed' u| ≤ 24 / 7 ∧ |speed'' u| ≤ 48 / 7 := by
  obtain ⟨a1, a2, a3⟩ := bump_le Real.pi u
  obtain ⟨b1, b2, b3⟩ := bump_le (5 * Real.pi / 3) u
  obtain ⟨c1, c2, c3⟩ := bump_le (Real.pi / 3) u
  rw [hueSpeed_eq]
  refine ⟨by linarith, ?_, ?_⟩
  · unfold speed'
    rw [abs_le] at *
    constructor <;> linarith [a2.1, a2.2, b2.1, b2.2, c2.1, c2.2]
  · unfold speed''
    rw [abs_le] at *
    constructor <;> linarith [a3.1, a3.2, b3.1, b3.2, c3.1, c3.2]

/-- `(u v(u))'` -/
noncomputable def slope (u : ℝ) : ℝ := hueSpeed u + u * speed' u

theorem slope_deriv (u : ℝ) : HasDerivAt (fun u => u * hueSpeed u) (slope u) u := by
  refine ((hasDerivAt_id u).mul (speed_deriv u)).congr_deriv ?_
  unfold slope
  simp

theorem slope_lipschitz {a b : ℝ} (h0 : 0 ≤ a) (hab : a < b) (hb : b ≤ 7) : |slope b - slope a| ≤ 55 * (b - a) := by
  have hd : ∀ u, HasDerivAt slope (2 * speed' u + u * speed'' u) u := by
    intro u
    refine ((speed_deriv u).add ((hasDerivAt_id u).mul (speed'_deriv u))).congr_deriv ?_
    simp
    ring
  obtain ⟨c, hc, e⟩ := exists_hasDerivAt_eq_slope slope (fun u => 2 * speed' u + u * speed'' u) hab
    (fun x _ => (hd x).continuousAt.continuousWithinAt) (fun x _ => hd x)
  obtain ⟨-, h1, h2⟩ := speed_bounds c
  have hpos : 0 < b - a := by linarith
  rw [eq_div_iff hpos.ne'] at e
  rw [← e, abs_mul, abs_of_pos hpos]
  apply mul_le_mul_of_nonneg_right _ hpos.le
  have hc7 : |c| ≤ 7 := by rw [abs_le]; exact ⟨by linarith [hc.1], by linarith [hc.2]⟩
  calc |2 * speed' c + c * speed'' c| ≤ |2 * speed' c| + |c * speed'' c| := abs_add_le _ _
    _ = 2 * |speed' c| + |c| * |speed'' c| := by rw [abs_mul, abs_mul]; norm_num
    _ ≤ 2 * (24 / 7) + 7 * (48 / 7) := by
      have := mul_le_mul hc7 h2 (abs_nonneg _) (by norm_num)
      linarith
    _ ≤ 55 := by norm_num

/-- The trapezoid of one interval of the derivative is at least the mean of the derivative, up to the step. -/
theorem slope_mean {a b : ℝ} (h0 : 0 ≤ a) (hab : a < b) (hb : b ≤ 7) :
    (b * hueSpeed b - a * hueSpeed a) / (b - a) - 55 * (b - a) ≤ (slope b + slope a) / 2 := by
  obtain ⟨c, hc, e⟩ := exists_hasDerivAt_eq_slope (fun u => u * hueSpeed u) slope hab
    (fun x _ => (slope_deriv x).continuousAt.continuousWithinAt) (fun x _ => slope_deriv x)
  rw [← e]
  have h1 := abs_le.1 (slope_lipschitz (h0.trans hc.1.le) hc.2 hb)
  have h2 := abs_le.1 (slope_lipschitz h0 hc.1 (hc.2.le.trans hb))
  linarith [h1.1, h2.2, hc.1, hc.2]

theorem sum_range_eq (n : ℕ) (f : ℕ → ℝ) : ((List.range n).map f).sum = ∑ k ∈ Finset.range n, f k := by
  induction n with
  | zero => simp
  | succ n ih => rw [List.range_succ, Finset.sum_range_succ]; simp [ih]

/-- The integral as a finite sum. -/
theorem hueIntegral_eq (x : ℝ) : hueIntegral x =
    ∑ k ∈ Finset.range 999, (x * hueSpeed (x * ((k + 1 : ℕ) / 999)) + x * hueSpeed (x * (k / 999))) / 1998 := by
  unfold hueIntegral
  rw [sum_range_eq]
  refine Finset.sum_congr rfl fun k _ => ?_
  rw [mul_div_assoc x ((k + 1 : ℕ) : ℝ), mul_div_assoc x (k : ℝ)]
  generalize hueSpeed (x * (((k + 1 : ℕ) : ℝ) / 999)) = A
  generalize hueSpeed (x * ((k : ℝ) / 999)) = B
  push_cast
  ring

theorem term_deriv (p x : ℝ) : HasDerivAt (fun x => x * hueSpeed (x * p)) (slope (x * p)) x := by
  have h1 : HasDerivAt (fun x : ℝ => x * p) p x := by simpa using (hasDerivAt_id x).mul_const p
  have h2 : HasDerivAt (fun x => hueSpeed (x * p)) (speed' (x * p) * p) x :=
    HasDerivAt.comp (h₂ := hueSpeed) x (speed_deriv (x * p)) h1
  refine ((hasDerivAt_id x).mul h2).congr_deriv ?_
  unfold slope
  simp
  ring

theorem hueIntegral_deriv (x : ℝ) : HasDerivAt hueIntegral
    (∑ k ∈ Finset.range 999, (slope (x * ((k + 1 : ℕ) / 999)) + slope (x * (k / 999))) / 1998) x := by
  have h : HasDerivAt (fun x => ∑ k ∈ Finset.range 999,
      (x * hueSpeed (x * ((k + 1 : ℕ) / 999)) + x * hueSpeed (x * (k / 999))) / 1998)
      (∑ k ∈ Finset.range 999, (slope (x * ((k + 1 : ℕ) / 999)) + slope (x * (k / 999))) / 1998) x :=
    HasDerivAt.fun_sum fun k _ => ((term_deriv _ x).add (term_deriv _ x)).div_const _
  refine h.congr_of_eventuallyEq (Filter.Eventually.of_forall fun x => ?_)
  exact hueIntegral_eq x

theorem hueIntegral_deriv_pos {x : ℝ} (h0 : 0 < x) (h1 : x ≤ 2 * Real.pi) :
    0 ≤ ∑ k ∈ Finset.range 999, (slope (x * ((k + 1 : ℕ) / 999)) + slope (x * (k / 999))) / 1998 := by
  have hpi := Real.pi_lt_d2
  have hx7 : x ≤ 63 / 10 := by linarith
  set F : ℕ → ℝ := fun k => x * (k / 999) * hueSpeed (x * (k / 999)) with hF
  have hterm : ∀ k ∈ Finset.range 999, (F (k + 1) - F k) / x - 55 * x / 999 ^ 2 ≤
      (slope (x * ((k + 1 : ℕ) / 999)) + slope (x * (k / 999))) / 1998 := by
    intro k hk
    rw [Finset.mem_range] at hk
    have hk' : ((k : ℝ) + 1) ≤ 999 := by exact_mod_cast hk
    have hk0 : (0 : ℝ) ≤ k := Nat.cast_nonneg k
    have hstep : x * (((k + 1 : ℕ) : ℝ) / 999) - x * (k / 999) = x / 999 := by push_cast; ring
    have hm := slope_mean (a := x * ((k : ℝ) / 999)) (b := x * (((k + 1 : ℕ) : ℝ) / 999)) (by positivity)
      (by linarith [show 0 < x / 999 by positivity]) (by
        push_cast
        calc x * (((k : ℝ) + 1) / 999) ≤ x * 1 := by
              apply mul_le_mul_of_nonneg_left _ h0.le
              rw [div_le_one (by norm_num)]; exact hk'
          _ ≤ 7 := by linarith)
    rw [hstep] at hm
    have e : (x * (((k + 1 : ℕ) : ℝ) / 999) * hueSpeed (x * (((k + 1 : ℕ) : ℝ) / 999)) - x * (k / 999) * hueSpeed (x * (k / 999))) / (x / 999) =
        999 * ((F (k + 1) - F k) / x) := by
      simp only [hF]
      field_simp
    rw [e] at hm
    have : (slope (x * (((k + 1 : ℕ) : ℝ) / 999)) + slope (x * (k / 999))) / 1998 =
        ((slope (x * (((k + 1 : ℕ) : ℝ) / 999)) + slope (x * (k / 999))) / 2) / 999 := by ring
    rw [this, le_div_iff₀ (by norm_num)]
    refine le_trans (le_of_eq ?_) hm
    ring
  refine le_trans ?_ (Finset.sum_le_sum hterm)
  rw [Finset.sum_sub_distrib, ← Finset.sum_div, Finset.sum_range_sub, Finset.sum_const, Finset.card_range]
  have e1 : F 999 = x * hueSpeed x := by simp [hF]
  have e0 : F 0 = 0 := by simp [hF]
  rw [e1, e0, sub_zero, mul_div_assoc, mul_comm, div_mul_cancel₀ _ h0.ne', nsmul_eq_mul]
  have := (speed_bounds x).1
  push_cast
  linarith

/-- The numerical integral of the speed grows with its upper limit. -/
theorem hueIntegral_mono {x y : ℝ} (h0 : 0 ≤ x) (hxy : x ≤ y) (hy : y ≤ 2 * Real.pi) : hueIntegral x ≤ hueIntegral y := by
  have hm : MonotoneOn hueIntegral (Set.Icc 0 (2 * Real.pi)) := by
    apply monotoneOn_of_deriv_nonneg (convex_Icc _ _)
    · exact fun x _ => (hueIntegral_deriv x).continuousAt.continuousWithinAt
    · exact fun x _ => (hueIntegral_deriv x).differentiableAt.differentiableWithinAt
    · intro x hx
      rw [interior_Icc] at hx
      rw [(hueIntegral_deriv x).deriv]
      exact hueIntegral_deriv_pos hx.1 hx.2.le
  exact hm ⟨h0, hxy.trans hy⟩ ⟨h0.trans hxy, hy⟩ hxy

theorem hueIntegral_zero : hueIntegral 0 = 0 := by
  rw [hueIntegral_eq]
  simp

theorem hueIntegral_pos {x : ℝ} (h0 : 0 < x) : 0 < hueIntegral x := by
  rw [hueIntegral_eq]
  apply Finset.sum_pos
  · intro k _
    have h1 := (speed_bounds (x * ((k + 1 : ℕ) / 999))).1
    have h2 := (speed_bounds (x * (k / 999))).1
    have h3 := mul_pos h0 (show 0 < hueSpeed (x * ((k + 1 : ℕ) / 999)) by linarith)
    have h4 := mul_pos h0 (show 0 < hueSpeed (x * (k / 999)) by linarith)
    positivity
  · exact ⟨0, by simp⟩

/-- C138: an azimuth between 0 and `2 π` has a hue between 0 and 1, and a larger azimuth has no smaller hue. -/
theorem hue_range (s : Sector) (d : V3) (h0 : 0 ≤ rho s d) (h1 : rho s d ≤ 2 * Real.pi) : 0 ≤ hue s d ∧ hue s d ≤ 1 := by
  have hp : 0 < hueIntegral (2 * Real.pi) := hueIntegral_pos (by positivity)
  have ha := hueIntegral_mono le_rfl h0 h1
  rw [hueIntegral_zero] at ha
  unfold hue
  exact ⟨div_nonneg ha hp.le, (div_le_one hp).2 (hueIntegral_mono h0 h1 le_rfl)⟩

/-! ### Saturation and lightness -/

theorem lightness_range {s : Sector} {d : V3} (h0 : 0 ≤ theta s d) (h1 : theta s d ≤ Real.pi / 2) :
    1 / 2 ≤ lightness s d true ∧ lightness s d true ≤ 1 ∧ lightness s d false = 1 - lightness s d true := by
  unfold lightness
  simp only [if_true, Bool.false_eq_true, if_false]
  have hp := Real.pi_pos
  have e1 : 1 / 2 ≤ (Real.pi - theta s d) / Real.pi := by rw [le_div_iff₀ hp]; linarith
  have e2 : (Real.pi - theta s d) / Real.pi ≤ 1 := by rw [div_le_one hp]; linarith
  have e3 : Real.sin ((Real.pi - theta s d) / 2) ^ 2 = 1 / 2 + Real.cos (theta s d) / 2 := by
    rw [Real.sin_sq_eq_half_sub, mul_div_cancel₀ _ (two_ne_zero), Real.cos_pi_sub]
    ring
  have e4 : 0 ≤ Real.cos (theta s d) := Real.cos_nonneg_of_neg_pi_div_two_le_of_le (by linarith) h1
  have e5 := Real.cos_le_one (theta s d)
  rw [e3]
  exact ⟨by linarith, by linarith, trivial⟩

theorem saturation_range {l : ℝ} (h0 : 0 ≤ l) (h1 : l ≤ 1) : 3 / 4 ≤ saturation l ∧ saturation l ≤ 1 := by
  unfold saturation
  have h2 : |l - 1 / 2| ≤ 1 / 2 := by rw [abs_le]; constructor <;> linarith
  have h3 := abs_nonneg (l - 1 / 2)
  constructor <;> linarith

/-- C138: a direction of the sector of one of the four groups has a hue, a saturation and a lightness between 0 and 1. It is
one of the light colours if it is also the direction reduced by the Laue group itself, and one of the dark colours otherwise;
no colour is far from saturated. -/
theorem color_row {g : PG} (hg : isSuper g) {d : V3} (hd : norm d = 1) (hi : ∀ t < 0, Within (sector g) t d) (mask : Bool) :
    ColorSpace.Unit3 (getColor (sector g) d mask) ∧ 3 / 4 ≤ (getColor (sector g) d mask).b ∧
      (mask = true → 1 / 2 ≤ (getColor (sector g) d mask).c) ∧ (mask = false → (getColor (sector g) d mask).c ≤ 1 / 2) := by
  have hd1 : d ⬝ᵥ d = 1 := by rw [← norm_sq, hd, one_pow]
  have hz : ∀ x : ℝ, (∀ t < 0, t < x) → 0 ≤ x := fun x h => le_of_forall_lt h
  obtain ⟨⟨r0, r1⟩, t0, t1⟩ := angles (super_tri hg) (hz _ fun t ht => (hi t ht).1) (hz _ fun t ht => (hi t ht).2.1)
    (hz _ fun t ht => (hi t ht).2.2) hd1
  have hh := hue_range _ _ r0 r1
  obtain ⟨l0, l1, l2⟩ := lightness_range t0 t1
  have hl : 0 ≤ lightness (sector g) d mask ∧ lightness (sector g) d mask ≤ 1 := by
    cases mask
    · rw [l2]; constructor <;> linarith
    · constructor <;> linarith
  have hs := saturation_range hl.1 hl.2
  refine ⟨?_, hs.1, ?_, ?_⟩
  · intro i
    fin_cases i
    · exact hh
    · exact ⟨by show 0 ≤ saturation _; linarith [hs.1], hs.2⟩
    · exact hl
  · rintro rfl
    exact l0
  · rintro rfl
    show lightness (sector g) d false ≤ 1 / 2
    rw [l2]
    linarith

/-- C138: the centre of the sector is white, or black if it is coloured as the other half. -/
theorem center_white {g : PG} (hg : isSuper g) :
    lightness (sector g) (barycenter (sector g)) true = 1 ∧ lightness (sector g) (barycenter (sector g)) false = 0 := by
  obtain ⟨t, -, -, e⟩ := bary (super_tri hg)
  have ht : theta (sector g) (barycenter (sector g)) = 0 := by
    unfold theta
    simp only
    rw [if_neg (bary_top (super_tri hg)), arccos_clamp, arccos_clamp, e, Real.arccos_one]
    simp
  unfold lightness
  simp only [ht, if_true, Bool.false_eq_true, if_false, sub_zero, div_self Real.pi_ne_zero, Real.sin_pi_div_two]
  norm_num

/-! ### Colours of arrays of directions -/

theorem mapM_some {α : Type} (ws : List α) : (ws.map some).mapM id = some ws := by
  induction ws with
  | nil => rfl
  | cons w ws ih => simp [List.mapM_cons, ih]

theorem all_some {α : Type} {l : List (Option α)} (h : ∀ x ∈ l, x ≠ none) : ∃ ws : List α, l = ws.map some := by
  induction l with
  | nil => exact ⟨[], rfl⟩
  | cons x l ih =>
    obtain ⟨ws, e⟩ := ih fun y hy => h y (List.mem_cons_of_mem _ hy)
    cases x with
    | none => exact absurd rfl (h none List.mem_cons_self)
    | some w => exact ⟨w :: ws, by simp [e]⟩

/-- C138: an array of directions of length 1 is coloured, one colour for each direction, if no image of a direction lies on
the border of the sector of the supergroup and the reduction by the Laue group has a direction for each: the colour is that
of the image in the sector of the supergroup, light or dark as the two reduced directions are the same or not. -/
theorem directions_colored {g : PG} (hg : isSuper g) {L : Cell} (hu : Usable L) (hf : Fits L g) {G : List M3}
    (eG : superSyms L g = some G) (syms : List M3) (s : Sector) {rows : List V3} (hr : rows ≠ []) (h1 : ∀ r ∈ rows, norm r = 1)
    (hin : ∀ r ∈ rows, ∃ S ∈ G, Within (sector g) (3 * eps) (S *ᵥ r)) {red : List (Option V3)}
    (e : reduce syms s rows = some red) (hlen : red.length = rows.length) (hnone : ∀ x ∈ red, x ≠ none) :
    ∃ cs, colorDirections ⟨syms, s, G, sector g⟩ rows = some cs ∧ cs.length = rows.length ∧
      ∀ (i : Nat) (r : V3), rows[i]? = some r → ∃ (c : ColorSpace.Row) (w : V3) (mask : Bool), cs[i]? = some c ∧
        ColorSpace.Unit3 c ∧ red[i]? = some (some w) ∧
        ∀ S ∈ G, Within (sector g) (3 * eps) (S *ᵥ r) → (mask = true ↔ norm (w - S *ᵥ r) < eps) ∧
          ∃ k : ColorSpace.Row, ColorSpace.Spec.IsColor k.a k.b k.c c.val ∧
            ∀ i, |k.val i - (getColor (sector g) (S *ᵥ r) mask).val i| < ColorSpace.eps := by
  have hb : eps < 1 := by unfold eps Cell.eps; norm_num
  have he := eps_pos
  obtain ⟨r0, hr0⟩ := List.exists_mem_of_ne_nil _ hr
  obtain ⟨G1, sup, q1, q2, q3, q4⟩ := reduce_super hg hu hf rows (fun r hr => by rw [h1 r hr]; norm_num)
    ⟨r0, hr0, by rw [h1 r0 hr0]; exact hb⟩
  rw [eG] at q1
  cases q1
  have hsup : ∀ (i : Nat) (r : V3), rows[i]? = some r → ∀ S ∈ G, Within (sector g) (3 * eps) (S *ᵥ r) → sup[i]? = some (some (S *ᵥ r)) := by
    intro i r hi S hS hw
    obtain ⟨T, hT, c, hc, eo, hwi⟩ := q4 i r hi
    have hc1 : c = 1 := by
      rcases hc with ⟨h, -⟩ | h
      · exact h
      · rw [h, h1 r (List.mem_of_getElem? hi), inv_one]
    rw [hc1, one_smul] at eo hwi
    obtain ⟨u1, u2⟩ := super_upper hg
    rw [eo, image_unique hg hu hf eG hS hT r hw (by rw [inside_upper _ u1 u2]; exact hwi)]
  obtain ⟨ws, ews⟩ := all_some hnone
  have hsn : ∀ x ∈ sup, x ≠ none := by
    intro x hx
    obtain ⟨i, hi, rfl⟩ := List.mem_iff_getElem.1 hx
    have hi' : i < rows.length := by rw [← q3]; exact hi
    obtain ⟨S, hS, hw⟩ := hin rows[i] (List.getElem_mem hi')
    have h2 := hsup i rows[i] (List.getElem?_eq_getElem hi') S hS hw
    rw [List.getElem?_eq_getElem hi, Option.some.injEq] at h2
    rw [h2]
    exact Option.some_ne_none _
  obtain ⟨vs, evs⟩ := all_some hsn
  have hl : ws.length = vs.length := by
    have a := congrArg List.length ews
    have b := congrArg List.length evs
    rw [List.length_map] at a b
    omega
  have hlr : ws.length = rows.length := by
    have a := congrArg List.length ews
    rw [List.length_map] at a
    omega
  set keys := (ws.zip vs).map fun p => getColor (sector g) p.2 (decide (norm (p.1 - p.2) < eps)) with hk
  have ecd : colorDirections ⟨syms, s, G, sector g⟩ rows = (ColorSpace.hsl2rgb keys).1 := by
    unfold colorDirections
    simp only [e, q2, ews, evs, mapM_some, Option.bind_eq_bind, Option.bind_some, hl, if_true]
    rfl
  have hvs : ∀ (i : Nat) (r : V3), rows[i]? = some r → ∀ S ∈ G, Within (sector g) (3 * eps) (S *ᵥ r) → vs[i]? = some (S *ᵥ r) := by
    intro i r hi S hS hw
    have h2 := hsup i r hi S hS hw
    rw [evs, List.getElem?_map, Option.map_eq_some_iff] at h2
    obtain ⟨v, hv, h2⟩ := h2
    cases h2
    exact hv
  have hkey : ∀ (i : Nat) (r : V3), rows[i]? = some r → ∃ w, ws[i]? = some w ∧ ∀ S ∈ G, Within (sector g) (3 * eps) (S *ᵥ r) →
      keys[i]? = some (getColor (sector g) (S *ᵥ r) (decide (norm (w - S *ᵥ r) < eps))) := by
    intro i r hi
    have hlt : i < ws.length := by rw [hlr]; exact (List.getElem?_eq_some_iff.1 hi).1
    refine ⟨ws[i], List.getElem?_eq_getElem hlt, fun S hS hw => ?_⟩
    rw [hk, List.getElem?_map, List.getElem?_zip_eq_some.2 (show ws[i]? = some (ws[i], S *ᵥ r).1 ∧ vs[i]? = some (ws[i], S *ᵥ r).2 from ⟨List.getElem?_eq_getElem hlt, hvs i r hi S hS hw⟩)]
    rfl
  have hkl : keys.length = rows.length := by
    rw [hk, List.length_map, List.length_zip, ← hl, min_self, hlr]
  have hu3 : ∀ k ∈ keys, ColorSpace.Unit3 k := by
    intro k hk'
    obtain ⟨i, hi, rfl⟩ := List.mem_iff_getElem.1 hk'
    have hi' : i < rows.length := by rw [← hkl]; exact hi
    obtain ⟨S, hS, hw⟩ := hin rows[i] (List.getElem_mem hi')
    obtain ⟨w, -, h3⟩ := hkey i rows[i] (List.getElem?_eq_getElem hi')
    have h3 := h3 S hS hw
    rw [List.getElem?_eq_getElem hi, Option.some.injEq] at h3
    rw [h3]
    refine (color_row hg ?_ ?_ _).1
    · rw [super_norm hg hu hf eG hS, h1 _ (List.getElem_mem hi')]
    · intro t ht
      exact ⟨by linarith [hw.1], by linarith [hw.2.1], by linarith [hw.2.2]⟩
  have hnn : (ColorSpace.hsl2rgb keys).1 ≠ none := by
    rw [Ne, ColorSpace.refused_iff]
    rintro (h | ⟨k, hk', i, hi⟩)
    · rw [h] at hkl
      exact hr (List.length_eq_zero_iff.1 hkl.symm)
    · have h2 := hu3 k hk' i
      have h3 := ColorSpace.eps_pos
      rcases hi with hi | hi <;> linarith [h2.1, h2.2]
  obtain ⟨cs, hcs⟩ := Option.ne_none_iff_exists'.1 hnn
  obtain ⟨c1, c2⟩ := ColorSpace.hsl2rgb_color hcs
  refine ⟨cs, by rw [ecd, hcs], by rw [c1, hkl], fun i r hi => ?_⟩
  have hlt : i < rows.length := (List.getElem?_eq_some_iff.1 hi).1
  obtain ⟨w, hw, h3⟩ := hkey i r hi
  have hlc : i < cs.length := by rw [c1, hkl]; exact hlt
  obtain ⟨S0, hS0, hw0⟩ := hin r (List.mem_of_getElem? hi)
  refine ⟨cs[i], w, decide (norm (w - S0 *ᵥ r) < eps), List.getElem?_eq_getElem hlc, ?_, ?_, fun S hS hwS => ?_⟩
  · exact (c2 i _ _ (h3 S0 hS0 hw0) (List.getElem?_eq_getElem hlc)).1
  · rw [ews, List.getElem?_map, hw]
    rfl
  · have eS : S *ᵥ r = S0 *ᵥ r := by
      have a := hvs i r hi S hS hwS
      rw [hvs i r hi S0 hS0 hw0] at a
      exact (Option.some.inj a).symm
    rw [eS]
    refine ⟨decide_eq_true_iff, ?_⟩
    obtain ⟨-, k, k1, k2, -⟩ := c2 i _ _ (h3 S0 hS0 hw0) (List.getElem?_eq_getElem hlc)
    exact ⟨k, k1, k2⟩

/-- C138: for the crystals of the four Laue groups themselves, two equivalent directions have the same colour, in whatever
arrays and at whatever positions they are given. -/
theorem equivalent_color {g : PG} (hg : isSuper g) {L : Cell} (hu : Usable L) (hf : Fits L g) {G : List M3}
    (eG : superSyms L g = some G) {rows rows' : List V3} (h1 : ∀ r ∈ rows, norm r = 1) (h1' : ∀ r ∈ rows', norm r = 1)
    {i j : Nat} {r : V3} {T : M3} (hT : T ∈ G) (hr : rows[i]? = some r) (hr' : rows'[j]? = some (T *ᵥ r))
    (hin : ∃ S ∈ G, Within (sector g) (3 * eps) (S *ᵥ r)) {cs cs' : List ColorSpace.Row}
    (e : colorDirections ⟨G, sector g, G, sector g⟩ rows = some cs)
    (e' : colorDirections ⟨G, sector g, G, sector g⟩ rows' = some cs') : cs[i]? = cs'[j]? ∧ i < cs.length := by
  have hb : eps < 1 := by unfold eps Cell.eps; norm_num
  have he := eps_pos
  obtain ⟨S, hS, hw⟩ := hin
  have form : ∀ (rows : List V3) (cs : List ColorSpace.Row), (∀ r ∈ rows, norm r = 1) →
      colorDirections ⟨G, sector g, G, sector g⟩ rows = some cs → ∀ (i : Nat) (x : V3), rows[i]? = some x →
      ∃ red w, reduce G (sector g) rows = some red ∧ red[i]? = some (some w) ∧
        cs[i]? = some (ColorSpace.toRgb (ColorSpace.snapRow (getColor (sector g) w true))) := by
    intro rows cs h1 e i x hx
    obtain ⟨G1, out, q1, q2, q3, q4⟩ := reduce_super hg hu hf rows (fun r hr => by rw [h1 r hr]; norm_num)
      ⟨x, List.mem_of_getElem? hx, by rw [h1 x (List.mem_of_getElem? hx)]; exact hb⟩
    rw [eG] at q1
    cases q1
    obtain ⟨T, hT, c, -, eo, -⟩ := q4 i x hx
    refine ⟨out, _, q2, eo, ?_⟩
    have hnone : ∀ y ∈ out, y ≠ none := by
      intro y hy
      obtain ⟨n, hn, rfl⟩ := List.mem_iff_getElem.1 hy
      have hn' : n < rows.length := by rw [← q3]; exact hn
      obtain ⟨T, hT, c, -, eo, -⟩ := q4 n rows[n] (List.getElem?_eq_getElem hn')
      rw [List.getElem?_eq_getElem hn, Option.some.injEq] at eo
      rw [eo]
      exact Option.some_ne_none _
    obtain ⟨ws, ews⟩ := all_some hnone
    unfold colorDirections at e
    simp only [q2, ews, mapM_some, Option.bind_eq_bind, Option.bind_some, if_true] at e
    have ew : ws[i]? = some (T *ᵥ c • x) := by
      rw [ews, List.getElem?_map, Option.map_eq_some_iff] at eo
      obtain ⟨v, hv, h2⟩ := eo
      cases h2
      exact hv
    unfold ColorSpace.hsl2rgb at e
    simp only at e
    split at e
    · cases e
      rw [List.getElem?_map, List.getElem?_map, List.getElem?_map,
        List.getElem?_zip_eq_some.2 (show ws[i]? = some (T *ᵥ c • x, T *ᵥ c • x).1 ∧ ws[i]? = some (T *ᵥ c • x, T *ᵥ c • x).2 from ⟨ew, ew⟩)]
      simp only [Option.map_some, sub_self]
      have hn0 : norm (0 : V3) = 0 := by unfold norm; simp
      rw [hn0, decide_eq_true he]
    · cases e
  obtain ⟨red, w, e1, e2, e3⟩ := form rows cs h1 e i r hr
  obtain ⟨red', w', e1', e2', e3'⟩ := form rows' cs' h1' e' j _ hr'
  have hw1 : Within (sector g) (3 * eps) w := by
    obtain ⟨G1, out, q1, q2, q3, q4⟩ := reduce_super hg hu hf rows (fun r hr => by rw [h1 r hr]; norm_num)
      ⟨r, List.mem_of_getElem? hr, by rw [h1 r (List.mem_of_getElem? hr)]; exact hb⟩
    rw [eG] at q1
    cases q1
    rw [e1] at q2
    cases q2
    obtain ⟨T, hT, c, hc, eo, hwi⟩ := q4 i r hr
    have hc1 : c = 1 := by
      rcases hc with ⟨h, -⟩ | h
      · exact h
      · rw [h, h1 r (List.mem_of_getElem? hr), inv_one]
    rw [hc1, one_smul] at eo hwi
    obtain ⟨u1, u2⟩ := super_upper hg
    rw [e2, Option.some.injEq, Option.some.injEq] at eo
    rw [eo, image_unique hg hu hf eG hS hT r hw (by rw [inside_upper _ u1 u2]; exact hwi)]
    exact hw
  have h5 := reduce_equivalent hg hu hf eG rows rows' h1 h1' hT hr hr' e1 e1' e2 hw1
  rw [e2', Option.some.injEq, Option.some.injEq] at h5
  rw [e3, e3', h5]
  exact ⟨rfl, (List.getElem?_eq_some_iff.1 e3).1⟩

/-- A cubic crystal and a direction that is coloured. -/
example : ∃ G cs, superSyms ⟨1, 1, 1, 90, 90, 90⟩ .oh = some G ∧
    colorDirections ⟨G, sector .oh, G, sector .oh⟩ [![3 / 7, 2 / 7, 6 / 7]] = some cs ∧ cs.length = 1 := by
  have hg : isSuper .oh := Or.inr (Or.inr (Or.inr rfl))
  have hf := usable_cube.2 .oh (Or.inr (Or.inr rfl))
  have eG := super_form hg usable_cube.1 hf
  have hone : Mat.one ∈ opsOf .oh := by decide
  have hn : norm (![3 / 7, 2 / 7, 6 / 7] : V3) = 1 := by
    unfold norm
    rw [Real.sqrt_eq_one]
    simp only [dotProduct, Fin.sum_univ_three, Matrix.cons_val_zero, Matrix.cons_val_one, Matrix.cons_val]
    norm_num
  have h1 : ∀ r ∈ [(![3 / 7, 2 / 7, 6 / 7] : V3)], norm r = 1 := by
    intro r hr
    rw [List.mem_singleton.1 hr, hn]
  obtain ⟨G1, out, q1, q2, q3, q4⟩ := reduce_super hg usable_cube.1 hf [![3 / 7, 2 / 7, 6 / 7]] (fun r hr => by rw [h1 r hr]; norm_num)
    ⟨_, List.mem_singleton.2 rfl, by rw [hn]; unfold eps Cell.eps; norm_num⟩
  rw [eG] at q1
  cases q1
  obtain ⟨cs, c1, c2, -⟩ := directions_colored hg usable_cube.1 hf eG _ (sector .oh) (rows := [![3 / 7, 2 / 7, 6 / 7]]) (by simp) h1
    (by
      intro r hr
      rw [List.mem_singleton.1 hr]
      refine ⟨_, List.mem_map_of_mem hone, ?_⟩
      rw [cart_one, Matrix.one_mulVec, within_oh]
      have h2 : √2 ≤ 2 := Real.sqrt_le_iff.2 ⟨by norm_num, by norm_num⟩
      have h3 : √3 ≤ 2 := Real.sqrt_le_iff.2 ⟨by norm_num, by norm_num⟩
      have h20 := Real.sqrt_nonneg 2
      have h30 := Real.sqrt_nonneg 3
      have h6 : √2 * √3 ≤ 4 := by nlinarith
      simp only [Matrix.cons_val_zero, Matrix.cons_val_one, Matrix.cons_val]
      unfold eps Cell.eps
      refine ⟨?_, ?_, ?_⟩ <;> nlinarith) q2 q3
    (by
      intro x hx
      obtain ⟨i, hi, rfl⟩ := List.mem_iff_getElem.1 hx
      have hi' : i < [(![3 / 7, 2 / 7, 6 / 7] : V3)].length := by rw [← q3]; exact hi
      obtain ⟨T, hT, c, -, eo, -⟩ := q4 i _ (List.getElem?_eq_getElem hi')
      rw [List.getElem?_eq_getElem hi, Option.some.injEq] at eo
      rw [eo]
      exact Option.some_ne_none _)
  exact ⟨_, cs, eG, c1, c2⟩

end Hexrd.Ipf
