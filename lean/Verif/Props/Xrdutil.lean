import Verif.Model.Xrdutil
import Verif.Spec.Xrdutil
import Verif.Props.Simulate
import Verif.Props.Grid

/-!
# Angular pixel sizes, sphere projections and angular patches (C86, C87, C88)
-/
namespace Hexrd.Xrdutil
open Matrix Hexrd.Transforms Hexrd.Transforms.Spec Hexrd.Simulate Hexrd.Xrdutil.Spec

/-! ## C86: angular pixel sizes -/

/-- The azimuthal difference the code takes is the distance on the circle. -/
theorem etaGap_circle (a b : ℝ) : Angles.Spec.CircleDist (2 * Real.pi) a b (etaGap a b) := by
  obtain ⟨x, hx, hc⟩ := Angles.angularDifferenceOrig_spec a b .radians (2 * Real.pi) rfl
  have : x = etaGap a b := by
    have e : Angles.angularDifferenceOrig a b .radians =
        some |Angles.npMod (a - b + 1 / 2 * (2 * Real.pi)) (2 * Real.pi) - 1 / 2 * (2 * Real.pi)| := rfl
    rw [e, Option.some.injEq] at hx
    rw [← hx, etaGap, show (1 : ℝ) / 2 * (2 * Real.pi) = Real.pi by ring]
  rwa [← this]

theorem circleDist_unique {p a b x y : ℝ} (hx : Angles.Spec.CircleDist p a b x) (hy : Angles.Spec.CircleDist p a b y) :
    x = y := by
  obtain ⟨⟨k, hk⟩, h1⟩ := hx
  obtain ⟨⟨j, hj⟩, h2⟩ := hy
  exact le_antisymm (by rw [hj]; exact h1 j) (by rw [hk]; exact h2 k)

theorem circleDist_congr {a b a' b' x : ℝ} (ha : SameAngle a a') (hb : SameAngle b b')
    (h : Angles.Spec.CircleDist (2 * Real.pi) a b x) : Angles.Spec.CircleDist (2 * Real.pi) a' b' x := by
  obtain ⟨k, rfl⟩ := ha
  obtain ⟨j, rfl⟩ := hb
  obtain ⟨⟨n, hn⟩, h2⟩ := h
  refine ⟨⟨n + k - j, ?_⟩, fun m => ?_⟩
  · rw [hn]; congr 1; push_cast; ring
  · have := h2 (m - k + j)
    refine this.trans_eq ?_
    congr 1; push_cast; ring

theorem computeMax_eq (tth eta : Nat → ℝ) : computeMax tth eta =
    (max |tth 2 - tth 3| (max |tth 1 - tth 2| (max |tth 0 - tth 1| |tth 0 - tth 3|)),
     max (etaGap (eta 2) (eta 3)) (max (etaGap (eta 1) (eta 2)) (max (etaGap (eta 0) (eta 1)) (etaGap (eta 0) (eta 3))))) := by
  rfl

theorem isGreatest_max4 {S : Set ℝ} {a b c d : ℝ} (h : ∀ x, x ∈ S ↔ x = a ∨ x = b ∨ x = c ∨ x = d) :
    IsGreatest S (max c (max b (max a d))) := by
  constructor
  · rw [h]
    rcases max_choice c (max b (max a d)) with e | e
    · rw [e]; simp
    · rw [e]
      rcases max_choice b (max a d) with e | e
      · rw [e]; simp
      · rw [e]
        rcases max_choice a d with e | e <;> rw [e] <;> simp
  · intro x hx
    rcases (h x).1 hx with rfl | rfl | rfl | rfl <;> simp

theorem sides_iff (f : Fin 4 → Fin 4 → ℝ) (x : ℝ) :
    (∃ k : Fin 4, x = f k (k + 1)) ↔ x = f 0 1 ∨ x = f 1 2 ∨ x = f 2 3 ∨ x = f 3 0 := by
  constructor
  · rintro ⟨k, rfl⟩
    fin_cases k <;> simp
  · rintro (rfl | rfl | rfl | rfl)
    exacts [⟨0, rfl⟩, ⟨1, rfl⟩, ⟨2, rfl⟩, ⟨3, rfl⟩]

/-- A direction with given polar angles is what `xy_to_gvec` reports. -/
theorem xyToGvec_angles {rb : M} (hrb : IsRotation rb) {xy : ℝ × ℝ} {rd rs : M} {td ts tc : V} {tth eta : ℝ}
    (hf : FarEnough xy rd rs td ts tc) (ht : 0 < tth ∧ tth < Real.pi)
    (h : AnglesOf rb rd td (crystalPosition rs ts tc) xy tth eta) :
    ∃ out, xyToGvec xy rd rs td ts tc rb = some out ∧ out.tTh = tth ∧ SameAngle out.eta eta := by
  obtain ⟨-, s, hs, hd⟩ := h
  have hu : IsUnit3 (rb *ᵥ ![Real.sin tth * Real.cos eta, Real.sin tth * Real.sin eta, -Real.cos tth]) := by
    rw [IsUnit3, ← mulV_eq, ← dot_eq, dot_mulV_mulV hrb.1]
    have h1 := Real.sin_sq_add_cos_sq tth
    have h2 := Real.sin_sq_add_cos_sq eta
    simp [dot]
    linear_combination Real.sin tth ^ 2 * h2 + h1
  have hdh : dHat xy rd rs td ts tc =
      mulV rb ![Real.sin tth * Real.cos eta, Real.sin tth * Real.sin eta, -Real.cos tth] := by
    rw [mulV_eq]
    exact isDirection_unique (dHat_isDirection hf) ⟨hu, s, hs, hd⟩
  have hdot : dot (fun i => -rb i 2) (dHat xy rd rs td ts tc) = Real.cos tth := by
    have e : (fun i => -rb i 2) = mulV rb ![0, 0, -1] := by ext i; fin_cases i <;> simp [mulV]
    rw [e, hdh, dot_mulV_mulV hrb.1]
    simp [dot]
  have hcos : |Real.cos tth| < 1 := by
    rw [abs_lt]
    constructor
    · rw [← Real.cos_pi]; exact Real.cos_lt_cos_of_nonneg_of_le_pi ht.1.le le_rfl ht.2
    · rw [← Real.cos_zero]; exact Real.cos_lt_cos_of_nonneg_of_le_pi le_rfl ht.2.le ht.1
  obtain ⟨out, g, h1, -, h3, h4, -⟩ := xyToGvec_value hrb hf (by rw [hdot]; exact hcos)
  refine ⟨out, h1, ?_, ?_⟩
  · rw [h3, hdot, Real.arccos_cos ht.1.le ht.2.le]
  · rw [hdh, mulTV_mulV hrb.1] at h4
    obtain ⟨e', he', k, hk⟩ : ∃ e', (-Real.pi < e' ∧ e' ≤ Real.pi) ∧ SameAngle e' eta := by
      have hp := Real.pi_pos
      refine ⟨toIocMod (by linarith : (0 : ℝ) < 2 * Real.pi) (-Real.pi) eta, ?_, -toIocDiv (by linarith : (0 : ℝ) < 2 * Real.pi) (-Real.pi) eta, ?_⟩
      · have := toIocMod_mem_Ioc (by linarith : (0 : ℝ) < 2 * Real.pi) (-Real.pi) eta
        exact ⟨this.1, by linarith [this.2]⟩
      · unfold toIocMod; push_cast; simp only [zsmul_eq_mul]; ring
    have hc : Real.cos eta = Real.cos e' := by
      rw [hk, show eta + 2 * Real.pi * k = eta + k * (2 * Real.pi) by ring, Real.cos_add_int_mul_two_pi]
    have hsn : Real.sin eta = Real.sin e' := by
      rw [hk, show eta + 2 * Real.pi * k = eta + k * (2 * Real.pi) by ring, Real.sin_add_int_mul_two_pi]
    refine ⟨k, ?_⟩
    rw [h4]
    simp only [Matrix.cons_val_zero, Matrix.cons_val_one]
    rw [hc, hsn, arg_polar (Real.sin_pos_of_pos_of_lt_pi ht.1 ht.2) he'.1 he'.2, hk]

theorem expandPixel_corner (w h : ℝ) (c : ℝ × ℝ) :
    expandPixel w h c = [corner w h c 0, corner w h c 1, corner w h c 2, corner w h c 3] := by
  simp only [expandPixel, corner, Matrix.cons_val_zero, Matrix.cons_val_one, Matrix.cons_val]
  refine List.cons_eq_cons.2 ⟨?_, List.cons_eq_cons.2 ⟨?_, List.cons_eq_cons.2 ⟨?_, List.cons_eq_cons.2 ⟨?_, rfl⟩⟩⟩⟩ <;>
    ext <;> simp <;> ring

/-- C86: the angular size of a pixel is the greatest difference of two-theta along one of its four sides, and the
greatest distance on the circle of the azimuths along one of its four sides, where two-theta and azimuth are those of
the directions from the crystal to the corners.  `w` and `h` are the numbers that are passed as pixel pitch. -/
theorem pixel_size {b e : V} {r : M} (hr : IsBeamFrame b e r) (hres : (beamRmat b e).isSome) {rd rs : M} {td ts tc : V}
    {w h : ℝ} {c : ℝ × ℝ} {tth eta : Fin 4 → ℝ}
    (hf : ∀ k, FarEnough (corner w h c k) rd rs td ts tc)
    (hoff : ∀ k, 0 < tth k ∧ tth k < Real.pi)
    (ha : ∀ k, AnglesOf r rd td (crystalPosition rs ts tc) (corner w h c k) (tth k) (eta k)) :
    ∃ t a, angularPixelSize c (w, h) rd rs td ts tc b e = some (t, a) ∧
      GreatestAlongSides (fun x y d => d = |x - y|) tth t ∧
      GreatestAlongSides (Angles.Spec.CircleDist (2 * Real.pi)) eta a := by
  obtain ⟨rb, hrb⟩ := Option.isSome_iff_exists.1 hres
  obtain rfl := isBeamFrame_unique hr (beamRmat_isBeamFrame hrb)
  choose out h1 h2 h3 using fun k => xyToGvec_angles hr.1 (hf k) (hoff k) (ha k)
  have hm : (expandPixel w h c).mapM (fun p => xyToGvec p rd rs td ts tc r) = some [out 0, out 1, out 2, out 3] := by
    rw [expandPixel_corner]
    rw [List.mapM_cons, h1 0, List.mapM_cons, h1 1, List.mapM_cons, h1 2, List.mapM_cons, h1 3]
    rfl
  refine ⟨_, _, by unfold angularPixelSize; rw [hrb]; simp only [Option.bind_eq_bind, Option.bind_some]; rw [hm]; simp only [Option.bind_some]; rw [computeMax_eq]; rfl, ?_, ?_⟩
  · have e3 : |tth 0 - tth 3| = |tth 3 - tth 0| := abs_sub_comm _ _
    simp only [List.getElem?_cons_zero, List.getElem?_cons_succ, Option.map_some, Option.getD_some, h2]
    apply isGreatest_max4
    intro x
    rw [e3]
    exact sides_iff (fun i j => |tth i - tth j|) x
  · simp only [List.getElem?_cons_zero, List.getElem?_cons_succ, Option.map_some, Option.getD_some]
    apply isGreatest_max4
    intro x
    have key : ∀ i j : Fin 4, Angles.Spec.CircleDist (2 * Real.pi) (eta i) (eta j) x ↔ x = etaGap (out i).eta (out j).eta := by
      intro i j
      have hg := circleDist_congr (h3 i) (h3 j) (etaGap_circle (out i).eta (out j).eta)
      exact ⟨fun hx => circleDist_unique hx hg, fun hx => hx ▸ hg⟩
    have e3 : etaGap (out 0).eta (out 3).eta = etaGap (out 3).eta (out 0).eta :=
      circleDist_unique (Angles.circleDist_facts (by linarith [Real.pi_pos]) (etaGap_circle (out 3).eta (out 0).eta)).1
        (etaGap_circle _ _) |>.symm
    rw [e3]
    change (∃ k : Fin 4, Angles.Spec.CircleDist (2 * Real.pi) (eta k) (eta (k + 1)) x) ↔ _
    simp only [key]
    exact sides_iff (fun i j => etaGap (out i).eta (out j).eta) x

/-- C86: for square pixels, `angularPixelSize` of a detector gives the size of the pixel about the point, which is as
wide as a column and as high as a row. -/
theorem detector_pixel_size_partial {p : Detector.Panel} (hsq : p.psr = p.psc) {b e : V} {r : M}
    (hr : IsBeamFrame b e r) (hres : (beamRmat b e).isSome) {rd rs : M} {td ts tc : V}
    {c : ℝ × ℝ} {tth eta : Fin 4 → ℝ}
    (hf : ∀ k, FarEnough (corner p.psc p.psr c k) rd rs td ts tc)
    (hoff : ∀ k, 0 < tth k ∧ tth k < Real.pi)
    (ha : ∀ k, AnglesOf r rd td (crystalPosition rs ts tc) (corner p.psc p.psr c k) (tth k) (eta k)) :
    ∃ t a, detectorPixelSize p c rd rs td ts tc b e = some (t, a) ∧
      GreatestAlongSides (fun x y d => d = |x - y|) tth t ∧
      GreatestAlongSides (Angles.Spec.CircleDist (2 * Real.pi)) eta a := by
  rw [detectorPixelSize, hsq]
  rw [hsq] at hf ha
  exact pixel_size hr hres hf hoff ha

/-- The angles of a point of a detector that faces the beam at unit distance. -/
theorem facing {x y : ℝ} (h : (x, y) ≠ (0, 0)) :
    AnglesOf 1 1 ![0, 0, -1] (crystalPosition 1 0 0) (x, y) (Real.arctan √(x ^ 2 + y ^ 2)) (Complex.arg ⟨x, y⟩) ∧
      (0 < Real.arctan √(x ^ 2 + y ^ 2) ∧ Real.arctan √(x ^ 2 + y ^ 2) < Real.pi) ∧
      FarEnough (x, y) 1 1 ![0, 0, -1] 0 0 := by
  have hpi := Real.pi_pos
  have hne : 0 < x ^ 2 + y ^ 2 := by
    rcases eq_or_ne x 0 with rfl | hx
    · have : y ≠ 0 := fun hy => h (by rw [hy])
      positivity
    · positivity
  have hlt := Real.arctan_lt_pi_div_two √(x ^ 2 + y ^ 2)
  have hpos : 0 < Real.arctan √(x ^ 2 + y ^ 2) := Real.arctan_pos.2 (Real.sqrt_pos.2 hne)
  have hsq := Real.sq_sqrt hne.le
  have habs : ‖(⟨x, y⟩ : ℂ)‖ = √(x ^ 2 + y ^ 2) := by
    rw [Complex.norm_def, Complex.normSq_mk]; congr 1; ring
  have hz : (⟨x, y⟩ : ℂ) ≠ 0 := by rw [← norm_pos_iff, habs]; exact Real.sqrt_pos.2 hne
  have hroot : 0 < √(1 + √(x ^ 2 + y ^ 2) ^ 2) := Real.sqrt_pos.2 (by positivity)
  have hn := Real.sqrt_pos.2 hne
  have hvec : (![0, 0, -1] + (x • (fun i => (1 : M) i 0) + y • (fun i => (1 : M) i 1)) - crystalPosition 1 0 0 : V) =
      ![x, y, -1] := by
    ext i
    simp only [Pi.sub_apply, Pi.add_apply, Pi.smul_apply, crystalPosition, Matrix.one_apply]
    fin_cases i <;> simp
  refine ⟨⟨⟨hpos.le, by linarith⟩, √(1 + √(x ^ 2 + y ^ 2) ^ 2), hroot, ?_⟩, ⟨hpos, by linarith⟩, ?_⟩
  · change ![0, 0, -1] + (x • (fun i => (1 : M) i 0) + y • (fun i => (1 : M) i 1)) - crystalPosition 1 0 0 = _
    rw [hvec, Real.sin_arctan, Real.cos_arctan, Complex.cos_arg hz, Complex.sin_arg, habs]
    ext i
    fin_cases i <;> simp <;> field_simp
  · change epsf < (![0, 0, -1] + (x • (fun i => (1 : M) i 0) + y • (fun i => (1 : M) i 1)) - crystalPosition 1 0 0) ⬝ᵥ
      (![0, 0, -1] + (x • (fun i => (1 : M) i 0) + y • (fun i => (1 : M) i 1)) - crystalPosition 1 0 0)
    rw [hvec, ← dot_eq]
    simp [dot, epsf]
    nlinarith [sq_nonneg x, sq_nonneg y]

/-- C86 fails for pixels that are not square: pixels 4 wide and 2 high on a detector that faces the beam at unit
distance.  Along the left side of the pixel about `(2, 0)` the azimuth changes by half a turn, and the size that the
detector reports is less than that, because it takes the width for the height. -/
theorem detector_pixel_size_swapped :
    let p : Detector.Panel := ⟨100, 100, 2, 4⟩
    ∃ t a, detectorPixelSize p (2, 0) 1 1 ![0, 0, -1] 0 0 ![0, 0, -1] ![1, 0, 0] = some (t, a) ∧ a < Real.pi ∧
      ∃ tth eta : Fin 4 → ℝ,
        (∀ k, AnglesOf 1 1 ![0, 0, -1] (crystalPosition 1 0 0) (corner p.psc p.psr (2, 0) k) (tth k) (eta k)) ∧
        GreatestAlongSides (Angles.Spec.CircleDist (2 * Real.pi)) eta Real.pi := by
  intro p
  have hpi := Real.pi_pos
  have hfr : IsBeamFrame ![0, 0, -1] ![1, 0, 0] 1 := beamRmat_isBeamFrame beamRmat_default
  have hne : ∀ k, corner 2 4 (2, 0) k ≠ (0, 0) := by
    intro k
    fin_cases k <;> simp [corner]
  have hne' : ∀ k, corner 4 2 (2, 0) k ≠ (0, 0) := by
    intro k
    fin_cases k <;> simp [corner]
  obtain ⟨t, a, h1, -, h2⟩ := pixel_size (w := 2) (h := 4) (c := (2, 0)) (rd := 1) (rs := 1) (td := ![0, 0, -1])
    (ts := 0) (tc := 0) (tth := fun k => Real.arctan √((corner 2 4 (2, 0) k).1 ^ 2 + (corner 2 4 (2, 0) k).2 ^ 2))
    (eta := fun k => Complex.arg ⟨(corner 2 4 (2, 0) k).1, (corner 2 4 (2, 0) k).2⟩) hfr (by rw [beamRmat_default]; rfl) (fun k => (facing (hne k)).2.2) (fun k => (facing (hne k)).2.1)
    (fun k => (facing (hne k)).1)
  refine ⟨t, a, h1, ?_, fun k => Real.arctan √((corner 4 2 (2, 0) k).1 ^ 2 + (corner 4 2 (2, 0) k).2 ^ 2),
    fun k => Complex.arg ⟨(corner 4 2 (2, 0) k).1, (corner 4 2 (2, 0) k).2⟩, fun k => (facing (hne' k)).1, ?_⟩
  · obtain ⟨k, hk⟩ := h2.1
    have hx : ∀ k, |Complex.arg ⟨(corner 2 4 (2, 0) k).1, (corner 2 4 (2, 0) k).2⟩| < Real.pi / 2 := by
      intro k
      rw [Complex.abs_arg_lt_pi_div_two_iff]
      left
      fin_cases k <;> simp [corner] <;> norm_num
    have h0 := hk.2 0
    simp only [Int.cast_zero, zero_mul, add_zero] at h0
    have := abs_lt.1 (hx k)
    have := abs_lt.1 (hx (k + 1))
    refine h0.trans_lt ?_
    rw [abs_lt]
    constructor <;> linarith
  · constructor
    · refine ⟨3, ?_⟩
      have e3 : Complex.arg ⟨(corner 4 2 (2, 0) 3).1, (corner 4 2 (2, 0) 3).2⟩ = Real.pi / 2 := by
        rw [Complex.arg_eq_pi_div_two_iff]; simp [corner]; norm_num
      have e0 : Complex.arg ⟨(corner 4 2 (2, 0) (3 + 1)).1, (corner 4 2 (2, 0) (3 + 1)).2⟩ = -(Real.pi / 2) := by
        rw [Complex.arg_eq_neg_pi_div_two_iff]; simp [corner]; norm_num
      beta_reduce
      rw [e3, e0]
      have := Angles.circleDist_of_half (p := 2 * Real.pi) (a := Real.pi / 2) (b := -(Real.pi / 2)) (y := Real.pi)
        (by rw [abs_of_pos hpi]; linarith) 0 (by push_cast; ring)
      rwa [abs_of_pos hpi] at this
    · rintro x ⟨k, hk⟩
      have := (Angles.circleDist_facts (by linarith) hk).2.2.1
      linarith

/-- The hypotheses hold for square pixels of the same detector. -/
example : ∃ t a, detectorPixelSize ⟨100, 100, 2, 2⟩ (2, 0) 1 1 ![0, 0, -1] 0 0 ![0, 0, -1] ![1, 0, 0] = some (t, a) := by
  have hne : ∀ k, corner 2 2 (2, 0) k ≠ (0, 0) := by
    intro k
    fin_cases k <;> simp [corner]
  obtain ⟨t, a, h, -⟩ := detector_pixel_size_partial (p := ⟨100, 100, 2, 2⟩) rfl (c := (2, 0)) (rd := 1) (rs := 1)
    (td := ![0, 0, -1]) (ts := 0) (tc := 0)
    (tth := fun k => Real.arctan √((corner 2 2 (2, 0) k).1 ^ 2 + (corner 2 2 (2, 0) k).2 ^ 2))
    (eta := fun k => Complex.arg ⟨(corner 2 2 (2, 0) k).1, (corner 2 2 (2, 0) k).2⟩)
    (beamRmat_isBeamFrame beamRmat_default) (by rw [beamRmat_default]; rfl) (fun k => (facing (hne k)).2.2)
    (fun k => (facing (hne k)).2.1) (fun k => (facing (hne k)).1)
  exact ⟨t, a, h⟩

/-! ## C87: projections of the sphere -/

theorem unit_entries {s : V} (hs : IsUnit3 s) : s 0 ^ 2 + s 1 ^ 2 + s 2 ^ 2 = 1 := by
  rw [IsUnit3, ← dot_eq] at hs
  simp only [dot] at hs
  linarith

/-- C87: the points that are projected are unit vectors, if the change of basis is a rotation. -/
theorem spherePoint_unit {src : Source} {chi : ℝ} {rmat : M} (hr : IsRotation rmat) (inv : Bool) {v : V}
    (hv : src = .g → IsUnit3 v) : IsUnit3 (spherePoint src chi rmat inv v) := by
  have hb : IsDirection (![0, 0, -1] : V) ![0, 0, -1] :=
    ⟨by rw [IsUnit3, ← dot_eq]; simp [dot], 1, one_pos, by simp⟩
  have hbe : (![1, 0, 0] : V) ⨯₃ ![0, 0, -1] ≠ 0 := by
    intro h; have := congrFun h 1; simp [cross_apply] at this
  have key : ∀ u : V, IsUnit3 u → IsUnit3 (if inv then ![mulV rmat u 0, mulV rmat u 1, -mulV rmat u 2] else mulV rmat u) := by
    intro u hu
    have h1 : IsUnit3 (mulV rmat u) := by
      rw [IsUnit3, ← dot_eq, dot_mulV_mulV hr.1, dot_eq]; exact hu
    cases inv
    · simpa using h1
    · have := unit_entries h1
      rw [IsUnit3, ← dot_eq]
      simp [dot]
      linarith
  cases src
  · exact key _ (anglesToDvec_twoTheta hbe hb isRotation_one _ _ _ _).1
  · exact key _ (anglesToGvec_bragg hbe hb isRotation_one _ _ _ _).1
  · exact key _ (hv rfl)

theorem stereo_some {s : V} (h : 1 - s 2 ≠ 0) :
    projectPoint .stereographic s = some (s 0 / (1 - s 2), s 1 / (1 - s 2)) := if_neg h

/-- C87: the stereographic projection sends every point of the sphere but the pole to the point of the equatorial
plane on the line from the pole. -/
theorem stereo_iff {s : V} (hs : IsUnit3 s) (q : ℝ × ℝ) :
    projectPoint .stereographic s = some q ↔ s ≠ ![0, 0, 1] ∧ Stereographic s q := by
  have hu := unit_entries hs
  have hpole : s = ![0, 0, 1] ↔ 1 - s 2 = 0 := by
    constructor
    · rintro rfl; simp
    · intro h
      have h2 : s 2 = 1 := by linarith
      rw [h2] at hu
      have h0 : s 0 = 0 := by nlinarith [sq_nonneg (s 0), sq_nonneg (s 1)]
      have h1 : s 1 = 0 := by nlinarith [sq_nonneg (s 0), sq_nonneg (s 1)]
      ext i; fin_cases i <;> simp [h0, h1, h2]
  simp only [projectPoint, ne_eq, hpole]
  by_cases h : 1 - s 2 = 0
  · simp [h]
  · simp only [h, if_false, Option.some.injEq, not_false_eq_true, true_and]
    constructor
    · rintro rfl
      refine ⟨1 / (1 - s 2), ?_⟩
      ext i
      simp only [Pi.add_apply, Pi.smul_apply, Pi.sub_apply]
      fin_cases i <;> simp <;> field_simp
      ring
    · rintro ⟨t, ht⟩
      have e0 := congrFun ht 0
      have e1 := congrFun ht 1
      have e2 := congrFun ht 2
      simp only [Pi.add_apply, Pi.smul_apply, Pi.sub_apply] at e0 e1 e2
      simp at e0 e1 e2
      have et : t = 1 / (1 - s 2) := by rw [eq_div_iff h]; linarith
      ext
      · rw [← e0, et]; ring
      · rw [← e1, et]; ring

/-- C87: the stereographic projection is one-to-one onto the plane. -/
theorem stereo_bijective (q : ℝ × ℝ) : ∃! s : V, IsUnit3 s ∧ projectPoint .stereographic s = some q := by
  obtain ⟨x, y⟩ := q
  have hn : (0 : ℝ) < x ^ 2 + y ^ 2 + 1 := by positivity
  refine ⟨![2 * x / (x ^ 2 + y ^ 2 + 1), 2 * y / (x ^ 2 + y ^ 2 + 1), (x ^ 2 + y ^ 2 - 1) / (x ^ 2 + y ^ 2 + 1)],
    ⟨?_, ?_⟩, ?_⟩
  · rw [IsUnit3, ← dot_eq]
    simp [dot]
    field_simp
    ring
  · have e : 1 - (x ^ 2 + y ^ 2 - 1) / (x ^ 2 + y ^ 2 + 1) = 2 / (x ^ 2 + y ^ 2 + 1) := by field_simp; ring
    rw [stereo_some (by simp only [Matrix.cons_val]; rw [e]; positivity)]
    simp only [Matrix.cons_val_zero, Matrix.cons_val_one, Matrix.cons_val, Option.some.injEq, Prod.mk.injEq]
    rw [e]
    constructor <;> field_simp
  · rintro s ⟨hs, h⟩
    have hu := unit_entries hs
    simp only [projectPoint] at h
    split at h
    · simp at h
    · rename_i hz
      simp only [Option.some.injEq, Prod.mk.injEq] at h
      obtain ⟨hx, hy⟩ := h
      rw [div_eq_iff hz] at hx hy
      have h2 : s 2 = (x ^ 2 + y ^ 2 - 1) / (x ^ 2 + y ^ 2 + 1) := by
        rw [eq_div_iff hn.ne']
        have : (1 - s 2) * ((x ^ 2 + y ^ 2) * (1 - s 2) - (1 + s 2)) = 0 := by
          rw [hx, hy] at hu; linear_combination hu
        rcases mul_eq_zero.1 this with h' | h'
        · exact absurd h' hz
        · linarith
      have h3 : 1 - s 2 = 2 / (x ^ 2 + y ^ 2 + 1) := by rw [h2]; field_simp; ring
      ext i
      fin_cases i
      · simp [hx, h3]; ring
      · simp [hy, h3]; ring
      · simp [h2]

/-- C87: points at or below the equator go to the unit disk. -/
theorem stereo_disk {s : V} (hs : IsUnit3 s) {q : ℝ × ℝ} (h : projectPoint .stereographic s = some q) :
    s 2 ≤ 0 ↔ q.1 ^ 2 + q.2 ^ 2 ≤ 1 := by
  have hu := unit_entries hs
  simp only [projectPoint] at h
  split at h
  · simp at h
  · rename_i hz
    simp only [Option.some.injEq] at h
    have hlt : 0 < 1 - s 2 := by
      have : s 2 ≤ 1 := by nlinarith [sq_nonneg (s 0), sq_nonneg (s 1)]
      exact lt_of_le_of_ne (by linarith) (Ne.symm hz)
    have e : q.1 ^ 2 + q.2 ^ 2 = (1 + s 2) / (1 - s 2) := by
      rw [← h]
      simp only
      rw [eq_div_iff hz]
      field_simp
      linear_combination hu
    rw [e, div_le_one hlt]
    constructor <;> intro <;> linarith

theorem sq_root_lt {x y : ℝ} (h : tenEpsf ^ 2 < x ^ 2 + y ^ 2) : ¬ √(x ^ 2 + y ^ 2 + 0 ^ 2) ≤ tenEpsf := by
  have ht : 0 ≤ tenEpsf := by unfold tenEpsf; positivity
  rw [not_le, Real.lt_sqrt ht]
  linarith

theorem unit2_eq {x y : ℝ} (h : tenEpsf ^ 2 < x ^ 2 + y ^ 2) :
    unit2 x y = (x / √(x ^ 2 + y ^ 2), y / √(x ^ 2 + y ^ 2)) := by
  have := sq_root_lt h
  simp only [unit2]
  rw [if_neg this]
  simp

theorem equalArea_eq (s : V) : projectPoint .equalArea s =
    some ((unit2 (s 0) (s 1)).1 * √(s 0 ^ 2 + s 1 ^ 2 + (s 2 + 1) ^ 2),
      (unit2 (s 0) (s 1)).2 * √(s 0 ^ 2 + s 1 ^ 2 + (s 2 + 1) ^ 2)) := rfl

/-- C87: the equal-area projection keeps the azimuth, and the squared radius is twice the height above the lower
pole, so that a zone of the sphere and its image have the same area. -/
theorem equalArea_point {s : V} (hs : IsUnit3 s) (hp : tenEpsf ^ 2 < s 0 ^ 2 + s 1 ^ 2) :
    ∃ q, projectPoint .equalArea s = some q ∧ Azimuthal s √(2 * (1 + s 2)) q := by
  have hu := unit_entries hs
  have ht : 0 ≤ tenEpsf := by unfold tenEpsf; positivity
  have hpos : 0 < s 0 ^ 2 + s 1 ^ 2 := lt_of_le_of_lt (sq_nonneg _) hp
  have hz : 0 < 1 + s 2 := by nlinarith
  have hscl : s 0 ^ 2 + s 1 ^ 2 + (s 2 + 1) ^ 2 = 2 * (1 + s 2) := by linear_combination hu
  have hs2 : √(2 * (1 + s 2)) ^ 2 = 2 * (1 + s 2) := Real.sq_sqrt (by linarith)
  have hr : 0 < √(s 0 ^ 2 + s 1 ^ 2) := Real.sqrt_pos.2 hpos
  have hr2 : √(s 0 ^ 2 + s 1 ^ 2) ^ 2 = s 0 ^ 2 + s 1 ^ 2 := Real.sq_sqrt hpos.le
  refine ⟨(s 0 / √(s 0 ^ 2 + s 1 ^ 2) * √(2 * (1 + s 2)), s 1 / √(s 0 ^ 2 + s 1 ^ 2) * √(2 * (1 + s 2))), ?_, ?_,
    √(2 * (1 + s 2)) / √(s 0 ^ 2 + s 1 ^ 2), ?_, ?_, ?_⟩
  · rw [equalArea_eq, unit2_eq hp, hscl]
  · simp only
    field_simp
    rw [hr2]
  · exact div_pos (Real.sqrt_pos.2 (by linarith)) hr
  · simp only; ring
  · simp only; ring

/-- C87: half the difference of the squared radii of two projected points is the difference of their heights: the
area, per unit of azimuth, of the ring between them is that of the zone of the sphere between them. -/
theorem equalArea_zone {s s' : V} (hs : IsUnit3 s) (hs' : IsUnit3 s') (hp : tenEpsf ^ 2 < s 0 ^ 2 + s 1 ^ 2)
    (hp' : tenEpsf ^ 2 < s' 0 ^ 2 + s' 1 ^ 2) {q q' : ℝ × ℝ} (h : projectPoint .equalArea s = some q)
    (h' : projectPoint .equalArea s' = some q') :
    ((q'.1 ^ 2 + q'.2 ^ 2) - (q.1 ^ 2 + q.2 ^ 2)) / 2 = s' 2 - s 2 := by
  obtain ⟨q1, e, h1, -⟩ := equalArea_point hs hp
  obtain ⟨q2, e', h2, -⟩ := equalArea_point hs' hp'
  rw [h, Option.some.injEq] at e
  rw [h', Option.some.injEq] at e'
  subst e e'
  have b : -1 ≤ s 2 := by nlinarith [unit_entries hs, sq_nonneg (s 0), sq_nonneg (s 1)]
  have b' : -1 ≤ s' 2 := by nlinarith [unit_entries hs', sq_nonneg (s' 0), sq_nonneg (s' 1)]
  rw [h1, h2, Real.sq_sqrt (by linarith), Real.sq_sqrt (by linarith)]
  ring

/-- C87: away from the poles the equal-area projection is one-to-one. -/
theorem equalArea_injective {s s' : V} (hs : IsUnit3 s) (hs' : IsUnit3 s') (hp : tenEpsf ^ 2 < s 0 ^ 2 + s 1 ^ 2)
    (hp' : tenEpsf ^ 2 < s' 0 ^ 2 + s' 1 ^ 2) (h : projectPoint .equalArea s = projectPoint .equalArea s') : s = s' := by
  obtain ⟨q, e, h1, c, hc, e0, e1⟩ := equalArea_point hs hp
  obtain ⟨q', e', h2, c', hc', e0', e1'⟩ := equalArea_point hs' hp'
  have hz := equalArea_zone hs hs' hp hp' e e'
  rw [e, e', Option.some.injEq] at h
  subst h
  have h2 : s 2 = s' 2 := by linarith
  have hu := unit_entries hs
  have hu' := unit_entries hs'
  have hpos : 0 < s 0 ^ 2 + s 1 ^ 2 := lt_of_le_of_lt (sq_nonneg _) hp
  have hcc : c ^ 2 = c' ^ 2 := by
    have a1 : q.1 ^ 2 + q.2 ^ 2 = c ^ 2 * (s 0 ^ 2 + s 1 ^ 2) := by rw [e0, e1]; ring
    have a2 : q.1 ^ 2 + q.2 ^ 2 = c' ^ 2 * (s' 0 ^ 2 + s' 1 ^ 2) := by rw [e0', e1']; ring
    have a3 : s 0 ^ 2 + s 1 ^ 2 = s' 0 ^ 2 + s' 1 ^ 2 := by rw [h2] at hu; linarith
    rw [← a3] at a2
    exact mul_right_cancel₀ hpos.ne' (a1.symm.trans a2)
  have hce : c = c' := by rcases sq_eq_sq_iff_eq_or_eq_neg.1 hcc with h | h <;> linarith
  subst hce
  ext i
  fin_cases i
  · exact mul_left_cancel₀ hc.ne' (e0.symm.trans e0')
  · exact mul_left_cancel₀ hc.ne' (e1.symm.trans e1')
  · exact h2

/-- C87 fails at the pole: the equal-area projection sends both poles to the origin, while points close to the upper
pole go to points close to the circle of radius two. -/
theorem equalArea_poles : projectPoint .equalArea ![0, 0, 1] = some (0, 0) ∧
    projectPoint .equalArea ![0, 0, -1] = some (0, 0) := by
  constructor <;> simp [projectPoint, unit2]

theorem default_dvec (tth eta : ℝ) : spherePoint .d 0 1 false ![tth, eta, 0] =
    ![Real.sin tth * Real.cos eta, Real.sin tth * Real.sin eta, -Real.cos tth] := by
  simp only [spherePoint, anglesToDvec, default_frame, toCrystal_eq, Matrix.cons_val_zero, Matrix.cons_val_one,
    Matrix.cons_val, Bool.false_eq_true, if_false]
  ext i
  fin_cases i <;> simp [mulV, mulTV, sampleRmat]

/-- C87: with the stereographic projection, diffraction directions of the same two-theta lie on a circle about the
origin, of radius `tan (tth / 2)`, at their azimuths. -/
theorem stereo_twoTheta {tth : ℝ} (h0 : 0 ≤ tth) (h1 : tth < Real.pi) (eta : ℝ) :
    projectPoint .stereographic (spherePoint .d 0 1 false ![tth, eta, 0]) =
      some (Real.tan (tth / 2) * Real.cos eta, Real.tan (tth / 2) * Real.sin eta) := by
  have hc : 0 < Real.cos (tth / 2) := Real.cos_pos_of_mem_Ioo ⟨by linarith [Real.pi_pos], by linarith⟩
  have e1 : Real.sin tth = 2 * Real.sin (tth / 2) * Real.cos (tth / 2) := by
    rw [← Real.sin_two_mul]; congr 1; ring
  have e2 : 1 - -Real.cos tth = 2 * Real.cos (tth / 2) ^ 2 := by
    have := Real.cos_two_mul (tth / 2)
    rw [show 2 * (tth / 2) = tth by ring] at this
    rw [this]; ring
  rw [default_dvec]
  rw [stereo_some (by simp only [Matrix.cons_val]; rw [e2]; positivity)]
  simp only [Matrix.cons_val_zero, Matrix.cons_val_one, Matrix.cons_val, Option.some.injEq, Prod.mk.injEq]
  rw [e2, Real.tan_eq_sin_div_cos, e1]
  constructor <;> field_simp

/-- C87: with the equal-area projection, the radius is `2 sin (tth / 2)`. -/
theorem equalArea_twoTheta {tth : ℝ} (h0 : 0 ≤ tth) (h1 : tth ≤ Real.pi) (h : tenEpsf < Real.sin tth) (eta : ℝ) :
    projectPoint .equalArea (spherePoint .d 0 1 false ![tth, eta, 0]) =
      some (2 * Real.sin (tth / 2) * Real.cos eta, 2 * Real.sin (tth / 2) * Real.sin eta) := by
  have ht : 0 ≤ tenEpsf := by unfold tenEpsf; positivity
  have hsp : 0 < Real.sin tth := lt_of_le_of_lt ht h
  have he := Real.sin_sq_add_cos_sq eta
  have e0 : (Real.sin tth * Real.cos eta) ^ 2 + (Real.sin tth * Real.sin eta) ^ 2 = Real.sin tth ^ 2 := by
    linear_combination Real.sin tth ^ 2 * he
  have e1 : √((Real.sin tth * Real.cos eta) ^ 2 + (Real.sin tth * Real.sin eta) ^ 2) = Real.sin tth := by
    rw [e0, Real.sqrt_sq hsp.le]
  have e2 : √((Real.sin tth * Real.cos eta) ^ 2 + (Real.sin tth * Real.sin eta) ^ 2 + (-Real.cos tth + 1) ^ 2) =
      2 * Real.sin (tth / 2) := by
    have := Real.cos_two_mul (tth / 2)
    rw [show 2 * (tth / 2) = tth by ring] at this
    have h3 := Real.sin_sq_add_cos_sq tth
    have h4 := Real.sin_sq_add_cos_sq (tth / 2)
    have hs : 0 ≤ Real.sin (tth / 2) := Real.sin_nonneg_of_nonneg_of_le_pi (by linarith) (by linarith)
    rw [e0, show Real.sin tth ^ 2 + (-Real.cos tth + 1) ^ 2 = (2 * Real.sin (tth / 2)) ^ 2 by
      linear_combination h3 - 2 * this - 4 * h4, Real.sqrt_sq (by linarith)]
  rw [default_dvec]
  rw [equalArea_eq]
  simp only [Matrix.cons_val_zero, Matrix.cons_val_one, Matrix.cons_val]
  rw [unit2_eq (by rw [e0]; nlinarith), e1, e2]
  simp only [Option.some.injEq, Prod.mk.injEq]
  constructor <;> field_simp

/-- C87: the mask keeps, in their order, the points whose third coordinate is not positive, and says for every point
whether it was kept. -/
theorem zproject_mask (m : Method) (src : Source) (chi : ℝ) (rmat : M) (inv : Bool) (vs : List V) :
    (zproject m src chi rmat inv true vs).1 =
      ((vs.filter fun v => decide (spherePoint src chi rmat inv v 2 ≤ 0)).map fun v =>
        projectPoint m (spherePoint src chi rmat inv v)) ∧
    (zproject m src chi rmat inv true vs).2 = vs.map fun v => decide (spherePoint src chi rmat inv v 2 ≤ 0) := by
  simp only [zproject, if_true, List.map_map]
  refine ⟨?_, rfl⟩
  have := select_map (spherePoint src chi rmat inv) (fun v => decide (spherePoint src chi rmat inv v 2 ≤ 0)) vs
  rw [show ((fun p : V => decide (p 2 ≤ 0)) ∘ spherePoint src chi rmat inv) =
    fun v => decide (spherePoint src chi rmat inv v 2 ≤ 0) from rfl, this, List.map_map]
  rfl

/-- C87: without the mask every point is projected. -/
theorem zproject_all (m : Method) (src : Source) (chi : ℝ) (rmat : M) (inv : Bool) (vs : List V) :
    (zproject m src chi rmat inv false vs).1 = vs.map fun v => projectPoint m (spherePoint src chi rmat inv v) := by
  simp [zproject]

/-- C87: of diffraction directions in the laboratory the mask keeps those in the forward half space. -/
theorem mask_forward {tth : ℝ} (h0 : 0 ≤ tth) (h1 : tth ≤ Real.pi) (eta : ℝ) :
    spherePoint .d 0 1 false ![tth, eta, 0] 2 ≤ 0 ↔ tth ≤ Real.pi / 2 := by
  rw [default_dvec]
  simp only [Matrix.cons_val]
  constructor
  · intro h
    by_contra hn
    have := Real.cos_neg_of_pi_div_two_lt_of_lt (not_le.1 hn) (by linarith [Real.pi_pos])
    linarith
  · intro h
    have := Real.cos_nonneg_of_mem_Icc (x := tth) ⟨by linarith [Real.pi_pos], h⟩
    linarith

/-- C87 fails for vectors: the documentation says that the mask trims points that are not on the upper hemisphere,
and it trims the upper pole and keeps the lower one. -/
theorem mask_lower : (zproject .stereographic .g 0 1 false true [![0, 0, 1], ![0, 0, -1]]).2 = [false, true] := by
  rw [(zproject_mask _ _ _ _ _ _).2]
  simp [spherePoint, mulV]
  norm_num

/-- C87: the array that was passed is left as it was, unless vectors in the sample frame are given without a change
of basis and with inverted third coordinates. -/
theorem input_kept_partial (src : Source) (rmat : Option M) (inv : Bool) (vs : List V)
    (h : src ≠ .g ∨ rmat ≠ none ∨ inv = false) : inputAfter src rmat inv vs = vs := by
  unfold inputAfter
  split
  · simp at h
  · rfl

/-- C87 fails in that case: the caller's array is changed. -/
theorem input_changed : inputAfter .g none true [![0, 0, 1]] = [![0, 0, -1]] := by
  simp [inputAfter]

/-! ## C88: angular patches -/

open Hexrd.Grid Hexrd.Grid.Spec in
/-- The edges of a tolerance grid in closed form, and its cells are no wider than the bin over the subdivisions. -/
theorem tolerance_edges {b w : ℝ} (hb : 0 < b) (hw : 0 < w) {s : Nat} (hs : 0 < s) :
    ∃ n, 0 < n ∧ makeToleranceGrid b w s false false =
      (n, (List.range (n + 1)).map fun (k : Nat) => (k : ℝ) * w / n - 1 / 2 * w) ∧ s * (w / n) ≤ min b w := by
  have hm := lt_min hb hw
  have hn := ndiv_two_sided hm hw s
  have h0 := (grid_two_sided hb hw hs false).1
  refine ⟨(makeToleranceGrid b w s false false).1, h0, rfl, ?_⟩
  have hn' : ((makeToleranceGrid b w s false false).1 : ℝ) = s * (⌈w / min b w⌉ : ℝ) := hn
  have hc : (0 : ℝ) < (⌈w / min b w⌉ : ℝ) := by exact_mod_cast (ceil_quot_pos hb hw)
  have hs' : (0 : ℝ) < s := by exact_mod_cast hs
  rw [hn']
  have h1 := Int.le_ceil (w / min b w)
  rw [div_le_iff₀ hm] at h1
  have e : (s : ℝ) * (w / (s * (⌈w / min b w⌉ : ℝ))) = w / (⌈w / min b w⌉ : ℝ) := by field_simp
  rw [e, div_le_iff₀ hc]
  linarith

theorem radians_degrees (x : ℝ) : radians (degrees x) = x := by
  unfold radians degrees
  have := Real.pi_pos.ne'
  field_simp

open Hexrd.Grid Hexrd.Grid.Spec in
/-- C88: a patch is a grid of cells about the angles of the reflection.  Its vertices run in even steps through the
tolerance, half of it to each side; the evaluation points are the middles of the cells; row by row of the azimuth;
and no cell is larger than the angular pixel size over the number of subdivisions. -/
theorem patch_grid (angs : ℝ × ℝ) {pix : ℝ × ℝ} (h1 : 0 < pix.1) (h2 : 0 < pix.2) {tthTol etaTol : ℝ} (ht : 0 < tthTol)
    (he : 0 < etaTol) {npdiv : Nat} (hd : 0 < npdiv) :
    ∃ n m : Nat, 0 < n ∧ 0 < m ∧ (makePatch angs pix tthTol etaTol npdiv).ntth = n ∧
      (makePatch angs pix tthTol etaTol npdiv).neta = m ∧
      (makePatch angs pix tthTol etaTol npdiv).vertices.length = (m + 1) * (n + 1) ∧
      (makePatch angs pix tthTol etaTol npdiv).centres.length = m * n ∧
      (∀ i j : Nat, i ≤ m → j ≤ n → (makePatch angs pix tthTol etaTol npdiv).vertices[i * (n + 1) + j]? =
        some (angs.1 + radians (tthTol * (j / n - 1 / 2)), angs.2 + radians (etaTol * (i / m - 1 / 2)))) ∧
      (∀ i j : Nat, i < m → j < n → (makePatch angs pix tthTol etaTol npdiv).centres[i * n + j]? =
        some (angs.1 + radians (tthTol * ((j + 1 / 2) / n - 1 / 2)),
          angs.2 + radians (etaTol * ((i + 1 / 2) / m - 1 / 2)))) ∧
      radians (tthTol / n) ≤ pix.1 / npdiv ∧ radians (etaTol / m) ≤ pix.2 / npdiv := by
  have hpi := Real.pi_pos
  have hdeg : ∀ {x : ℝ}, 0 < x → 0 < degrees x := by intro x hx; unfold degrees; positivity
  have hd' : (0 : ℝ) < npdiv := by exact_mod_cast hd
  obtain ⟨n, hn, en, bn⟩ := tolerance_edges (hdeg h1) ht hd
  obtain ⟨m, hm, em, bm⟩ := tolerance_edges (hdeg h2) he hd
  have hn' : (0 : ℝ) < n := by exact_mod_cast hn
  have hm' : (0 : ℝ) < m := by exact_mod_cast hm
  have hpt : (makePatch angs pix tthTol etaTol npdiv) =
      let vs := ((List.range (m + 1)).map fun (k : Nat) => (k : ℝ) * etaTol / m - 1 / 2 * etaTol).flatMap fun e =>
        ((List.range (n + 1)).map fun (k : Nat) => (k : ℝ) * tthTol / n - 1 / 2 * tthTol).map fun t =>
          (angs.1 + radians t, angs.2 + radians e)
      ⟨n, m, vs, (cellConnectivity m n 1 .ll).map fun c => cellCentroid (fun k => vs.getD k (0, 0)) c⟩ := by
    simp only [makePatch, en, em]
  rw [hpt]
  have hv : ∀ i j : Nat, i ≤ m → j ≤ n →
      (((List.range (m + 1)).map fun (k : Nat) => (k : ℝ) * etaTol / m - 1 / 2 * etaTol).flatMap fun e =>
        ((List.range (n + 1)).map fun (k : Nat) => (k : ℝ) * tthTol / n - 1 / 2 * tthTol).map fun t =>
          (angs.1 + radians t, angs.2 + radians e))[i * (n + 1) + j]? =
      some (angs.1 + radians (tthTol * (j / n - 1 / 2)), angs.2 + radians (etaTol * (i / m - 1 / 2))) := by
    intro i j hi hj
    rw [flatMap_getElem? _ _ (n + 1) (by simp) _ _ (by omega), List.getElem?_map, List.getElem?_range (by omega)]
    simp only [Option.map_some, Option.bind_some, List.getElem?_map]
    rw [List.getElem?_range (by omega)]
    simp only [Option.map_some, Option.some.injEq, Prod.mk.injEq]
    constructor <;> (congr 2; ring)
  refine ⟨n, m, hn, hm, rfl, rfl, ?_, ?_, hv, ?_, ?_, ?_⟩
  · simp only
    rw [flatMap_length_const _ _ (n + 1) (by simp)]
    simp
  · simp only [List.length_map, conn_length]
  · intro i j hi hj
    simp only [List.getElem?_map]
    rw [conn_ll, List.getElem?_map, conn_cell m n hi hj]
    simp only [Option.map_some, Option.some.injEq]
    have hne : (corners m n 0 i j).reverse ≠ [] := by simp [corners]
    have key := centroid_mean (fun k => ((((List.range (m + 1)).map fun (k : Nat) => (k : ℝ) * etaTol / m - 1 / 2 * etaTol).flatMap fun e =>
        ((List.range (n + 1)).map fun (k : Nat) => (k : ℝ) * tthTol / n - 1 / 2 * tthTol).map fun t =>
          (angs.1 + radians t, angs.2 + radians e)).getD k (0, 0))) hne
    have g : ∀ a b : Nat, a ≤ m → b ≤ n → (((List.range (m + 1)).map fun (k : Nat) => (k : ℝ) * etaTol / m - 1 / 2 * etaTol).flatMap fun e =>
        ((List.range (n + 1)).map fun (k : Nat) => (k : ℝ) * tthTol / n - 1 / 2 * tthTol).map fun t =>
          (angs.1 + radians t, angs.2 + radians e)).getD (node m n 0 a b) (0, 0) =
        (angs.1 + radians (tthTol * (b / n - 1 / 2)), angs.2 + radians (etaTol * (a / m - 1 / 2))) := by
      intro a b ha hb
      rw [List.getD_eq_getElem?_getD, show node m n 0 a b = a * (n + 1) + b by simp [node], hv a b ha hb]
      rfl
    simp only [corners, List.reverse_cons, List.reverse_nil, List.nil_append, List.cons_append, List.map_cons,
      List.map_nil, List.sum_cons, List.sum_nil, List.length_cons, List.length_nil,
      g i j hi.le hj.le, g i (j + 1) hi.le hj, g (i + 1) j hi hj.le, g (i + 1) (j + 1) hi hj] at key
    obtain ⟨k1, k2⟩ := key
    push_cast at k1 k2
    simp only [corners, List.reverse_cons, List.reverse_nil, List.nil_append, List.cons_append]
    ext
    · rw [← mul_right_inj' (by norm_num : (4 : ℝ) ≠ 0), k1]
      unfold radians
      field_simp
      ring
    · rw [← mul_right_inj' (by norm_num : (4 : ℝ) ≠ 0), k2]
      unfold radians
      field_simp
      ring
  · have := bn.trans (min_le_left _ _)
    rw [le_div_iff₀ hd']
    unfold radians degrees at *
    rw [le_div_iff₀ hpi] at this
    linarith
  · have := bm.trans (min_le_left _ _)
    rw [le_div_iff₀ hd']
    unfold radians degrees at *
    rw [le_div_iff₀ hpi] at this
    linarith

open Hexrd.Grid Hexrd.Grid.Spec in
/-- C88: for square pixels the indices of an evaluation point are those of the pixel that contains it. -/
theorem patch_pixel_partial {p : Detector.Panel} (hsq : p.psr = p.psc) (hz : 2 * ztol < p.psc) {i j : Int}
    {x y : ℝ} (hi : 0 ≤ i ∧ i < p.rows) (hj : 0 ≤ j ∧ j < p.cols)
    (h : Detector.Spec.InPixel p.rows p.cols p.psr p.psc i j x y) : patchPixel p (x, y) = some (i, j) := by
  have hzt := ztol_pos
  obtain ⟨h1, h2, h3, h4⟩ := h
  obtain ⟨r, hr⟩ : ∃ r, p.rows = r + 1 := ⟨p.rows - 1, by omega⟩
  obtain ⟨c, hc⟩ : ∃ c, p.cols = c + 1 := ⟨p.cols - 1, by omega⟩
  have e1 : rowEdges p = edges (r + 1) (p.rows * p.psc / 2) (-p.psc) := by
    unfold rowEdges edges
    rw [← hr]
    apply List.map_congr_left
    intro k _
    rw [hsq]; ring
  have e2 : colEdges p = edges (c + 1) (-(p.cols * p.psc / 2)) p.psc := by
    unfold colEdges edges
    rw [← hc]
    apply List.map_congr_left
    intro k _
    rw [hsq]; ring
  have i0 : (0 : ℝ) ≤ i := by exact_mod_cast hi.1
  have j0 : (0 : ℝ) ≤ j := by exact_mod_cast hj.1
  have i1 : (i : ℝ) + 1 ≤ p.rows := by exact_mod_cast hi.2
  have j1 : (j : ℝ) + 1 ≤ p.cols := by exact_mod_cast hj.2
  have hps : 0 < p.psc := by linarith
  rw [hsq] at h3 h4
  obtain ⟨a, ha, hal, ha1, ha2⟩ := bin_down_partial r (p.rows * p.psc / 2) y (d := -p.psc) (by linarith)
    (by nlinarith) (by rw [← hr]; nlinarith)
  obtain ⟨b, hb, hbl, hb1, hb2⟩ := bin_up_partial c (-(p.cols * p.psc / 2)) x (d := p.psc) hz.le
    (by nlinarith) (by rw [← hc]; nlinarith)
  have eai : (a : Int) = i := by
    have k1 : (a : ℝ) < i + 1 := by nlinarith
    have k2 : (i : ℝ) < a + 1 := by nlinarith
    have k1' : (a : Int) < i + 1 := by exact_mod_cast k1
    have k2' : i < (a : Int) + 1 := by exact_mod_cast k2
    omega
  have ebj : (b : Int) = j := by
    have k1 : (b : ℝ) < j + 1 := by nlinarith
    have k2 : (j : ℝ) < b + 1 := by
      rcases hb2 with hb2 | ⟨hb2, hb3⟩
      · nlinarith
      · rw [hb3, ← hc] at h2; nlinarith
    have k1' : (b : Int) < j + 1 := by exact_mod_cast k1
    have k2' : j < (b : Int) + 1 := by exact_mod_cast k2
    omega
  unfold patchPixel
  rw [e1, e2, ha, hb, eai, ebj]
  rfl

open Hexrd.Grid Hexrd.Grid.Spec in
/-- C88 fails for pixels that are not square: with rows 1 high and columns 2 wide, the middle of pixel `(0, 2)` of a
panel of four by four pixels is given the indices `(2, 4)`, which are not even on the panel. -/
theorem patch_pixel_swapped : Detector.Spec.InPixel 4 4 1 2 0 2 1 (3 / 2) ∧
    patchPixel ⟨4, 4, 1, 2⟩ (1, 3 / 2) = some (2, 4) := by
  have hz := ztol_pos
  have hz1 : ztol < 1 := by unfold ztol; norm_num
  constructor
  · unfold Detector.Spec.InPixel; norm_num
  · have e1 : rowEdges ⟨4, 4, 1, 2⟩ = edges (3 + 1) 6 (-2) := by
      unfold rowEdges edges
      apply List.map_congr_left
      intro k _
      push_cast; ring
    have e2 : colEdges ⟨4, 4, 1, 2⟩ = edges (3 + 1) (-4) 1 := by
      unfold colEdges edges
      apply List.map_congr_left
      intro k _
      push_cast; ring
    have f1 : cellIndices (edges (3 + 1) 6 (-2)) (3 / 2) = some 2 := by
      rw [cell_down 3 6 _ (by norm_num), if_neg (by push_cast; linarith)]
      norm_num
    have f2 : cellIndices (edges (3 + 1) (-4) 1) 1 = some 4 := by
      rw [cell_up 3 (-4) _ (by norm_num), if_pos (by push_cast; linarith)]
      rw [Option.some.injEq, Int.floor_eq_iff]
      constructor <;> push_cast <;> linarith
    unfold patchPixel
    rw [e1, e2, f1, f2]
    rfl

/-- A patch of 0.2 by 1 degrees with pixels of a tenth of that. -/
example : ∃ n m, (makePatch (1, 0) (radians (1 / 50), radians (1 / 10)) (1 / 5) 1 1).vertices.length = (m + 1) * (n + 1) := by
  have hpi := Real.pi_pos
  obtain ⟨n, m, -, -, -, -, h, -⟩ := patch_grid (1, 0) (pix := (radians (1 / 50), radians (1 / 10)))
    (by unfold radians; positivity) (by unfold radians; positivity) (tthTol := 1 / 5) (etaTol := 1) (by norm_num)
    (by norm_num) (npdiv := 1) one_pos
  exact ⟨n, m, h⟩

end Hexrd.Xrdutil
