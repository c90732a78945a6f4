import Verif.Props.Geometry
import Mathlib.Analysis.SpecialFunctions.Trigonometric.Complex

/-!
C49: `oscill_angles_of_hkls` returns exactly the rotations that bring a reflection into diffraction.
-/

namespace Hexrd.Transforms

open Matrix Spec

theorem applyVInv_eq (v : Fin 6 → ℝ) (g : V) : applyVInv v g = tensorOf v *ᵥ g := by
  rw [← mulV_eq]
  ext i
  fin_cases i <;> simp [applyVInv, tensorOf, mulV] <;> ring

/-- The reciprocal lattice vector of `hkl` in the sample frame, after the inverse stretch. -/
noncomputable def sampleVector (hkl : V) (rc bmat : M) (vInv : Fin 6 → ℝ) : V :=
  tensorOf vInv *ᵥ (rc *ᵥ (bmat *ᵥ hkl))

/-- The Bragg condition as the harmonic equation in omega. -/
theorem bragg_harmonic (g bh : V) (chi s ome : ℝ) :
    Bragg (sampleRmat chi ome) bh g s ↔
      (harmonic g bh chi s).1 * Real.sin ome + (harmonic g bh chi s).2.1 * Real.cos ome =
        (harmonic g bh chi s).2.2 := by
  rw [Bragg, ← mulV_eq, ← dot_eq]
  simp [dot, mulV, sampleRmat, harmonic]
  constructor <;> intro h <;> linear_combination h

/-- Solving `a sin x + b cos x = c`. -/
theorem harmonic_solve {a b c : ℝ} (h : 0 < √(a * a + b * b)) (x : ℝ) :
    a * Real.sin x + b * Real.cos x = c ↔ Real.sin (x + atan2 b a) = c / √(a * a + b * b) := by
  have hn : ‖(⟨a, b⟩ : ℂ)‖ = √(a * a + b * b) := by rw [Complex.norm_def, Complex.normSq_mk]
  have h1 : √(a * a + b * b) * Real.cos (atan2 b a) = a := by
    rw [← hn]; exact Complex.norm_mul_cos_arg ⟨a, b⟩
  have h2 : √(a * a + b * b) * Real.sin (atan2 b a) = b := by
    rw [← hn]; exact Complex.norm_mul_sin_arg ⟨a, b⟩
  rw [eq_div_iff h.ne', Real.sin_add]
  constructor <;> intro hh
  · linear_combination hh + Real.sin x * h1 + Real.cos x * h2
  · linear_combination hh - Real.sin x * h1 - Real.cos x * h2

theorem sin_eq_solutions {y r : ℝ} (h1 : -1 ≤ r) (h2 : r ≤ 1) :
    Real.sin y = r ↔ SameAngle y (Real.arcsin r) ∨ SameAngle y (Real.pi - Real.arcsin r) := by
  conv_lhs => rw [← Real.sin_arcsin h1 h2]
  rw [eq_comm, Real.sin_eq_sin_iff]
  constructor
  · rintro ⟨k, h | h⟩
    · exact Or.inl ⟨k, by rw [h]; ring⟩
    · exact Or.inr ⟨k, by rw [h]; ring⟩
  · rintro (⟨k, h⟩ | ⟨k, h⟩)
    · exact ⟨k, Or.inl (by rw [h]; ring)⟩
    · exact ⟨k, Or.inr (by rw [h]; ring)⟩

theorem sameAngle_sub {x a p : ℝ} : SameAngle (x + p) a ↔ SameAngle x (a - p) := by
  constructor <;> rintro ⟨k, h⟩ <;> exact ⟨k, by linarith⟩

/-- The reflection can be normalised, and so can the beam. -/
structure Proper (hkl : V) (rc bmat : M) (vInv : Fin 6 → ℝ) (b : V) (lam : ℝ) : Prop where
  rot : IsRotation rc
  long : epsf < √(sampleVector hkl rc bmat vInv ⬝ᵥ sampleVector hkl rc bmat vInv)
  beam : epsf < √(b ⬝ᵥ b)
  wave : 0 < lam

theorem unitRow_dir {b bh : V} (h : epsf < √(b ⬝ᵥ b)) (hb : IsDirection bh b) : (unitRow b).1 = bh := by
  rw [← dot_eq] at h
  obtain ⟨-, e⟩ := direction_eq hb
  rw [unitRow_of_gt h, e]

/-- Ewald's construction and Bragg's law agree. -/
theorem diffracts_iff {r : M} (hr : IsRotation r) {b s : V} (hb : IsUnit3 b) {lam : ℝ} (hl : 0 < lam)
    (hs : 0 < √(s ⬝ᵥ s)) :
    Diffracts r b s lam ↔ Bragg r b (fun i => s i / √(s ⬝ᵥ s)) (1 / 2 * lam * √(s ⬝ᵥ s)) := by
  have hpos : 0 < dot s s := by rw [dot_eq]; exact Real.sqrt_pos.1 hs
  have hsq := Real.mul_self_sqrt hpos.le
  rw [Diffracts, Bragg, IsUnit3, ← mulV_eq, ← mulV_eq, ← dot_eq, ← dot_eq]
  rw [IsUnit3, ← dot_eq] at hb
  rw [← dot_eq] at hs ⊢
  have hn : dot (mulV r s) (mulV r s) = dot s s := dot_mulV_mulV hr.1 _ _
  have hm : mulV r (fun i => s i / √(dot s s)) = fun i => mulV r s i / √(dot s s) := by
    ext i; fin_cases i <;> simp [mulV] <;> ring
  rw [hm]
  generalize √(dot s s) = L at *
  generalize mulV r s = w at *
  have e1 : dot (b + lam • w) (b + lam • w) = dot b b + lam * (2 * dot b w + lam * dot w w) := by
    simp [dot]; ring
  have e2 : (dot b fun i => w i / L) = dot b w / L := by simp only [dot]; ring
  rw [e1, e2, hb, hn, ← hsq, div_eq_iff hs.ne']
  constructor
  · intro h
    have : lam * (2 * dot b w + lam * (L * L)) = 0 := by linarith
    rcases mul_eq_zero.1 this with h0 | h0
    · exact absurd h0 hl.ne'
    · linarith
  · intro h
    rw [h]; ring

theorem oscillAngles_unfold {hkl : V} {chi lam : ℝ} {rc bmat : M} {vInv : Fin 6 → ℝ} {b e bh : V}
    (hp : Proper hkl rc bmat vInv b lam) (hb : IsDirection bh b) :
    oscillAngles hkl chi rc bmat lam vInv b e =
      let s := sampleVector hkl rc bmat vInv
      let g : V := fun i => s i / √(s ⬝ᵥ s)
      let sn := 1 / 2 * lam * √(s ⬝ᵥ s)
      let h := harmonic g bh chi sn
      let m := √(h.1 * h.1 + h.2.1 * h.2.1)
      if ¬ 0 < m then none else
      if |h.2.2 / m| > 1 then some none else
      some (some (oscOf g bh (unitRow e).1 chi sn (Real.arcsin (h.2.2 / m) - atan2 h.2.1 h.1),
        oscOf g bh (unitRow e).1 chi sn (Real.pi - Real.arcsin (h.2.2 / m) - atan2 h.2.1 h.1))) := by
  have h1 : applyVInv vInv (mulV rc (mulV bmat hkl)) = sampleVector hkl rc bmat vInv := by
    rw [applyVInv_eq, mulV_eq, mulV_eq]; rfl
  have h2 : dot (mulTV rc (sampleVector hkl rc bmat vInv)) (mulTV rc (sampleVector hkl rc bmat vInv)) =
      sampleVector hkl rc bmat vInv ⬝ᵥ sampleVector hkl rc bmat vInv := by
    rw [dot_mulTV_mulTV hp.rot.1, dot_eq]
  unfold oscillAngles
  simp only [h1, h2, unitRow_dir hp.beam hb, if_pos hp.long]

theorem oscOf_ome (g bh eh : V) (chi s ome : ℝ) : (oscOf g bh eh chi s ome).ome = ome := by
  unfold oscOf; split <;> rfl

/-- C49: when two triplets are returned, the reflection diffracts at an angle omega exactly if omega is, up to
whole turns, one of the two returned. -/
theorem oscill_exact {hkl : V} {chi lam : ℝ} {rc bmat : M} {vInv : Fin 6 → ℝ} {b e bh : V}
    (hp : Proper hkl rc bmat vInv b lam) (hb : IsDirection bh b) {p q : Osc}
    (h : oscillAngles hkl chi rc bmat lam vInv b e = some (some (p, q))) (ome : ℝ) :
    Diffracts (sampleRmat chi ome) bh (sampleVector hkl rc bmat vInv) lam ↔
      SameAngle ome p.ome ∨ SameAngle ome q.ome := by
  rw [oscillAngles_unfold hp hb] at h
  rw [diffracts_iff (sampleRmat_isRotation chi ome) hb.1 hp.wave (epsf_pos.trans hp.long), bragg_harmonic]
  simp only at h
  generalize harmonic _ bh chi _ = k at *
  split at h
  · simp at h
  · rename_i hm
    rw [not_not] at hm
    split at h
    · simp at h
    · rename_i hr
      push Not at hr
      rw [abs_le] at hr
      simp only [Option.some.injEq, Prod.mk.injEq] at h
      rw [harmonic_solve hm, sin_eq_solutions hr.1 hr.2, sameAngle_sub, sameAngle_sub, ← h.1, ← h.2,
        oscOf_ome, oscOf_ome]

/-- C49: a row of NaNs means that the reflection never diffracts. -/
theorem oscill_nan {hkl : V} {chi lam : ℝ} {rc bmat : M} {vInv : Fin 6 → ℝ} {b e bh : V}
    (hp : Proper hkl rc bmat vInv b lam) (hb : IsDirection bh b)
    (h : oscillAngles hkl chi rc bmat lam vInv b e = some none) (ome : ℝ) :
    ¬ Diffracts (sampleRmat chi ome) bh (sampleVector hkl rc bmat vInv) lam := by
  rw [oscillAngles_unfold hp hb] at h
  rw [diffracts_iff (sampleRmat_isRotation chi ome) hb.1 hp.wave (epsf_pos.trans hp.long), bragg_harmonic]
  simp only at h
  generalize harmonic _ bh chi _ = k at *
  split at h
  · simp at h
  · rename_i hm
    rw [not_not] at hm
    split at h
    · rename_i hr
      rw [harmonic_solve hm]
      intro h0
      rw [← h0] at hr
      exact absurd (Real.abs_sin_le_one _) (not_le.2 hr)
    · simp at h

/-- C49: the failed assertion means that rotating the sample does not matter: the reflection diffracts always or
never. -/
theorem oscill_assert {hkl : V} {chi lam : ℝ} {rc bmat : M} {vInv : Fin 6 → ℝ} {b e bh : V}
    (hp : Proper hkl rc bmat vInv b lam) (hb : IsDirection bh b)
    (h : oscillAngles hkl chi rc bmat lam vInv b e = none) (ome ome' : ℝ) :
    Diffracts (sampleRmat chi ome) bh (sampleVector hkl rc bmat vInv) lam ↔
      Diffracts (sampleRmat chi ome') bh (sampleVector hkl rc bmat vInv) lam := by
  rw [oscillAngles_unfold hp hb] at h
  rw [diffracts_iff (sampleRmat_isRotation chi ome) hb.1 hp.wave (epsf_pos.trans hp.long), bragg_harmonic,
    diffracts_iff (sampleRmat_isRotation chi ome') hb.1 hp.wave (epsf_pos.trans hp.long), bragg_harmonic]
  simp only at h
  generalize harmonic _ bh chi _ = k at *
  split at h
  · rename_i hm
    have h0 : k.1 * k.1 + k.2.1 * k.2.1 = 0 := by
      by_contra h0
      exact hm (Real.sqrt_pos.2 (lt_of_le_of_ne (by nlinarith [mul_self_nonneg k.1, mul_self_nonneg k.2.1])
        (Ne.symm h0)))
    have h1 : k.1 = 0 := by nlinarith [mul_self_nonneg k.1, mul_self_nonneg k.2.1]
    have h2 : k.2.1 = 0 := by nlinarith [mul_self_nonneg k.1, mul_self_nonneg k.2.1]
    rw [h1, h2]; simp
  · split at h <;> simp at h

theorem direction_frame {b e bh eh : V} {r : M} (hb : IsDirection bh b) (he : IsDirection eh e)
    (h : IsBeamFrame bh eh r) : IsBeamFrame b e r := by
  obtain ⟨hr, h1, h2, h3⟩ := h
  obtain ⟨-, c, hc, rfl⟩ := hb
  obtain ⟨-, c', hc', rfl⟩ := he
  obtain ⟨hu, d, hd, e⟩ := h1
  refine ⟨hr, ⟨hu, c * d, mul_pos hc hd, by rw [e, smul_smul]⟩, ?_, ?_⟩
  · rw [smul_dotProduct, h2]; simp
  · rw [smul_dotProduct]; simp; exact mul_pos hc' h3

/-- Beam and azimuth reference that pass the check have a frame. -/
theorem frame_of_crc {bh eh : V} (hb : IsUnit3 bh) (he : IsUnit3 eh) (h : |bh ⬝ᵥ eh| < 1 - sqrtEpsf) :
    ∃ r, beamRmat bh eh = some r := by
  rw [← Option.ne_none_iff_exists', Ne, beamRmat_refused_iff]
  have hp := sqrtEpsf_pos
  have hc : eh ⨯₃ bh = cross eh bh := by rw [cross_apply]; rfl
  rw [IsUnit3, ← dot_eq] at hb he
  rw [hc, ← dot_eq, ← dot_eq, hb, Real.sqrt_one, dot_cross_self, hb, he, dot_comm]
  rw [← dot_eq] at h
  have e1 : epsf < 1 := by unfold epsf; norm_num
  have e2 : epsf < sqrtEpsf := by unfold epsf sqrtEpsf; norm_num
  have e3 : sqrtEpsf < 1 := by unfold sqrtEpsf; norm_num
  rintro (h0 | h0)
  · linarith
  · have h2 : dot bh eh ^ 2 ≤ (1 - sqrtEpsf) ^ 2 := by
      rw [← sq_abs]; exact pow_le_pow_left₀ (abs_nonneg _) h.le 2
    have h4 : sqrtEpsf ^ 2 ≤ 1 * 1 - dot bh eh ^ 2 := by nlinarith
    have h5 := Real.sqrt_le_sqrt h4
    rw [Real.sqrt_sq hp.le] at h5
    linarith

theorem oscOf_describe {bh eh g : V} (hb : IsUnit3 bh) (he : IsUnit3 eh) (h : |bh ⬝ᵥ eh| < 1 - sqrtEpsf)
    (hg : IsUnit3 g) {chi s ome : ℝ} (hs : 0 ≤ s) (hbr : Bragg (sampleRmat chi ome) bh g s) :
    ∃ tth eta r, beamRmat bh eh = some r ∧ (oscOf g bh eh chi s ome).tTh = some tth ∧
      (oscOf g bh eh chi s ome).eta = some eta ∧ (0 ≤ tth ∧ tth ≤ Real.pi) ∧
      (-Real.pi < eta ∧ eta ≤ Real.pi) ∧
      mulV r ![Real.cos (tth * (1 / 2)) * Real.cos eta, Real.cos (tth * (1 / 2)) * Real.sin eta,
        Real.sin (tth * (1 / 2))] = mulV (sampleRmat chi ome) g := by
  obtain ⟨r, hr⟩ := frame_of_crc hb he h
  have hF := beamRmat_isBeamFrame hr
  have hR := sampleRmat_isRotation chi ome
  set q := mulTV r (mulV (sampleRmat chi ome) g) with hq
  have hback : mulV r q = mulV (sampleRmat chi ome) g := mulV_mulTV hF.1.1 _
  have hqq : dot q q = 1 := by
    rw [hq, dot_mulTV_mulTV hF.1.1, dot_mulV_mulV hR.1, dot_eq]; exact hg
  have hbF : bh = mulV r ![0, 0, -1] := beam_eq_mulV hF ⟨hb, 1, one_pos, by simp⟩
  have hq2 : q 2 = s := by
    rw [Bragg, ← mulV_eq, ← dot_eq, ← hback, hbF, dot_mulV_mulV hF.1.1] at hbr
    simp [dot] at hbr
    exact hbr
  have h01 : q 0 * q 0 + q 1 * q 1 = 1 - s ^ 2 := by
    rw [← hq2]; simp only [dot] at hqq; linarith
  have hs1 : s ≤ 1 := by nlinarith [mul_self_nonneg (q 0), mul_self_nonneg (q 1)]
  have hn : ‖(⟨q 0, q 1⟩ : ℂ)‖ = √(1 - s ^ 2) := by rw [Complex.norm_def, Complex.normSq_mk, h01]
  rw [← dot_eq] at h
  refine ⟨2 * Real.arcsin s, atan2 (q 1) (q 0), r, hr, ?_, ?_, ?_, ?_, ?_⟩
  · unfold oscOf; rw [if_pos h]
  · unfold oscOf; rw [if_pos h, hr]; rfl
  · have h1 := Real.arcsin_nonneg.2 hs
    have h2 := Real.arcsin_le_pi_div_two s
    constructor <;> linarith
  · exact ⟨Complex.neg_pi_lt_arg _, Complex.arg_le_pi _⟩
  · rw [show 2 * Real.arcsin s * (1 / 2) = Real.arcsin s by ring, Real.cos_arcsin,
      Real.sin_arcsin (by linarith) hs1, ← hback]
    congr 1
    have c1 : √(1 - s ^ 2) * Real.cos (atan2 (q 1) (q 0)) = q 0 := by
      rw [← hn]; exact Complex.norm_mul_cos_arg ⟨q 0, q 1⟩
    have c2 : √(1 - s ^ 2) * Real.sin (atan2 (q 1) (q 0)) = q 1 := by
      rw [← hn]; exact Complex.norm_mul_sin_arg ⟨q 0, q 1⟩
    rw [c1, c2, ← hq2]
    ext i; fin_cases i <;> rfl

/-- C49: the three angles of a returned triplet describe the reflection: fed to `angles_to_gvec` they give back
the unit scattering vector in the crystal frame, for beam and azimuth reference that are not nearly collinear. -/
theorem oscill_angles_describe {hkl : V} {chi lam : ℝ} {rc bmat : M} {vInv : Fin 6 → ℝ} {b e bh eh : V}
    (hp : Proper hkl rc bmat vInv b lam) (hb : IsDirection bh b) (he : IsDirection eh e)
    (hel : epsf < √(e ⬝ᵥ e)) (hbe : |bh ⬝ᵥ eh| < 1 - sqrtEpsf) {p q : Osc}
    (h : oscillAngles hkl chi rc bmat lam vInv b e = some (some (p, q))) :
    ∀ o ∈ [p, q], ∃ tth eta, o.tTh = some tth ∧ o.eta = some eta ∧
      (0 ≤ tth ∧ tth ≤ Real.pi) ∧ (-Real.pi < eta ∧ eta ≤ Real.pi) ∧
      IsDirection (anglesToGvec tth eta o.ome b e chi rc) (rcᵀ *ᵥ sampleVector hkl rc bmat vInv) := by
  have hex := oscill_exact hp hb h
  have hd : ∀ o ∈ [p, q], Diffracts (sampleRmat chi o.ome) bh (sampleVector hkl rc bmat vInv) lam := by
    intro o ho
    rw [hex]
    rcases List.mem_cons.1 ho with rfl | ho
    · exact Or.inl ⟨0, by simp⟩
    · rw [List.mem_singleton.1 ho]; exact Or.inr ⟨0, by simp⟩
  set S := sampleVector hkl rc bmat vInv with hS
  have hL : 0 < √(S ⬝ᵥ S) := epsf_pos.trans hp.long
  have hform : ∀ o ∈ [p, q], o = oscOf (fun i => S i / √(S ⬝ᵥ S)) bh eh chi (1 / 2 * lam * √(S ⬝ᵥ S)) o.ome := by
    rw [oscillAngles_unfold hp hb, unitRow_dir hel he] at h
    simp only at h
    split at h
    · simp at h
    · split at h
      · simp at h
      · simp only [Option.some.injEq, Prod.mk.injEq] at h
        intro o ho
        rcases List.mem_cons.1 ho with rfl | ho
        · rw [← h.1, oscOf_ome]
        · rw [List.mem_singleton.1 ho, ← h.2, oscOf_ome]
  have hSpos : 0 < dot S S := by rw [dot_eq]; exact Real.sqrt_pos.1 hL
  have hg : IsUnit3 (fun i => S i / √(S ⬝ᵥ S)) := by
    rw [IsUnit3, ← dot_eq, ← dot_eq]; exact unit_of_sqrt hSpos
  intro o ho
  have hbr := (diffracts_iff (sampleRmat_isRotation chi o.ome) hb.1 hp.wave hL).1 (hd o ho)
  have hs0 : 0 ≤ 1 / 2 * lam * √(S ⬝ᵥ S) := by have := hp.wave; positivity
  obtain ⟨tth, eta, r, h1, h2, h3, h4, h5, h6⟩ := oscOf_describe hb.1 he.1 hbe hg hs0 hbr
  rw [← hform o ho] at h2 h3
  refine ⟨tth, eta, h2, h3, h4, h5, ?_⟩
  have hfr := direction_frame hb he (beamRmat_isBeamFrame h1)
  have hne : e ⨯₃ b ≠ 0 := by
    intro h0
    have hr1 := mt (beamRmat_refused_iff bh eh).2 (by simp [h1])
    push Not at hr1
    obtain ⟨-, c, hc, rfl⟩ := hb
    obtain ⟨-, c', hc', rfl⟩ := he
    have : eh ⨯₃ bh = 0 := by
      simp only [map_smul, LinearMap.smul_apply, smul_smul] at h0
      exact (smul_eq_zero.1 h0).resolve_left (mul_pos (by assumption) (by assumption)).ne'
    rw [this] at hr1
    simp at hr1
    linarith [epsf_pos, hr1.2]
  have hE : eigenBeamFrame b e = r := isBeamFrame_unique (eigenBeamFrame_isBeamFrame hne) hfr
  have hval : anglesToGvec tth eta o.ome b e chi rc = mulTV rc (fun i => S i / √(S ⬝ᵥ S)) := by
    simp only [anglesToGvec]
    rw [hE, h6, toCrystal_eq, mulTV_mulV (sampleRmat_isRotation chi o.ome).1]
  rw [hval]
  refine ⟨?_, √(S ⬝ᵥ S), hL, ?_⟩
  · rw [IsUnit3, ← dot_eq, dot_mulTV_mulTV hp.rot.1, dot_eq]; exact hg
  · rw [← mulTV_eq]
    have := hL.ne'
    ext i
    fin_cases i <;> simp [mulTV] <;> field_simp

/-! ### A case that meets the hypotheses -/

theorem demo_vec : sampleVector ![0, 0, 1] 1 1 ![1, 1, 1, 0, 0, 0] = ![0, 0, 1] := by
  unfold sampleVector
  simp only [one_mulVec]
  rw [← mulV_eq]
  ext i; fin_cases i <;> simp [mulV, tensorOf]

theorem demo_proper : Proper ![0, 0, 1] 1 1 ![1, 1, 1, 0, 0, 0] ![0, 0, -1] 1 := by
  refine ⟨isRotation_one, ?_, ?_, one_pos⟩
  · rw [demo_vec, ← dot_eq]; simp [dot, epsf]; norm_num
  · rw [← dot_eq]; simp [dot, epsf]; norm_num

theorem demo_direction : IsDirection (![0, 0, -1] : V) ![0, 0, -1] :=
  ⟨by rw [IsUnit3, ← dot_eq]; simp [dot], 1, one_pos, by simp⟩

/-- A simple cubic crystal of unit cell edge, reflection 001, wavelength 1: it diffracts exactly when omega is
60 degrees either way, and that is what is returned. -/
example (chi : ℝ) (hchi : chi = 0) : ∃ p q, oscillAngles ![0, 0, 1] chi 1 1 1 ![1, 1, 1, 0, 0, 0] ![0, 0, -1]
    ![1, 0, 0] = some (some (p, q)) := by
  subst hchi
  rw [oscillAngles_unfold demo_proper demo_direction]
  rw [demo_vec]
  simp only
  have hs : ((![0, 0, 1] : V) ⬝ᵥ ![0, 0, 1]) = 1 := by rw [← dot_eq]; simp [dot]
  rw [hs, Real.sqrt_one]
  have hh : harmonic (fun i => (![0, 0, 1] : V) i / 1) ![0, 0, -1] 0 (1 / 2 * 1 * 1) = (0, -1, -(1 / 2)) := by
    simp [harmonic]
  rw [hh]
  have : ¬ |(-(1 / 2) : ℝ) / √(0 * 0 + -1 * -1)| > 1 := by
    rw [show (0 * 0 + -1 * -1 : ℝ) = 1 by norm_num, Real.sqrt_one, div_one, abs_neg, abs_of_pos (by norm_num)]
    norm_num
  rw [if_neg (by simp), if_neg this]
  exact ⟨_, _, rfl⟩

end Hexrd.Transforms
