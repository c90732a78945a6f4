import Verif.Lemmas.LaueSim

/-!
C129: the Laue simulation reports exactly the reflections that diffract onto the panel within the energy window.
-/

namespace Hexrd.LaueSim

open Matrix Hexrd.Transforms Hexrd.Transforms.Spec Hexrd.Simulate Hexrd.Detector Spec

/-- The reciprocal lattice vector of a reflection of a simulated grain in the laboratory. -/
noncomputable abbrev lab (s : Scene) (g : Grain) (h : V) : V := labVector s.rs g.vInv g.rc s.bmat h

/-- A well posed simulation: `bh` is the direction of the beam, the detector and the sample are rotated by rotations,
the crystal does not lie in the detector plane, and energies are positive. -/
structure WellPosed (s : Scene) (g : Grain) (bh : V) : Prop where
  beam : IsDirection bh s.beam
  resolved : BeamResolved s.beam
  rd : IsRotation s.rd
  rs : IsRotation s.rs
  off : epsf < ((fun i => s.rd i 2) ⬝ᵥ (s.td - crystalPosition s.rs s.ts g.tc)) ^ 2
  energies : ∀ w ∈ s.windows, 0 < w.1 ∧ 0 < w.2

/-- The reciprocal lattice vector is longer than what the code takes for zero. -/
def Long (s : Scene) (g : Grain) (h : V) : Prop := Rotations.tenEps < √(lab s g h ⬝ᵥ lab s g h)

variable {s : Scene} {g : Grain} {bh : V}

theorem stretched_lab (s : Scene) (g : Grain) (h : V) : lab s g h = mulV s.rs (stretched s g h) := by
  simp only [lab, labVector, stretched, mulV_eq]
  rfl

theorem far (w : WellPosed s g bh) (xy : ℝ × ℝ) : FarEnough xy s.rd s.rs s.td s.ts g.tc := by
  obtain ⟨-, -, a22, -, a02, a12⟩ := rot_entries w.rd.1
  have h := w.off
  unfold FarEnough
  set v := s.td + (xy.1 • (fun i => s.rd i 0) + xy.2 • (fun i => s.rd i 1)) - crystalPosition s.rs s.ts g.tc with hv
  have e : (fun i => s.rd i 2) ⬝ᵥ (s.td - crystalPosition s.rs s.ts g.tc) = dot (fun i => s.rd i 2) v := by
    rw [← dot_eq, hv]
    simp only [dot, Pi.add_apply, Pi.sub_apply, Pi.smul_apply, smul_eq_mul]
    linear_combination (-xy.1) * a02 - xy.2 * a12
  have hc := dot_self_nonneg (cross (fun i => s.rd i 2) v)
  rw [dot_cross_self] at hc
  have hn : dot (fun i => s.rd i 2) (fun i => s.rd i 2) = 1 := by simp only [dot]; linarith
  rw [hn] at hc
  rw [e] at h
  rw [← dot_eq]
  linarith

theorem lab_norm (w : WellPosed s g bh) (h : V) :
    dot (lab s g h) (lab s g h) = dot (stretched s g h) (stretched s g h) := by
  rw [stretched_lab, dot_mulV_mulV w.rs.1]

theorem long_pos {h : V} (hl : Long s g h) : 0 < dot (lab s g h) (lab s g h) := by
  rw [Long, ← dot_eq] at hl
  refine Real.sqrt_pos.1 (lt_trans ?_ hl)
  unfold Rotations.tenEps
  positivity

/-- The normal of the planes in the laboratory. -/
theorem lab_normal (w : WellPosed s g bh) {h : V} (hl : Long s g h) :
    s.rs *ᵥ (g.rc *ᵥ normal s g h) = (1 / √(dot (lab s g h) (lab s g h))) • lab s g h := by
  have hc : IsRotation g.rc := expmapRmat_isRotation g.expmap
  have e : dot (mulTV g.rc (stretched s g h)) (mulTV g.rc (stretched s g h)) = dot (lab s g h) (lab s g h) := by
    rw [lab_norm w, dot_mulTV_mulTV hc.1]
  have hn : normal s g h = (1 / √(dot (lab s g h) (lab s g h))) • mulTV g.rc (stretched s g h) := by
    unfold normal Tensors.unitVector3
    simp only
    rw [show mulTV g.rc (stretched s g h) 0 ^ 2 + mulTV g.rc (stretched s g h) 1 ^ 2 +
      mulTV g.rc (stretched s g h) 2 ^ 2 = dot (lab s g h) (lab s g h) by rw [← e]; simp only [dot]; ring]
    rw [if_neg (by rw [Long, ← dot_eq] at hl; exact not_le.2 hl)]
    ext i
    simp [div_eq_inv_mul]
  rw [hn, mulVec_smul, mulVec_smul, ← mulV_eq, ← mulV_eq, mulV_mulTV hc.1, ← stretched_lab]

theorem project_hits (w : WellPosed s g bh) {h : V} (hl : Long s g h) {xy : ℝ × ℝ} (hp : project s g h = some xy) :
    Hits s.rd s.td (crystalPosition s.rs s.ts g.tc)
      (reflected bh ((1 / √(dot (lab s g h) (lab s g h))) • lab s g h)) xy := by
  have := gvecToXY_hits w.resolved w.beam w.rd hp
  rwa [lab_normal w hl] at this

theorem beam_dot (w : WellPosed s g bh) : dot bh bh = 1 := by
  have := w.beam.1
  rwa [IsUnit3, ← dot_eq] at this

/-- The row of a reflection. -/
theorem kept_eq (w : WellPosed s g bh) {rb : M} (hrb : beamRmat s.beam etaVec = some rb) {h : V} (hl : Long s g h) :
    kept s g rb h = (project s g h).bind fun xy =>
      let d := reflected bh ((1 / √(dot (lab s g h) (lab s g h))) • lab s g h)
      let wlen := 2 * |dot bh (lab s g h)| / dot (lab s g h) (lab s g h)
      if onPanel s.panel s.buf true (s.unwarp xy) && validEnergy s.windows wlen then
        some ⟨h, s.unwarp xy, Real.arccos (dot bh d), atan2 (mulTV rb d 1) (mulTV rb d 0),
          1 / √(dot (lab s g h) (lab s g h)), Units.keVToAngstrom wlen⟩
      else none := by
  unfold kept
  cases hp : project s g h with
  | none => rfl
  | some xy =>
    have hq := long_pos hl
    have hb := beam_dot w
    have hE := beamRmat_isBeamFrame hrb
    have hbe : bh = fun i => -rb i 2 := beam_in_frame hE w.beam
    have hd : dHat xy s.rd s.rs s.td s.ts g.tc = reflected bh ((1 / √(dot (lab s g h) (lab s g h))) • lab s g h) :=
      dHat_of_hits (far w xy) (by rw [IsUnit3, ← dot_eq]; exact (ray hb hq).1) (project_hits w hl hp)
    have u1 : (unitRow (fun i => -rb i 2)).1 = fun i => -rb i 2 := by
      rw [← hbe, unitRow_of_gt (by rw [hb, Real.sqrt_one]; unfold epsf; norm_num), hb, Real.sqrt_one]; simp
    have hm : measure s g rb (h, xy) = some
        (⟨h, s.unwarp xy, Real.arccos (dot bh (reflected bh ((1 / √(dot (lab s g h) (lab s g h))) • lab s g h))),
          atan2 (mulTV rb (reflected bh ((1 / √(dot (lab s g h) (lab s g h))) • lab s g h)) 1)
            (mulTV rb (reflected bh ((1 / √(dot (lab s g h) (lab s g h))) • lab s g h)) 0),
          1 / √(dot (lab s g h) (lab s g h)),
          Units.keVToAngstrom (2 * |dot bh (lab s g h)| / dot (lab s g h) (lab s g h))⟩,
          onPanel s.panel s.buf true (s.unwarp xy) &&
            validEnergy s.windows (2 * |dot bh (lab s g h)| / dot (lab s g h) (lab s g h))) := by
      simp only [measure, xyToGvec, xyToGvecC, beamRmat_of_columns hE.1, Option.bind_eq_bind, Option.bind_some,
        Option.pure_def, u1, hd, ← lab_norm w]
      simp only [← hbe, wavelength_eq hb hq]
    simp only [hm, Option.bind_some]

theorem hc_eq (x : ℝ) (hx : x ≠ 0) : Photon (Units.keVToAngstrom x) x := by
  unfold Photon Units.keVToAngstrom
  field_simp

theorem photon_pos {e lam : ℝ} (hp : Photon e lam) (h : 0 < lam) : 0 < e := by
  unfold Photon at hp
  by_contra hn
  have : e * lam ≤ 0 := mul_nonpos_of_nonpos_of_nonneg (not_lt.1 hn) h.le
  rw [hp] at this
  norm_num at this

/-- The energy window, in energies. -/
theorem validEnergy_iff {ws : List (ℝ × ℝ)} (hw : ∀ w ∈ ws, 0 < w.1 ∧ 0 < w.2) {lam : ℝ} :
    validEnergy ws lam = true ↔
      0 < lam ∧ ∃ e, Photon e lam ∧ ∃ w ∈ ws, w.1 ≤ e ∧ e ≤ w.2 := by
  have key : ∀ {x y l k : ℝ}, 0 < x → Photon x l → Photon y k → 0 < k → (l ≤ k ↔ y ≤ x) := by
    intro x y l k hx h1 h2 hk
    have hy := photon_pos h2 hk
    unfold Photon at h1 h2
    constructor
    · intro h
      by_contra hn
      have : x * l < y * k := by
        have a : x * l ≤ x * k := mul_le_mul_of_nonneg_left h hx.le
        have b : x * k < y * k := mul_lt_mul_of_pos_right (not_le.1 hn) hk
        linarith
      linarith
    · intro h
      by_contra hn
      have : y * k < x * l := by
        have a : y * k ≤ x * k := mul_le_mul_of_nonneg_right h hk.le
        have b : x * k < x * l := mul_lt_mul_of_pos_left (not_le.1 hn) hx
        linarith
      linarith
  have ph : ∀ {x : ℝ}, 0 < x → Photon x (Units.keVToAngstrom x) ∧ 0 < Units.keVToAngstrom x := by
    intro x hx
    refine ⟨?_, ?_⟩
    · have := hc_eq x hx.ne'
      unfold Photon at this ⊢
      rw [mul_comm]; exact this
    · unfold Units.keVToAngstrom; positivity
  simp only [validEnergy, List.any_eq_true, Bool.and_eq_true, decide_eq_true_eq]
  constructor
  · rintro ⟨w, hm, h1, h2⟩
    have hl : 0 < lam := lt_of_lt_of_le (ph (hw w hm).2).2 h1
    refine ⟨hl, Units.keVToAngstrom lam, hc_eq lam hl.ne', w, hm, ?_, ?_⟩
    · exact (key (photon_pos (hc_eq lam hl.ne') hl) (hc_eq lam hl.ne') (ph (hw w hm).1).1 (ph (hw w hm).1).2).1 h2
    · exact (key (hw w hm).2 (ph (hw w hm).2).1 (hc_eq lam hl.ne') hl).1 h1
  · rintro ⟨hl, e, he, w, hm, h1, h2⟩
    refine ⟨w, hm, ?_, ?_⟩
    · exact (key (hw w hm).2 (ph (hw w hm).2).1 he hl).2 h2
    · exact (key (photon_pos he hl) he (ph (hw w hm).1).1 (ph (hw w hm).1).2).2 h1

theorem mem_kept {hkls : List V} {out : List (Option Spot)} (hsim : simulateGrain s g hkls = some out) {sp : Spot}
    (hm : some sp ∈ out) :
    ∃ rb h, beamRmat s.beam etaVec = some rb ∧ h ∈ hkls ∧ kept s g rb h = some sp := by
  obtain ⟨h1, h2, -⟩ := simulate_rows hsim
  have hm' : sp ∈ out.filterMap id := by simpa using hm
  cases hb : beamRmat s.beam etaVec with
  | none => rw [h2 hb] at hm'; simp at hm'
  | some rb =>
    rw [h1 rb hb, List.mem_filterMap] at hm'
    obtain ⟨h, hh, hk⟩ := hm'
    exact ⟨rb, h, rfl, hh, hk⟩

theorem labVector_neg (rs : M) (v : Fin 6 → ℝ) (rc B : M) (h : V) :
    labVector rs v rc B (-h) = -labVector rs v rc B h := by
  simp [labVector, mulVec_neg]

theorem polar_direction {rb : M} (hrb : IsRotation rb) {d : V} (hd : dot d d = 1) :
    d = rb *ᵥ ![Real.sin (Real.arccos (dot (fun i => -rb i 2) d)) * Real.cos (atan2 (mulTV rb d 1) (mulTV rb d 0)),
      Real.sin (Real.arccos (dot (fun i => -rb i 2) d)) * Real.sin (atan2 (mulTV rb d 1) (mulTV rb d 0)),
      -Real.cos (Real.arccos (dot (fun i => -rb i 2) d))] := by
  set u := mulTV rb d with hu
  have h2 : dot (fun i => -rb i 2) d = -u 2 := by simp [hu, dot, mulTV]; ring
  have hn : dot u u = 1 := by rw [hu, dot_mulTV_mulTV hrb.1, hd]
  have hn' : u 0 * u 0 + u 1 * u 1 + u 2 * u 2 = 1 := hn
  have hs : Real.sin (Real.arccos (-u 2)) = √(u 0 ^ 2 + u 1 ^ 2) := by
    rw [Real.sin_arccos]; congr 1; nlinarith
  have hc : Real.cos (Real.arccos (-u 2)) = -u 2 :=
    Real.cos_arccos (by nlinarith [sq_nonneg (u 0), sq_nonneg (u 1)]) (by nlinarith [sq_nonneg (u 0), sq_nonneg (u 1)])
  have hz : ‖(⟨u 0, u 1⟩ : ℂ)‖ = √(u 0 ^ 2 + u 1 ^ 2) := by
    rw [Complex.norm_eq_sqrt_sq_add_sq]
  have e0 := Complex.norm_mul_cos_arg (⟨u 0, u 1⟩ : ℂ)
  have e1 := Complex.norm_mul_sin_arg (⟨u 0, u 1⟩ : ℂ)
  rw [hz] at e0 e1
  simp only at e0 e1
  rw [h2, hs, hc, atan2, e0, e1, neg_neg]
  have : (![u 0, u 1, u 2] : V) = u := by ext i; fin_cases i <;> rfl
  rw [this, hu, ← mulV_eq, mulV_mulTV hrb.1]

/-- C129: what a reported row means.  The reflection is one of those asked for; radiation of a wavelength of the
energy window leaves the crystal along a unit direction `d` that satisfies Laue's equation for the reflection or for
its opposite; the ray meets the detector at the point whose (unwarped) position is reported, and that is on the panel;
and the angles, the spacing and the energy of the row are those of this ray. -/
theorem reported_spot (w : WellPosed s g bh) {hkls : List V} {out : List (Option Spot)}
    (hsim : simulateGrain s g hkls = some out) {sp : Spot} (hm : some sp ∈ out) (hl : Long s g sp.hkl) :
    sp.hkl ∈ hkls ∧ ∃ (d : V) (lam : ℝ) (xy : ℝ × ℝ) (frame : M),
      (LaueEquation bh d (lab s g sp.hkl) lam ∨ LaueEquation bh d (lab s g (-sp.hkl)) lam) ∧
      Photon sp.energy lam ∧ (∃ e ∈ s.windows, e.1 ≤ sp.energy ∧ sp.energy ≤ e.2) ∧
      Hits s.rd s.td (crystalPosition s.rs s.ts g.tc) d xy ∧ sp.xy = s.unwarp xy ∧
      onPanel s.panel s.buf true sp.xy = true ∧
      sp.dsp = 1 / √(lab s g sp.hkl ⬝ᵥ lab s g sp.hkl) ∧
      IsBeamFrame s.beam ![1, 0, 0] frame ∧ 0 ≤ sp.tTh ∧ sp.tTh ≤ Real.pi ∧
      d = frame *ᵥ ![Real.sin sp.tTh * Real.cos sp.eta, Real.sin sp.tTh * Real.sin sp.eta, -Real.cos sp.tTh] := by
  obtain ⟨rb, h, hrb, hh, hk⟩ := mem_kept hsim hm
  have hhk : sp.hkl = h := by
    unfold kept at hk
    simp only [Option.bind_eq_some_iff] at hk
    obtain ⟨xy, -, r, hr, hk⟩ := hk
    split at hk
    · rw [Option.some.injEq] at hk
      subst hk
      simp only [measure, Option.bind_eq_bind, Option.bind_eq_some_iff, Option.pure_def, Option.some.injEq] at hr
      obtain ⟨o, -, rfl⟩ := hr
      rfl
    · simp at hk
  rw [hhk] at hl
  rw [kept_eq w hrb hl] at hk
  simp only [Option.bind_eq_some_iff] at hk
  obtain ⟨xy, hp, hk⟩ := hk
  have hq := long_pos hl
  have hb := beam_dot w
  split at hk
  · rename_i hc
    rw [Bool.and_eq_true] at hc
    rw [Option.some.injEq] at hk
    obtain ⟨hl0, e, he, hwin⟩ := (validEnergy_iff w.energies).1 hc.2
    set d := reflected bh ((1 / √(dot (lab s g h) (lab s g h))) • lab s g h) with hd
    have hE := beamRmat_isBeamFrame hrb
    have hbe : bh = fun i => -rb i 2 := beam_in_frame hE w.beam
    have hee : sp.energy = e := by
      rw [← hk]
      have := hc_eq _ hl0.ne'
      unfold Photon at this he
      exact mul_right_cancel₀ hl0.ne' (this.trans he.symm)
    refine ⟨hhk ▸ hh, d, 2 * |dot bh (lab s g h)| / dot (lab s g h) (lab s g h), xy, rb, ?_, ?_, ?_, ?_, ?_, ?_, ?_,
      hE, ?_, ?_, ?_⟩
    · rw [hhk]
      have hne : dot bh (lab s g h) ≠ 0 := by
        intro h0; rw [h0] at hl0; simp at hl0
      rcases lt_or_gt_of_ne hne with hlt | hgt
      · left
        have := laue_holds hb hq hlt
        rw [← hd] at this
        rwa [abs_of_neg hlt, show 2 * -dot bh (lab s g h) / dot (lab s g h) (lab s g h) =
          -(2 * dot bh (lab s g h) / dot (lab s g h) (lab s g h)) by ring]
      · right
        have e1 : lab s g (-h) = -lab s g h := labVector_neg _ _ _ _ _
        have e2 : dot (-lab s g h) (-lab s g h) = dot (lab s g h) (lab s g h) := by simp [dot]
        have e3 : dot bh (-lab s g h) = -dot bh (lab s g h) := by simp [dot]; ring
        have e4 : ∀ c : ℝ, reflected bh (c • -lab s g h) = reflected bh (c • lab s g h) := by
          intro c; ext i; simp [reflected]
        have := laue_holds (b := bh) (q := -lab s g h) hb (by rw [e2]; exact hq) (by rw [e3]; linarith)
        rw [e2, e3, e4, ← hd] at this
        rwa [e1, abs_of_pos hgt, show 2 * dot bh (lab s g h) / dot (lab s g h) (lab s g h) =
          -(2 * -dot bh (lab s g h) / dot (lab s g h) (lab s g h)) by ring]
    · rw [hee]; exact he
    · rw [hee]; exact hwin
    · exact project_hits w hl hp
    · rw [← hk]
    · rw [← hk]; exact hc.1
    · rw [hhk, ← hk, ← dot_eq]
    · rw [← hk]; exact Real.arccos_nonneg _
    · rw [← hk]; exact Real.arccos_le_pi _
    · have hdd : dot d d = 1 := (ray hb hq).1
      have := polar_direction hE.1 hdd
      rw [← hbe] at this
      rw [← hk]
      exact this
  · simp at hk

/-- C129: and every such reflection is reported. -/
theorem every_spot_reported (w : WellPosed s g bh) {hkls : List V} {out : List (Option Spot)}
    (hsim : simulateGrain s g hkls = some out) {h : V} (hh : h ∈ hkls) (hl : Long s g h) {d : V} {lam : ℝ}
    (hla : LaueEquation bh d (lab s g h) lam ∨ LaueEquation bh d (lab s g (-h)) lam) {e : ℝ} (he : Photon e lam)
    (hwin : ∃ x ∈ s.windows, x.1 ≤ e ∧ e ≤ x.2) {xy : ℝ × ℝ}
    (hits : Hits s.rd s.td (crystalPosition s.rs s.ts g.tc) d xy) (hpar : (fun i => s.rd i 2) ⬝ᵥ d ≠ 0)
    (hon : onPanel s.panel s.buf true (s.unwarp xy) = true) (hfr : beamRmat s.beam etaVec ≠ none) :
    ∃ sp, some sp ∈ out ∧ sp.hkl = h ∧ sp.xy = s.unwarp xy ∧ sp.energy = e := by
  obtain ⟨rb, hrb⟩ := Option.ne_none_iff_exists'.1 hfr
  have hq := long_pos hl
  have hb := beam_dot w
  have e1 : lab s g (-h) = -lab s g h := labVector_neg _ _ _ _ _
  have e2 : dot (-lab s g h) (-lab s g h) = dot (lab s g h) (lab s g h) := by simp [dot]
  have e3 : dot bh (-lab s g h) = -dot bh (lab s g h) := by simp [dot]; ring
  have e4 : ∀ c : ℝ, reflected bh (c • -lab s g h) = reflected bh (c • lab s g h) := by
    intro c; ext i; simp [reflected]
  have key : lam = 2 * |dot bh (lab s g h)| / dot (lab s g h) (lab s g h) ∧
      d = reflected bh ((1 / √(dot (lab s g h) (lab s g h))) • lab s g h) := by
    rcases hla with hla | hla
    · obtain ⟨a1, a2, a3⟩ := laue_unique hb hq hla
      exact ⟨by rw [a2, abs_of_neg a1]; ring, a3⟩
    · rw [e1] at hla
      obtain ⟨a1, a2, a3⟩ := laue_unique hb (by rw [e2]; exact hq) hla
      rw [e2] at a3 a2
      rw [e3] at a1 a2
      exact ⟨by rw [a2, abs_of_pos (by linarith)]; ring, by rw [a3, e4]⟩
  have hlam : 0 < lam := by rcases hla with h | h <;> exact h.2.1
  have hp : project s g h = some xy := by
    refine gvecToXY_complete w.resolved w.beam w.rd ?_ ?_
    · rw [lab_normal w hl, ← key.2]; exact hits
    · rw [lab_normal w hl, ← key.2]; exact hpar
  have hk := kept_eq w hrb hl
  rw [hp] at hk
  simp only [Option.bind_some] at hk
  rw [← key.1, if_pos (by
    rw [Bool.and_eq_true]
    exact ⟨hon, (validEnergy_iff w.energies).2 ⟨hlam, e, he, hwin⟩⟩)] at hk
  have hmem : ∀ sp, kept s g rb h = some sp → some sp ∈ out := by
    intro sp hsp
    have := (simulate_rows hsim).1 rb hrb
    have hm : sp ∈ out.filterMap id := by
      rw [this, List.mem_filterMap]; exact ⟨h, hh, hsp⟩
    simpa using hm
  refine ⟨_, hmem _ hk, rfl, rfl, ?_⟩
  have := hc_eq _ hlam.ne'
  unfold Photon at this he
  exact mul_right_cancel₀ hlam.ne' (this.trans he.symm)

/-- C129: there is one row per reflection asked for, the rows that are not NaN are in the order of the reflections, and
none is reported more often than it was asked for. -/
theorem reported_order {hkls : List V} {out : List (Option Spot)} (hsim : simulateGrain s g hkls = some out) :
    out.length = hkls.length ∧ ((out.filterMap id).map Spot.hkl).Sublist hkls := by
  obtain ⟨h1, h2, h3⟩ := simulate_rows hsim
  refine ⟨h3, ?_⟩
  cases hb : beamRmat s.beam etaVec with
  | none => rw [h2 hb]; simp
  | some rb =>
    rw [h1 rb hb]
    clear h1 h2 h3 hsim
    induction hkls with
    | nil => simp
    | cons h t ih =>
      rw [List.filterMap_cons]
      cases hk : kept s g rb h with
      | none => exact ih.cons h
      | some sp =>
        have : sp.hkl = h := by
          unfold kept at hk
          simp only [Option.bind_eq_some_iff] at hk
          obtain ⟨xy, -, r, hr, hk⟩ := hk
          split at hk
          · rw [Option.some.injEq] at hk
            subst hk
            simp only [measure, Option.bind_eq_bind, Option.bind_eq_some_iff, Option.pure_def,
              Option.some.injEq] at hr
            obtain ⟨o, -, rfl⟩ := hr
            rfl
          · simp at hk
        simp only [List.map_cons, this]
        exact ih.cons_cons h

end Hexrd.LaueSim
