import Verif.Model.PowderCalib
import Verif.Props.Planar
import Verif.Props.Xrdutil

/-! C133: the residual of a powder calibration measures the deviation from Bragg's law. -/
namespace Hexrd.PowderCalib
open Hexrd.Transforms Hexrd.Transforms.Spec Hexrd.Calib Hexrd.Xrdutil Hexrd.Xrdutil.Spec Matrix

/-- The distance of the lattice planes `hkl`, for the matrix of reciprocal lattice vectors. -/
noncomputable def spacing (bmat : M) (hkl : V) : ℝ := 1 / √((bmat *ᵥ hkl) ⬝ᵥ (bmat *ᵥ hkl))

/-- Bragg's law. -/
def BraggLaw (wavelength d tth : ℝ) : Prop := wavelength = 2 * d * Real.sin (tth / 2)

theorem spacing_pos {bmat : M} {hkl : V} (h : bmat *ᵥ hkl ≠ 0) : 0 < spacing bmat hkl := by
  unfold spacing
  have : 0 < (bmat *ᵥ hkl) ⬝ᵥ (bmat *ᵥ hkl) := by
    rw [← dot_eq]
    refine lt_of_le_of_ne (by unfold dot; nlinarith [mul_self_nonneg ((bmat *ᵥ hkl) 0), mul_self_nonneg ((bmat *ᵥ hkl) 1), mul_self_nonneg ((bmat *ᵥ hkl) 2)]) ?_
    intro h0
    apply h
    unfold dot at h0
    generalize bmat *ᵥ hkl = g at *
    ext i
    have a := mul_self_nonneg (g 0)
    have b := mul_self_nonneg (g 1)
    have c := mul_self_nonneg (g 2)
    fin_cases i
    · exact mul_self_eq_zero.1 (by linarith : g 0 * g 0 = 0)
    · exact mul_self_eq_zero.1 (by linarith : g 1 * g 1 = 0)
    · exact mul_self_eq_zero.1 (by linarith : g 2 * g 2 = 0)
  positivity

theorem ringTth_eq (bmat : M) (w : ℝ) (hkl : V) :
    ringTth bmat w hkl = if |w / (2 * spacing bmat hkl)| > 1 then none
      else some (2 * Real.arcsin (w / (2 * spacing bmat hkl))) := by
  unfold ringTth spacing
  simp only [mulV_eq, dot_eq]
  have : ∀ d : ℝ, 1 / 2 * w / d = w / (2 * d) := by
    intro d
    rw [show 1 / 2 * w = w / 2 by ring, div_div]
  rw [this]

/-- The Bragg angle of a ring is the one between zero and half a turn. -/
theorem ringTth_some {bmat : M} {w : ℝ} {hkl : V} (hw : 0 < w) (hg : bmat *ᵥ hkl ≠ 0) (t : ℝ) :
    ringTth bmat w hkl = some t ↔ 0 ≤ t ∧ t ≤ Real.pi ∧ BraggLaw w (spacing bmat hkl) t := by
  have hd := spacing_pos hg
  generalize hD : spacing bmat hkl = d at *
  rw [ringTth_eq, hD]
  have hx : 0 < w / (2 * d) := by positivity
  rw [abs_of_pos hx]
  have hwd : ∀ s : ℝ, w = 2 * d * s ↔ s = w / (2 * d) := by
    intro s
    rw [eq_div_iff (by positivity)]
    constructor <;> intro h <;> linarith
  constructor
  · intro h
    split at h
    · cases h
    · rename_i h1
      rw [Option.some.injEq] at h
      subst h
      have h0 := Real.arcsin_nonneg.2 hx.le
      have h2 := Real.arcsin_le_pi_div_two (w / (2 * d))
      refine ⟨by linarith, by linarith, ?_⟩
      rw [BraggLaw, hwd, show 2 * Real.arcsin (w / (2 * d)) / 2 = Real.arcsin (w / (2 * d)) by ring,
        Real.sin_arcsin (by linarith) (by linarith)]
  · rintro ⟨h0, h1, h2⟩
    rw [BraggLaw, hwd] at h2
    rw [← h2, if_neg (by have := Real.sin_le_one (t / 2); linarith),
      Real.arcsin_sin (by linarith [Real.pi_pos]) (by linarith), Option.some.injEq]
    ring

theorem ringTth_none {bmat : M} {w : ℝ} {hkl : V} (hw : 0 < w) (hg : bmat *ᵥ hkl ≠ 0) :
    ringTth bmat w hkl = none ↔ 2 * spacing bmat hkl < w := by
  have hd := spacing_pos hg
  rw [ringTth_eq, abs_of_pos (by positivity)]
  have : (1 : ℝ) < w / (2 * spacing bmat hkl) ↔ 2 * spacing bmat hkl < w := one_lt_div (by positivity)
  split
  · rename_i h; simpa using this.1 h
  · rename_i h; simpa using (fun h' => h (this.2 h'))

theorem crystalPosition_one (ts : V) : crystalPosition 1 ts 0 = ts := by
  simp [crystalPosition]

/-- A pick whose direction, seen from the sample, has scattering angle `tth` and azimuth `eta`. -/
structure PickAt (I : Instr) (rb : M) (p : Panel) (xy : ℝ × ℝ) (tth eta : ℝ) : Prop where
  far : FarEnough (p.unwarp xy) p.rd 1 p.td I.ts 0
  range : 0 < tth ∧ tth < Real.pi
  at_ : AnglesOf rb p.rd p.td I.ts (p.unwarp xy) tth eta

theorem angles_of_pick {I : Instr} {rb : M} (hrb : beamRmat I.beam I.eta = some rb) {p : Panel} {xy : ℝ × ℝ}
    {tth eta : ℝ} (h : PickAt I rb p xy tth eta) : ∃ e, angles I p xy = some (tth, e) ∧ SameAngle e eta := by
  obtain ⟨out, h1, h2, h3⟩ := xyToGvec_angles (beamRmat_isBeamFrame hrb).1 h.far h.range
    (by rw [crystalPosition_one]; exact h.at_)
  refine ⟨out.eta, ?_, h3⟩
  unfold angles
  rw [hrb, Option.bind_eq_bind, Option.bind_some, h1, ← h2]
  rfl

/-- C133: the residual of a pick is `x` exactly if the angle `tth - x` satisfies Bragg's law for the planes of its
ring; with the optional correction of the angle, if `tth - x - correction` does. -/
theorem residual_iff {bmat : M} {I : Instr} {rb : M} (hrb : beamRmat I.beam I.eta = some rb) {p : Panel} {r : Row}
    {tth eta : ℝ} (h : PickAt I rb p r.xy tth eta) (hw : 0 < I.wavelength) (hg : bmat *ᵥ r.hkl ≠ 0)
    (corr : Option (ℝ × ℝ → ℝ × ℝ)) (x : ℝ) :
    residualOf bmat I p corr r = some x ↔
      ∃ t, 0 ≤ t ∧ t ≤ Real.pi ∧ BraggLaw I.wavelength (spacing bmat r.hkl) t ∧
        x = tth - t - (corr.map fun c => (c r.xy).1).getD 0 := by
  obtain ⟨e, h1, -⟩ := angles_of_pick hrb h
  unfold residualOf reference
  simp only [h1, Option.bind_eq_bind, Option.bind_some, Option.pure_def]
  constructor
  · intro h2
    obtain ⟨a, h3, h4⟩ := Option.bind_eq_some_iff.1 h2
    obtain ⟨t, h5, h6⟩ := Option.bind_eq_some_iff.1 h3
    obtain ⟨b1, b2, b3⟩ := (ringTth_some hw hg t).1 h5
    refine ⟨t, b1, b2, b3, ?_⟩
    cases corr with
    | none => simp only [Option.some.injEq] at h6 h4; subst h6; simp [← h4]
    | some c => simp only [Option.some.injEq] at h6 h4; subst h6; simp [← h4]; ring
  · rintro ⟨t, b1, b2, b3, rfl⟩
    rw [(ringTth_some hw hg t).2 ⟨b1, b2, b3⟩]
    cases corr with
    | none => simp
    | some c => simp; ring

/-- C133: without correction the residual of a pick is zero exactly if the pick satisfies Bragg's law. -/
theorem residual_zero_iff {bmat : M} {I : Instr} {rb : M} (hrb : beamRmat I.beam I.eta = some rb) {p : Panel}
    {r : Row} {tth eta : ℝ} (h : PickAt I rb p r.xy tth eta) (hw : 0 < I.wavelength) (hg : bmat *ᵥ r.hkl ≠ 0) :
    residualOf bmat I p none r = some 0 ↔ BraggLaw I.wavelength (spacing bmat r.hkl) tth := by
  rw [residual_iff hrb h hw hg]
  constructor
  · rintro ⟨t, -, -, b, e⟩
    simp at e
    obtain rfl : t = tth := by linarith
    exact b
  · intro b
    exact ⟨tth, h.range.1.le, h.range.2.le, b, by simp⟩

/-- C133: it is not a number exactly if the planes cannot diffract at this wavelength. -/
theorem residual_nan_iff {bmat : M} {I : Instr} {rb : M} (hrb : beamRmat I.beam I.eta = some rb) {p : Panel}
    {r : Row} {tth eta : ℝ} (h : PickAt I rb p r.xy tth eta) (hw : 0 < I.wavelength) (hg : bmat *ᵥ r.hkl ≠ 0)
    (corr : Option (ℝ × ℝ → ℝ × ℝ)) :
    residualOf bmat I p corr r = none ↔ 2 * spacing bmat r.hkl < I.wavelength := by
  obtain ⟨e, h1, -⟩ := angles_of_pick hrb h
  rw [← ringTth_none hw hg]
  unfold residualOf reference
  simp only [h1, Option.bind_eq_bind, Option.bind_some, Option.pure_def]
  cases ringTth bmat I.wavelength r.hkl with
  | none => simp
  | some t => cases corr <;> simp

/-! ### The model points -/

theorem sampleRmat_zero : sampleRmat 0 0 = 1 := by
  ext i j
  fin_cases i <;> fin_cases j <;> simp [sampleRmat]

/-- C133: the point of the model lies at the azimuth of the pick, at the angle of Bragg's law, and as a pick its
residual is zero. -/
theorem model_on_ring {bmat : M} {I : Instr} {rb : M} (hb : BeamResolved I.beam)
    (hrb : beamRmat I.beam I.eta = some rb) {p : Panel} (hd : IsRotation p.rd)
    (hinv : ∀ xy, p.unwarp (p.warp xy) = xy) {r : Row} {tth eta : ℝ} (h : PickAt I rb p r.xy tth eta)
    (hw : 0 < I.wavelength) (hg : bmat *ᵥ r.hkl ≠ 0) {xy : ℝ × ℝ} (hm : modelOf bmat I p none r = some xy) :
    ∃ t, BraggLaw I.wavelength (spacing bmat r.hkl) t ∧ AnglesOf rb p.rd p.td I.ts (p.unwarp xy) t eta ∧
      (FarEnough (p.unwarp xy) p.rd 1 p.td I.ts 0 → t < Real.pi → residualOf bmat I p none ⟨xy, r.hkl⟩ = some 0) := by
  obtain ⟨e, h1, k, hk⟩ := angles_of_pick hrb h
  unfold modelOf reference at hm
  simp only [h1, Option.bind_eq_bind, Option.bind_some, Option.pure_def] at hm
  obtain ⟨a, h3, h4⟩ := Option.bind_eq_some_iff.1 hm
  obtain ⟨t, h5, h6⟩ := Option.bind_eq_some_iff.1 h3
  rw [Option.some.injEq] at h6
  subst h6
  obtain ⟨b1, b2, b3⟩ := (ringTth_some hw hg t).1 h5
  unfold cart at h4
  obtain ⟨xy', h7, rfl⟩ := Option.map_eq_some_iff.1 h4
  have hpi := Real.pi_pos
  have h8 := anglesToCart_hits_partial hb hrb hd (chi := 0) (ome := 0) ⟨le_rfl, hpi.le⟩ ⟨le_rfl, hpi.le⟩
    (by rw [sampleRmat_zero]; exact h7)
  rw [sampleRmat_zero, crystalPosition_one] at h8
  obtain ⟨s, hs, h9⟩ := h8
  have hcos : Real.cos e = Real.cos eta := by rw [hk, mul_comm]; exact Real.cos_add_int_mul_two_pi eta k
  have hsin : Real.sin e = Real.sin eta := by rw [hk, mul_comm]; exact Real.sin_add_int_mul_two_pi eta k
  rw [hcos, hsin] at h9
  have hA : AnglesOf rb p.rd p.td I.ts (p.unwarp (p.warp xy')) t eta := by
    rw [hinv]
    exact ⟨⟨b1, b2⟩, s, hs, by rw [← h9]; abel⟩
  refine ⟨t, b3, hA, fun hf ht => ?_⟩
  have hpos : 0 < t := by
    rcases b1.lt_or_eq with h | h
    · exact h
    · exfalso
      rw [BraggLaw, ← h] at b3
      simp at b3
      linarith
  exact (residual_zero_iff hrb (r := ⟨p.warp xy', r.hkl⟩) ⟨hf, ⟨hpos, ht⟩, hA⟩ hw hg).2 b3

/-! ### All picks -/

/-- The picks of a panel. -/
def picksOf (data : List (Name × List (List Row))) (k : Name) : List Row := ((data.lookup k).getD []).flatten

/-- C133: there is one entry for each pick, panel by panel in the order of the instrument, ring by ring. -/
theorem evaluate_spec {β : Type} (f : Panel → Option (ℝ × ℝ → ℝ × ℝ) → Row → β) (data : List (Name × List (List Row)))
    (dets : List (Name × Panel)) (h : ∀ k ∈ dets.map Prod.fst, ∃ d, data.lookup k = some d) :
    evaluate f none data dets = some (dets.flatMap fun kp => (picksOf data kp.1).map (f kp.2 none)) := by
  induction dets with
  | nil => rfl
  | cons kp dets ih =>
    obtain ⟨k, p⟩ := kp
    obtain ⟨d, hd⟩ := h k (by simp)
    rw [evaluate, ih (fun k hk => h k (by simp [hk])), List.flatMap_cons, picksOf, hd]
    cases d with
    | nil => simp
    | cons a l => simp

/-- C133: a panel that the picks do not mention is an error. -/
theorem evaluate_missing {β : Type} (f : Panel → Option (ℝ × ℝ → ℝ × ℝ) → Row → β)
    (corrs : Option (List (Name × (ℝ × ℝ → ℝ × ℝ)))) (data : List (Name × List (List Row))) (dets : List (Name × Panel))
    (k : Name) (hk : k ∈ dets.map Prod.fst) (h : data.lookup k = none) : evaluate f corrs data dets = none := by
  induction dets with
  | nil => simp at hk
  | cons kp dets ih =>
    obtain ⟨k', p⟩ := kp
    rw [evaluate]
    rcases List.mem_cons.1 hk with rfl | hk
    · rw [h]; rfl
    · rw [ih hk]
      cases data.lookup k' with
      | none => rfl
      | some d =>
        show Option.bind _ _ = none
        rw [Option.bind_eq_none_iff]
        intro a _
        dsimp only
        split
        · rfl
        · split
          · rfl
          · rw [Option.bind_eq_bind, Option.bind_eq_none_iff]; intro _ _; rfl

/-- C133: the residuals of a calibration are all zero exactly if every pick satisfies Bragg's law. -/
theorem all_zero_iff {bmat : M} {I : Instr} {rb : M} (hrb : beamRmat I.beam I.eta = some rb) (hw : 0 < I.wavelength)
    (data : List (Name × List (List Row))) (hdata : ∀ k ∈ I.dets.map Prod.fst, ∃ d, data.lookup k = some d)
    (tth eta : Name → Row → ℝ)
    (h : ∀ kp ∈ I.dets, ∀ r ∈ picksOf data kp.1, PickAt I rb kp.2 r.xy (tth kp.1 r) (eta kp.1 r) ∧ bmat *ᵥ r.hkl ≠ 0) :
    ∃ l, residual bmat I none data = some l ∧ l.length = (I.dets.map fun kp => (picksOf data kp.1).length).sum ∧
      ((∀ x ∈ l, x = some 0) ↔
        ∀ kp ∈ I.dets, ∀ r ∈ picksOf data kp.1, BraggLaw I.wavelength (spacing bmat r.hkl) (tth kp.1 r)) := by
  refine ⟨_, evaluate_spec _ _ _ hdata, by simp [List.length_flatMap], ?_⟩
  constructor
  · intro hz kp hkp r hr
    have := hz (residualOf bmat I kp.2 none r)
      (List.mem_flatMap.2 ⟨kp, hkp, List.mem_map.2 ⟨r, hr, rfl⟩⟩)
    exact (residual_zero_iff hrb (h kp hkp r hr).1 hw (h kp hkp r hr).2).1 this
  · intro hb x hx
    obtain ⟨kp, hkp, hx⟩ := List.mem_flatMap.1 hx
    obtain ⟨r, hr, rfl⟩ := List.mem_map.1 hx
    exact (residual_zero_iff hrb (h kp hkp r hr).1 hw (h kp hkp r hr).2).2 (hb kp hkp r hr)

/-! ### The tolerance -/

/-- C133, disagreement: setting the tolerance does not change it, whatever is assigned, and is an error if the material
has none yet. -/
theorem tth_tol_fails (width : Option ℝ) (x : ℝ) :
    (∀ w, width = some w → setTthTol width x = some (some w)) ∧ (width = none → setTthTol width x = none) := by
  constructor
  · rintro w rfl
    have := Real.pi_pos.ne'
    simp only [setTthTol, tthTol, Option.map_some, Option.some.injEq]
    field_simp
  · rintro rfl
    rfl

/-! ### A concrete case -/

/-- A panel at one metre, facing the sample. -/
def demoPanel : Panel := ⟨1, ![0, 0, -1000], id, id⟩

noncomputable def demoInstr : Instr :=
  ⟨![0, 0, -1], ![1, 0, 0], 0, 2 * Real.sin (Real.pi / 8), [(['d'], demoPanel)]⟩

theorem demo_pick : PickAt demoInstr 1 demoPanel (1000, 0) (Real.pi / 4) 0 := by
  have hpi := Real.pi_pos
  have h2 : √2 * √2 = 2 := Real.mul_self_sqrt (by norm_num)
  have hp : demoPanel.td + ((demoPanel.unwarp (1000, 0)).1 • (fun i => demoPanel.rd i 0) +
      (demoPanel.unwarp (1000, 0)).2 • (fun i => demoPanel.rd i 1)) - crystalPosition 1 demoInstr.ts 0 =
      ![1000, 0, -1000] := by
    rw [crystalPosition_one]
    ext i
    fin_cases i <;> simp [demoPanel, demoInstr, Matrix.one_apply, Matrix.vecHead, Matrix.vecTail]
  refine ⟨?_, ⟨by linarith, by linarith⟩, ⟨⟨by linarith, by linarith⟩, 1000 * √2, by positivity, ?_⟩⟩
  · rw [FarEnough, hp, ← dot_eq]
    simp [dot, epsf]
    norm_num
  · have := hp
    rw [crystalPosition_one] at this
    rw [this]
    ext i
    fin_cases i <;> simp [Matrix.one_mulVec] <;> linarith

/-- A pick on its ring. -/
example : residualOf 1 demoInstr demoPanel none ⟨(1000, 0), ![1, 0, 0]⟩ = some 0 := by
  have hpi := Real.pi_pos
  have hs : 0 < Real.sin (Real.pi / 8) := Real.sin_pos_of_pos_of_lt_pi (by linarith) (by linarith)
  refine (residual_zero_iff (r := ⟨(1000, 0), ![1, 0, 0]⟩) beamRmat_default demo_pick (by simp only [demoInstr]; positivity) ?_).2 ?_
  · intro h
    have := congrFun h 0
    simp at this
  · rw [BraggLaw, spacing, ← dot_eq]
    rw [show Real.pi / 4 / 2 = Real.pi / 8 by ring]
    rw [Matrix.one_mulVec, show dot ![1, 0, 0] ![1, 0, 0] = 1 by simp [dot], Real.sqrt_one]
    show 2 * Real.sin (Real.pi / 8) = _
    ring

end Hexrd.PowderCalib
