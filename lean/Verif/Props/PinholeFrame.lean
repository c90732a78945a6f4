import Verif.Props.PinholeRays

/-! The frame of the pinhole in the laboratory, and what is reported. -/

namespace Hexrd.Pinhole

theorem cross_ref (s : ℝ) (hs : s ^ 2 = 1) : unit (cross ⟨0, 0, -1⟩ ⟨s, 0, 0⟩) = ⟨0, -s, 0⟩ := by
  have : norm (cross ⟨0, 0, -1⟩ ⟨s, 0, 0⟩) = 1 := by
    simp [norm, cross, hs]
  simp only [unit, this]
  simp [cross]

theorem across_sq (v : Vec) : Spec.across v ^ 2 = v.x ^ 2 + v.y ^ 2 := Real.sq_sqrt (by positivity)

theorem across_nonneg (v : Vec) : 0 ≤ Spec.across v := Real.sqrt_nonneg _

theorem norm_cross_axis (v : Vec) : norm (cross ⟨0, 0, -1⟩ v) = Spec.across v := by
  simp only [norm, cross, Spec.across]
  congr 1; ring

theorem azimuth_unfold (s : ℝ) (hs : s ^ 2 = 1) (v : Vec) (hv : Spec.across v ≠ 0) :
    azimuth v ⟨0, 0, -1⟩ ⟨s, 0, 0⟩ =
      if -s * v.y < 0 then -Real.arccos (s * v.x / Spec.across v) else Real.arccos (s * v.x / Spec.across v) := by
  unfold azimuth
  simp only [cross_ref s hs, norm_cross_axis, if_neg hv]
  have h1 : dot (unit (cross ⟨0, 0, -1⟩ v)) ⟨0, -s, 0⟩ = s * v.x / Spec.across v := by
    simp only [dot, unit, norm_cross_axis]
    simp only [cross]; ring
  have h2 : dot v ⟨0, -s, 0⟩ = -s * v.y := by simp only [dot]; ring
  rw [h1, h2]

theorem ratio_le (s : ℝ) (hs : s ^ 2 = 1) (v : Vec) (hv : Spec.across v ≠ 0) :
    (s * v.x / Spec.across v) ^ 2 ≤ 1 := by
  have hp : 0 < Spec.across v := lt_of_le_of_ne (across_nonneg v) (Ne.symm hv)
  rw [div_pow, div_le_one (by positivity), mul_pow, hs, across_sq]
  nlinarith [sq_nonneg v.y]

theorem sin_ratio (s : ℝ) (hs : s ^ 2 = 1) (v : Vec) (hv : Spec.across v ≠ 0) :
    Spec.across v * Real.sin (Real.arccos (s * v.x / Spec.across v)) = |s * v.y| := by
  have hp : 0 < Spec.across v := lt_of_le_of_ne (across_nonneg v) (Ne.symm hv)
  rw [Real.sin_arccos]
  have h : 1 - (s * v.x / Spec.across v) ^ 2 = (|s * v.y| / Spec.across v) ^ 2 := by
    rw [div_pow, div_pow, sq_abs, mul_pow, mul_pow, hs]
    field_simp
    rw [across_sq]; ring
  rw [h, Real.sqrt_sq (by positivity)]
  field_simp

/-- The azimuth of a direction: with the distance from the axis it gives the two components in the frame of the pinhole. -/
theorem azimuth_frame (s : ℝ) (hs : s ^ 2 = 1) (v : Vec) :
    Spec.across v * Real.cos (azimuth v ⟨0, 0, -1⟩ ⟨s, 0, 0⟩) = (Spec.frame s v).x ∧
      Spec.across v * Real.sin (azimuth v ⟨0, 0, -1⟩ ⟨s, 0, 0⟩) = (Spec.frame s v).y := by
  by_cases hv : Spec.across v = 0
  · have h0 := across_sq v
    rw [hv] at h0
    have hx : v.x = 0 := by nlinarith [sq_nonneg v.x, sq_nonneg v.y]
    have hy : v.y = 0 := by nlinarith [sq_nonneg v.x, sq_nonneg v.y]
    simp [hv, Spec.frame, hx, hy]
  · have hp : 0 < Spec.across v := lt_of_le_of_ne (across_nonneg v) (Ne.symm hv)
    have hr := ratio_le s hs v hv
    have hab := abs_le.1 ((sq_le_one_iff_abs_le_one _).1 hr)
    rw [azimuth_unfold s hs v hv]
    constructor
    · have : Real.cos (if -s * v.y < 0 then -Real.arccos (s * v.x / Spec.across v) else Real.arccos (s * v.x / Spec.across v)) =
          s * v.x / Spec.across v := by
        split
        · rw [Real.cos_neg, Real.cos_arccos hab.1 hab.2]
        · rw [Real.cos_arccos hab.1 hab.2]
      rw [this]
      simp only [Spec.frame]
      field_simp
    · simp only [Spec.frame]
      split
      · next h =>
        rw [Real.sin_neg, mul_neg, sin_ratio s hs v hv, abs_of_pos (by linarith)]; ring
      · next h =>
        push Not at h
        rw [sin_ratio s hs v hv, abs_of_nonpos (by linarith)]; ring

theorem norm_flat (b : Vec) : norm ⟨b.x, b.y, 0⟩ = Spec.across b := by
  simp [norm, Spec.across]

/-- The azimuth of the source: for a beam off the axis `calc_phi_x` is the azimuth of the direction to the source exactly if the
source is on the side of positive azimuths. -/
theorem source_azimuth_iff (s : ℝ) (hs : s ^ 2 = 1) (b : Vec) (hb : 1e-8 < Spec.across b) :
    phiX b ⟨s, 0, 0⟩ = azimuth ⟨-b.x, -b.y, -b.z⟩ ⟨0, 0, -1⟩ ⟨s, 0, 0⟩ ↔ 0 ≤ s * b.y := by
  have hp : 0 < Spec.across b := lt_trans (by norm_num) hb
  have hneg : Spec.across ⟨-b.x, -b.y, -b.z⟩ = Spec.across b := by simp [Spec.across]
  rw [azimuth_unfold s hs _ (by rw [hneg]; exact hp.ne'), hneg]
  unfold phiX
  simp only [norm_flat, if_neg (not_le.2 hb)]
  have h1 : dot (unit ⟨b.x, b.y, 0⟩) ⟨-s, -0, -0⟩ = s * -b.x / Spec.across b := by
    simp only [dot, unit, norm_flat]; ring
  rw [h1]
  have h2 : (-s * -b.y < 0) ↔ ¬ 0 ≤ s * b.y := by rw [not_le, neg_mul_neg]
  by_cases h : 0 ≤ s * b.y
  · rw [if_neg (by rw [h2]; exact not_not.2 h)]; simp [h]
  · rw [if_pos (h2.2 h)]
    simp only [h, iff_false]
    intro he
    have h0 : Real.arccos (s * -b.x / Spec.across b) = 0 := by linarith
    have hsin := sin_ratio s hs ⟨-b.x, -b.y, -b.z⟩ (by rw [hneg]; exact hp.ne')
    rw [hneg] at hsin
    simp only at hsin
    rw [h0, Real.sin_zero, mul_zero] at hsin
    push Not at h
    have : |s * -b.y| > 0 := abs_pos.2 (by intro hh; nlinarith)
    linarith

/-- A beam that leans to the side of negative azimuths: the source is put on the other side. -/
theorem source_azimuth_fails : ∃ b : Vec, Spec.inner b b = 1 ∧ b.z < 0 ∧
    phiX b ⟨-1, 0, 0⟩ ≠ azimuth ⟨-b.x, -b.y, -b.z⟩ ⟨0, 0, -1⟩ ⟨-1, 0, 0⟩ := by
  refine ⟨⟨0, 3 / 5, -4 / 5⟩, by norm_num [Spec.inner], by norm_num, ?_⟩
  rw [Ne, source_azimuth_iff (-1) (by norm_num)]
  · norm_num
  · have : Spec.across ⟨0, 3 / 5, -4 / 5⟩ = 3 / 5 := by
      simp only [Spec.across]
      rw [show (0 : ℝ) ^ 2 + (3 / 5) ^ 2 = (3 / 5) ^ 2 by norm_num, Real.sqrt_sq (by norm_num)]
    rw [this]; norm_num

theorem polar_frame (s r : ℝ) (v : Vec) (hu : Spec.inner v v = 1) (hz : v.z ≤ 0) (f : ℝ)
    (h1 : Spec.across v * Real.cos f = (Spec.frame s v).x) (h2 : Spec.across v * Real.sin f = (Spec.frame s v).y) :
    Spec.polar r (Real.arccos |v.z|) f = Spec.smul r (Spec.frame s v) := by
  have hz1 : v.z ^ 2 ≤ 1 := by simp only [Spec.inner] at hu; nlinarith [sq_nonneg v.x, sq_nonneg v.y]
  have hz2 : |v.z| ≤ 1 := (sq_le_one_iff_abs_le_one _).1 hz1
  have hsin : Real.sin (Real.arccos |v.z|) = Spec.across v := by
    rw [Real.sin_arccos, Spec.across]
    congr 1
    rw [sq_abs]; simp only [Spec.inner] at hu; linarith
  have hcos : Real.cos (Real.arccos |v.z|) = -v.z := by
    rw [Real.cos_arccos (by linarith [abs_nonneg v.z]) hz2, abs_of_nonpos hz]
  simp only [Spec.polar, Spec.smul, hsin, hcos, h1, h2]
  rfl

/-- The angles the code computes from the beam and the directions put the source and the detector points where they are: for a unit
beam and a unit direction that both go down the axis, with the source on the side of positive azimuths. -/
theorem camera_places (s rx rd h d mu : ℝ) (hs : s ^ 2 = 1) (b v : Vec) (hb : Spec.inner b b = 1) (hv : Spec.inner v v = 1)
    (hbz : b.z ≤ 0) (hvz : v.z ≤ 0) (hbn : 1e-8 < Spec.across b) (hside : 0 ≤ s * b.y) :
    let c : Camera := ⟨rx, Real.arccos |b.z|, phiX b ⟨s, 0, 0⟩, rd, Real.arccos |v.z|, azimuth v ⟨0, 0, -1⟩ ⟨s, 0, 0⟩, h, d, mu⟩
    Spec.source c = Spec.frame s (Spec.smul (-rx) b) ∧ Spec.detector c = Spec.frame s (Spec.smul rd v) := by
  intro c
  constructor
  · have haz := (source_azimuth_iff s hs b hbn).2 hside
    have hneg : Spec.across ⟨-b.x, -b.y, -b.z⟩ = Spec.across b := by simp [Spec.across]
    obtain ⟨f1, f2⟩ := azimuth_frame s hs ⟨-b.x, -b.y, -b.z⟩
    rw [← haz, hneg] at f1 f2
    have hz1 : b.z ^ 2 ≤ 1 := by simp only [Spec.inner] at hb; nlinarith [sq_nonneg b.x, sq_nonneg b.y]
    have hsin : Real.sin (Real.arccos |b.z|) = Spec.across b := by
      rw [Real.sin_arccos, Spec.across]
      congr 1
      rw [sq_abs]; simp only [Spec.inner] at hb; linarith
    have hcos : Real.cos (Real.arccos |b.z|) = -b.z := by
      rw [Real.cos_arccos (by linarith [abs_nonneg b.z]) ((sq_le_one_iff_abs_le_one _).1 hz1), abs_of_nonpos hbz]
    show Spec.polar rx (Real.pi - Real.arccos |b.z|) (phiX b ⟨s, 0, 0⟩) = _
    simp only [Spec.polar, Real.sin_pi_sub, Real.cos_pi_sub, hsin, hcos, f1, f2]
    simp only [Spec.frame, Spec.smul, Vec.mk.injEq]
    refine ⟨by ring, by ring, by ring⟩
  · obtain ⟨f1, f2⟩ := azimuth_frame s hs v
    show Spec.polar rd (Real.arccos |v.z|) (azimuth v ⟨0, 0, -1⟩ ⟨s, 0, 0⟩) = _
    rw [polar_frame s rd v hv hvz _ f1 f2]
    simp only [Spec.frame, Spec.smul, Vec.mk.injEq]
    refine ⟨by ring, by ring, by ring⟩

/-- The frame keeps scattering angles. -/
theorem frame_scattering (s : ℝ) (hs : s ^ 2 = 1) (x p q : Vec) :
    Spec.scattering (Spec.frame s x) (Spec.frame s p) (Spec.frame s q) = Spec.scattering x p q := by
  have hsub : ∀ a b, Spec.sub (Spec.frame s a) (Spec.frame s b) = Spec.frame s (Spec.sub a b) := by
    intro a b; simp only [Spec.sub, Spec.frame, Vec.mk.injEq]; refine ⟨by ring, by ring, by ring⟩
  have hin : ∀ a b, Spec.inner (Spec.frame s a) (Spec.frame s b) = Spec.inner a b := by
    intro a b; simp only [Spec.inner, Spec.frame]; linear_combination (a.x * b.x + a.y * b.y) * hs
  simp only [Spec.scattering, Spec.angle, Spec.length, hsub, hin]

/-- The angle of an element in the laboratory: the element is at the point `p` whose coordinates in the frame are those of the grid. -/
theorem lab_angle (s rx rd h d mu : ℝ) (hs : s ^ 2 = 1) (b v : Vec) (hb : Spec.inner b b = 1) (hv : Spec.inner v v = 1)
    (hbz : b.z ≤ 0) (hvz : v.z ≤ 0) (hbn : 1e-8 < Spec.across b) (hside : 0 ≤ s * b.y) (e : Element) (p : Vec)
    (hval : Spec.Valid ⟨rx, Real.arccos |b.z|, phiX b ⟨s, 0, 0⟩, rd, Real.arccos |v.z|, azimuth v ⟨0, 0, -1⟩ ⟨s, 0, 0⟩, h, d, mu⟩)
    (hw : Spec.OnWall ⟨rx, Real.arccos |b.z|, phiX b ⟨s, 0, 0⟩, rd, Real.arccos |v.z|, azimuth v ⟨0, 0, -1⟩ ⟨s, 0, 0⟩, h, d, mu⟩ e)
    (hp : Spec.frame s p = ⟨d / 2 * Real.cos e.phi, d / 2 * Real.sin e.phi, e.z⟩) :
    scatter ⟨rx, Real.arccos |b.z|, phiX b ⟨s, 0, 0⟩, rd, Real.arccos |v.z|, azimuth v ⟨0, 0, -1⟩ ⟨s, 0, 0⟩, h, d, mu⟩ e =
      Spec.scattering (Spec.smul (-rx) b) p (Spec.smul rd v) := by
  obtain ⟨h1, h2⟩ := camera_places s rx rd h d mu hs b v hb hv hbz hvz hbn hside
  rw [scatter_eq _ hval e hw, h1, h2, ← frame_scattering s hs (Spec.smul (-rx) b) p, hp]
  rfl

/-- The distance of a detector point is that of the first panel it lies on. -/
theorem panel_first (panels : List (Option ℝ)) (r : ℝ) :
    panelDistance panels = some r ↔ ∃ pre post, panels = pre ++ some r :: post ∧ ∀ p ∈ pre, p = none := by
  have hsome : ∀ (l : List (Option ℝ)) (x : ℝ),
      l.foldl keep (some x) = some x := by
    intro l x
    induction l with
    | nil => rfl
    | cons a l ih => exact ih
  unfold panelDistance
  induction panels with
  | nil => simp
  | cons a l ih =>
    cases a with
    | none =>
      rw [List.foldl_cons, keep]
      refine Iff.trans ih ?_
      constructor
      · rintro ⟨pre, post, rfl, h⟩
        exact ⟨none :: pre, post, rfl, by simpa using h⟩
      · rintro ⟨pre, post, h, hn⟩
        cases pre with
        | nil => simp at h
        | cons b pre =>
          simp only [List.cons_append, List.cons.injEq] at h
          exact ⟨pre, post, h.2, fun p hp => hn p (List.mem_cons_of_mem _ hp)⟩
    | some x =>
      rw [List.foldl_cons, keep]
      rw [hsome]
      constructor
      · intro h
        cases h
        exact ⟨[], l, rfl, by simp⟩
      · rintro ⟨pre, post, h, hn⟩
        cases pre with
        | nil => simp at h; rw [h.1]
        | cons b pre =>
          simp only [List.cons_append, List.cons.injEq] at h
          have := hn b (List.mem_cons_self ..)
          rw [← h.1] at this
          cases this

/-- Of the four reports three are the nominal angle less the shift, and the polar map has the shift with the other sign. -/
theorem reports (q tth : ℝ) :
    ryggReports q tth = (tth - (q - tth), -(q - tth), -(q - tth), q - tth) := by
  simp only [ryggReports, Prod.mk.injEq]
  refine ⟨trivial, by ring, by ring, trivial⟩

/-- The sign of the polar map differs from that of the map over pixels wherever there is a shift. -/
theorem map_sign_fails (q tth : ℝ) (h : q ≠ tth) : (ryggReports q tth).2.2.1 ≠ (ryggReports q tth).2.2.2 := by
  simp only [ryggReports]
  intro hh
  exact h (by linarith)

/-- A beam as in use: leaning to the right side. -/
example : ∃ b : Vec, Spec.inner b b = 1 ∧ b.z ≤ 0 ∧ 1e-8 < Spec.across b ∧ 0 ≤ (-1 : ℝ) * b.y := by
  refine ⟨⟨3 / 5, 0, -4 / 5⟩, by norm_num [Spec.inner], by norm_num, ?_, by norm_num⟩
  have : Spec.across ⟨3 / 5, 0, -4 / 5⟩ = 3 / 5 := by
    simp only [Spec.across]
    rw [show (3 / 5 : ℝ) ^ 2 + 0 ^ 2 = (3 / 5) ^ 2 by norm_num, Real.sqrt_sq (by norm_num)]
  rw [this]; norm_num

end Hexrd.Pinhole
