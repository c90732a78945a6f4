import Verif.Props.Frames

/-!
C48: scattering vectors, diffracted directions and detector points obey the law of reflection, and the
conversions are inverse to each other.
-/

namespace Hexrd.Transforms

open Matrix Spec

theorem cross_ne_zero_of_frame {b e : V} {rb : M} (hrb : beamRmat b e = some rb) : e ⨯₃ b ≠ 0 := by
  intro h0
  have := mt (beamRmat_refused_iff b e).2 (by simp [hrb])
  push Not at this
  rw [h0] at this
  simp at this
  linarith [epsf_pos, this.2]

theorem toCrystal_eq (m : M) (chi ome : ℝ) (g : V) :
    toCrystal m chi ome g = mulTV m (mulTV (sampleRmat chi ome) g) := by
  ext j
  fin_cases j <;> simp [toCrystal, mulTV, sampleRmat] <;> ring

/-- From the crystal frame back to the laboratory. -/
theorem lab_of_toCrystal {rc : M} (hc : IsRotation rc) (chi ome : ℝ) (g : V) :
    mulV (sampleRmat chi ome) (mulV rc (toCrystal rc chi ome g)) = g := by
  rw [toCrystal_eq, mulV_mulTV hc.1, mulV_mulTV (sampleRmat_isRotation chi ome).1]

theorem dot_toCrystal {rc : M} (hc : IsRotation rc) (chi ome : ℝ) (g : V) :
    dot (toCrystal rc chi ome g) (toCrystal rc chi ome g) = dot g g := by
  rw [toCrystal_eq, dot_mulTV_mulTV hc.1, dot_mulTV_mulTV (sampleRmat_isRotation chi ome).1]

/-- In a beam frame the beam is `(0, 0, -1)`. -/
theorem beam_in_frame {b e bh : V} {r : M} (h : IsBeamFrame b e r) (hb : IsDirection bh b) :
    bh = fun i => -r i 2 := isDirection_unique hb h.2.1

theorem beam_eq_mulV {b e bh : V} {r : M} (h : IsBeamFrame b e r) (hb : IsDirection bh b) :
    bh = mulV r ![0, 0, -1] := by
  rw [beam_in_frame h hb]
  ext i; fin_cases i <;> simp [mulV]

theorem half (t : ℝ) : t * (1 / 2) = t / 2 := by ring

/-- C48: the scattering vector made from angles has unit length, and in the laboratory it makes the Bragg angle
with the beam. -/
theorem anglesToGvec_bragg {b e bh : V} (hbe : e ⨯₃ b ≠ 0) (hb : IsDirection bh b) {rc : M} (hc : IsRotation rc)
    (tth eta ome chi : ℝ) :
    IsUnit3 (anglesToGvec tth eta ome b e chi rc) ∧
      bh ⬝ᵥ (sampleRmat chi ome *ᵥ (rc *ᵥ anglesToGvec tth eta ome b e chi rc)) = -Real.sin (tth / 2) := by
  have hE := eigenBeamFrame_isBeamFrame hbe
  have hs := Real.sin_sq_add_cos_sq (tth / 2)
  have he := Real.sin_sq_add_cos_sq eta
  constructor
  · rw [IsUnit3, ← dot_eq]
    simp only [anglesToGvec]
    rw [dot_toCrystal hc, dot_mulV_mulV hE.1.1, half]
    simp [dot]
    linear_combination hs + Real.cos (tth / 2) ^ 2 * he
  · rw [← mulV_eq, ← mulV_eq, ← dot_eq]
    simp only [anglesToGvec]
    rw [lab_of_toCrystal hc, beam_eq_mulV hE hb, dot_mulV_mulV hE.1.1, half]
    simp [dot]

/-- C48: the diffraction vector made from angles has unit length, and in the laboratory it makes the angle
two-theta with the beam. -/
theorem anglesToDvec_twoTheta {b e bh : V} (hbe : e ⨯₃ b ≠ 0) (hb : IsDirection bh b) {rc : M}
    (hc : IsRotation rc) (tth eta ome chi : ℝ) :
    IsUnit3 (anglesToDvec tth eta ome b e chi rc) ∧
      bh ⬝ᵥ (sampleRmat chi ome *ᵥ (rc *ᵥ anglesToDvec tth eta ome b e chi rc)) = Real.cos tth := by
  have hE := eigenBeamFrame_isBeamFrame hbe
  have hs := Real.sin_sq_add_cos_sq tth
  have he := Real.sin_sq_add_cos_sq eta
  constructor
  · rw [IsUnit3, ← dot_eq]
    simp only [anglesToDvec]
    rw [dot_toCrystal hc, dot_mulV_mulV hE.1.1]
    simp [dot]
    linear_combination hs + Real.sin tth ^ 2 * he
  · rw [← mulV_eq, ← mulV_eq, ← dot_eq]
    simp only [anglesToDvec]
    rw [lab_of_toCrystal hc, beam_eq_mulV hE hb, dot_mulV_mulV hE.1.1]
    simp [dot]

theorem reflected_mulV {r : M} (hr : rᵀ * r = 1) (u v : V) :
    reflected (mulV r u) (mulV r v) = mulV r (reflected u v) := by
  unfold reflected
  rw [← dot_eq, dot_mulV_mulV hr, dot_eq]
  ext i
  fin_cases i <;> simp [mulV] <;> ring

theorem pre_reflected (tth eta : ℝ) :
    reflected ![0, 0, -1] ![Real.cos (tth / 2) * Real.cos eta, Real.cos (tth / 2) * Real.sin eta,
      Real.sin (tth / 2)] = ![Real.sin tth * Real.cos eta, Real.sin tth * Real.sin eta, -Real.cos tth] := by
  have h1 : Real.sin tth = 2 * Real.sin (tth / 2) * Real.cos (tth / 2) := by
    rw [← Real.sin_two_mul]; congr 1; ring
  have h2 : Real.cos tth = 1 - 2 * Real.sin (tth / 2) ^ 2 := by
    have := Real.cos_two_mul (tth / 2)
    rw [show 2 * (tth / 2) = tth by ring] at this
    have hs := Real.sin_sq_add_cos_sq (tth / 2)
    linarith
  unfold reflected
  rw [← dot_eq]
  ext i
  fin_cases i <;> simp [dot, h1, h2] <;> ring

/-- C48, law of reflection: in the laboratory the diffracted direction made from angles is the beam mirrored in
the plane whose normal is the scattering vector made from the same angles. -/
theorem dvec_is_reflection {b e bh : V} (hbe : e ⨯₃ b ≠ 0) (hb : IsDirection bh b) {rc : M} (hc : IsRotation rc)
    (tth eta ome chi : ℝ) :
    sampleRmat chi ome *ᵥ (rc *ᵥ anglesToDvec tth eta ome b e chi rc) =
      reflected bh (sampleRmat chi ome *ᵥ (rc *ᵥ anglesToGvec tth eta ome b e chi rc)) := by
  have hE := eigenBeamFrame_isBeamFrame hbe
  simp only [← mulV_eq, anglesToDvec, anglesToGvec]
  rw [lab_of_toCrystal hc, lab_of_toCrystal hc, beam_eq_mulV hE hb, reflected_mulV hE.1.1, half, pre_reflected]

/-! ### Projection on the detector -/

theorem diffract_eq (beam v : V) : diffract beam v = fun i => 2 * dot v beam * v i - beam i := by
  ext i
  fin_cases i <;> simp [diffract, dot] <;> ring

/-- The beam is long enough to be normalised, and is either exactly along `-z` or further from it than the code's
shortcut for a beam along `-z` reaches. -/
def BeamResolved (b : V) : Prop :=
  ∃ bh, IsDirection bh b ∧ epsf < √(b ⬝ᵥ b) ∧ (bh = ![0, 0, -1] ∨ epsf ≤ |-bh 2 - 1|)

theorem direction_eq {b bh : V} (hb : IsDirection bh b) : 0 < dot b b ∧ bh = fun i => b i / √(dot b b) := by
  have hp : 0 < dot b b := by
    obtain ⟨hu, c, hc, e⟩ := hb
    rw [IsUnit3, ← dot_eq] at hu
    have : dot b b = c ^ 2 := by
      rw [e]; simp only [dot] at hu ⊢; simp; linear_combination c ^ 2 * hu
    rw [this]; positivity
  exact ⟨hp, (isDirection_unique hb (eigenUnit_isDirection hp)).trans (eigenUnit_of_pos hp)⟩

theorem normalizeBeam_eq {b bh : V} (hr : BeamResolved b) (hb : IsDirection bh b) :
    normalizeBeam b = fun i => -bh i := by
  obtain ⟨bh', hb', hlen, hs⟩ := hr
  obtain rfl := isDirection_unique hb' hb
  obtain ⟨hp, he⟩ := direction_eq hb'
  rw [← dot_eq] at hlen
  have h1 : dot b b > epsf * epsf := by
    have h2 := Real.mul_self_sqrt hp.le
    have h3 := epsf_pos
    nlinarith
  have e : ∀ i, b i * (-1 / √(dot b b)) = -bh' i := by intro i; rw [he]; ring
  unfold normalizeBeam
  rw [if_pos h1]
  simp only [e]
  rcases hs with hs | hs
  · rw [hs]
    split
    · ext i; fin_cases i <;> simp
    · rfl
  · rw [if_neg (not_lt.2 hs)]

/-- C48: whatever the beam, provided it can be normalised, the direction used is within `√(2 epsf)` (about
`2.1e-8`) of its opposite. -/
theorem normalizeBeam_close {b bh : V} (hlen : epsf < √(b ⬝ᵥ b)) (hb : IsDirection bh b) :
    (normalizeBeam b + bh) ⬝ᵥ (normalizeBeam b + bh) < 2 * epsf := by
  have hpos := epsf_pos
  by_cases h : epsf ≤ |-bh 2 - 1|
  · rw [normalizeBeam_eq ⟨bh, hb, hlen, Or.inr h⟩ hb]
    have : (fun i => -bh i) + bh = 0 := by ext i; simp
    rw [this]; simp; exact hpos
  · push Not at h
    obtain ⟨hp, he⟩ := direction_eq hb
    have hu := hb.1
    rw [IsUnit3, ← dot_eq] at hu
    rw [← dot_eq] at hlen
    have h1 : dot b b > epsf * epsf := by
      have h2 := Real.mul_self_sqrt hp.le
      nlinarith
    have e : ∀ i, b i * (-1 / √(dot b b)) = -bh i := by intro i; rw [he]; ring
    unfold normalizeBeam
    rw [if_pos h1]
    simp only [e]
    rw [if_pos h, ← dot_eq]
    rw [abs_lt] at h
    simp [dot] at hu ⊢
    nlinarith

/-- The direction used by `gvec_to_xy` is the mirrored beam. -/
theorem diffract_reflected {b bh : V} (hr : BeamResolved b) (hb : IsDirection bh b) (v : V) :
    diffract (normalizeBeam b) v = reflected bh v := by
  rw [diffract_eq, normalizeBeam_eq hr hb, reflected, ← dot_eq]
  ext i
  simp [dot]; ring

theorem projectRay_hits {rd : M} (hr : IsRotation rd) {td o v : V} {xy : ℝ × ℝ}
    (h : projectRay rd td o v = some xy) : Hits rd td o v xy := by
  unfold projectRay at h
  simp only at h
  split at h
  · rename_i ht
    rw [Option.some.injEq] at h
    have hden : dot (col rd 2) v ≠ 0 := by
      intro h0; rw [h0, div_zero] at ht; exact lt_irrefl _ ht
    set t := (-dot td (col rd 2) + dot (col rd 2) o) / dot (col rd 2) v with htd
    have hz : -dot td (col rd 2) + dot (col rd 2) o = t * dot (col rd 2) v := by rw [htd]; field_simp
    obtain ⟨a00, a11, a22, a01, a02, a12⟩ := rot_entries' hr.1
    refine ⟨-t, by linarith, ?_⟩
    rw [← h]
    clear_value t
    simp only [dot, col] at hz ⊢
    ext i
    fin_cases i
    · simp
      linear_combination (-(o 0 - t * v 0 - td 0)) * a00 + (-(o 1 - t * v 1 - td 1)) * a01
        + (-(o 2 - t * v 2 - td 2)) * a02 + rd 0 2 * hz
    · simp
      linear_combination (-(o 0 - t * v 0 - td 0)) * a01 + (-(o 1 - t * v 1 - td 1)) * a11
        + (-(o 2 - t * v 2 - td 2)) * a12 + rd 1 2 * hz
    · simp
      linear_combination (-(o 0 - t * v 0 - td 0)) * a02 + (-(o 1 - t * v 1 - td 1)) * a12
        + (-(o 2 - t * v 2 - td 2)) * a22 + rd 2 2 * hz
  · simp at h

theorem projectRay_of_hits {rd : M} (hr : IsRotation rd) {td o v : V} {xy : ℝ × ℝ}
    (h : Hits rd td o v xy) (hd : dot (col rd 2) v ≠ 0) : projectRay rd td o v = some xy := by
  obtain ⟨s, hs, he⟩ := h
  have e0 := congrFun he 0
  have e1 := congrFun he 1
  have e2 := congrFun he 2
  simp at e0 e1 e2
  obtain ⟨a00, a11, a22, a01, a02, a12⟩ := rot_entries hr.1
  have hz : -dot td (col rd 2) + dot (col rd 2) o = -s * dot (col rd 2) v := by
    simp only [dot, col]
    linear_combination rd 0 2 * e0 + rd 1 2 * e1 + rd 2 2 * e2 + xy.1 * a02 + xy.2 * a12
  have ht : (-dot td (col rd 2) + dot (col rd 2) o) / dot (col rd 2) v = -s := by rw [hz]; field_simp
  unfold projectRay
  simp only [ht]
  rw [if_pos (by linarith)]
  congr 1
  apply Prod.ext
  · simp only [dot, col]
    linear_combination rd 0 0 * e0 + rd 1 0 * e1 + rd 2 0 * e2 + xy.1 * a00 + xy.2 * a01
  · simp only [dot, col]
    linear_combination rd 0 1 * e0 + rd 1 1 * e1 + rd 2 1 * e2 + xy.1 * a01 + xy.2 * a11

/-- Where the crystal sits in the laboratory. -/
def crystalPosition (rs : M) (ts tc : V) : V := ts + rs *ᵥ tc

theorem rayOrigin_eq (rs : M) (ts tc : V) : rayOrigin rs ts tc = crystalPosition rs ts tc := by
  ext i; simp [rayOrigin, crystalPosition, mulV_eq]

/-- C48: a point returned by `gvec_to_xy` is where the mirrored beam, leaving the crystal, meets the detector. -/
theorem gvecToXY_hits {b bh : V} (hr : BeamResolved b) (hb : IsDirection bh b) {rd : M} (hd : IsRotation rd)
    {g : V} {rs rc : M} {td ts tc : V} {xy : ℝ × ℝ} (h : gvecToXY g rd rs rc td ts tc b = some xy) :
    Hits rd td (crystalPosition rs ts tc) (reflected bh (rs *ᵥ (rc *ᵥ g))) xy := by
  rw [gvecToXY, diffract_reflected hr hb, mulV_eq, mulV_eq, rayOrigin_eq] at h
  exact projectRay_hits hd h

/-- C48: and every such meeting point is returned, unless the ray runs parallel to the detector. -/
theorem gvecToXY_complete {b bh : V} (hr : BeamResolved b) (hb : IsDirection bh b) {rd : M} (hd : IsRotation rd)
    {g : V} {rs rc : M} {td ts tc : V} {xy : ℝ × ℝ}
    (h : Hits rd td (crystalPosition rs ts tc) (reflected bh (rs *ᵥ (rc *ᵥ g))) xy)
    (hp : (fun i => rd i 2) ⬝ᵥ reflected bh (rs *ᵥ (rc *ᵥ g)) ≠ 0) :
    gvecToXY g rd rs rc td ts tc b = some xy := by
  rw [gvecToXY, diffract_reflected hr hb, mulV_eq, mulV_eq, rayOrigin_eq]
  exact projectRay_of_hits hd h (by rw [dot_eq]; exact hp)

/-- The documentation promises NaN for a vector that cannot satisfy a Bragg condition, that is one that does not
point against the beam.  The code never checks it: a vector and its opposite give the same point. -/
theorem gvecToXY_neg (g : V) (rd rs rc : M) (td ts tc b : V) :
    gvecToXY (-g) rd rs rc td ts tc b = gvecToXY g rd rs rc td ts tc b := by
  have h1 : ∀ (m : M) (v : V), mulV m (-v) = -mulV m v := by intro m v; simp [mulV_eq, mulVec_neg]
  have h2 : ∀ beam v : V, diffract beam (-v) = diffract beam v := by
    intro beam v; rw [diffract_eq, diffract_eq]; ext i; simp [dot]; ring
  simp only [gvecToXY, h1, h2]

/-! ### The blocked loops -/

theorem blocked_map {α β : Type} (size : Nat) (hs : 0 < size) (f : α → β) (l : List α) :
    blocked size hs (List.map f) l = l.map f := by
  induction l using blocked.induct size hs with
  | case1 l h ih => rw [blocked, dif_pos h, ih, ← List.map_append, List.take_append_drop]
  | case2 l h h0 => rw [blocked, dif_neg h, if_pos h0, List.length_eq_zero_iff.1 h0]; rfl
  | case3 l h h0 => rw [blocked, dif_neg h, if_neg h0]

/-- C48: the blocked loop over the vectors treats each vector alone, whatever their number. -/
theorem gvecToXYSingle_eq (gs : List V) (rd rs rc : M) (td ts tc b : V) :
    gvecToXYSingle gs rd rs rc td ts tc b = gs.map fun g => gvecToXY g rd rs rc td ts tc b := by
  unfold gvecToXYSingle
  simp only [List.map_map]
  rw [blocked_map]
  apply List.map_congr_left
  intro g _
  simp [gvecToXY, mulV_eq, mulVec_mulVec]

/-- C48: with one sample rotation per vector, each vector uses its own rotation; a length mismatch is refused. -/
theorem gvecToXYMulti_eq (gs : List V) (rss : List M) (rd rc : M) (td ts tc b : V) :
    gvecToXYMulti gs rss rd rc td ts tc b =
      if gs.length = rss.length then
        some (List.zipWith (fun g rs => gvecToXY g rd rs rc td ts tc b) gs rss) else none := by
  unfold gvecToXYMulti
  by_cases h : gs.length = rss.length
  · rw [if_neg (by simpa using h), if_pos h, blocked_map, List.map_zip_eq_zipWith]
    rfl
  · rw [if_pos h, if_neg h]

/-! ### Back from the detector -/

/-- The direction from the crystal to a detector point is long enough to be normalised. -/
def FarEnough (xy : ℝ × ℝ) (rd rs : M) (td ts tc : V) : Prop :=
  epsf < (td + (xy.1 • (fun i => rd i 0) + xy.2 • (fun i => rd i 1)) - crystalPosition rs ts tc) ⬝ᵥ
    (td + (xy.1 • (fun i => rd i 0) + xy.2 • (fun i => rd i 1)) - crystalPosition rs ts tc)

theorem dHat_isDirection {xy : ℝ × ℝ} {rd rs : M} {td ts tc : V} (h : FarEnough xy rd rs td ts tc) :
    IsDirection (dHat xy rd rs td ts tc)
      (td + (xy.1 • (fun i => rd i 0) + xy.2 • (fun i => rd i 1)) - crystalPosition rs ts tc) := by
  have e : (fun j => td j - ts j - mulV rs tc j + rd j 0 * xy.1 + rd j 1 * xy.2) =
      td + (xy.1 • (fun i => rd i 0) + xy.2 • (fun i => rd i 1)) - crystalPosition rs ts tc := by
    ext j; simp [crystalPosition, mulV_eq]; ring
  rw [FarEnough, ← e, ← dot_eq] at h
  rw [← e]
  have hp := epsf_pos.trans h
  unfold dHat
  simp only
  rw [if_pos h, ← eigenUnit_of_pos hp]
  exact eigenUnit_isDirection hp

/-- `(a × d) × d` for a unit `d`. -/
theorem cross_cross (a d : V) (hd : dot d d = 1) :
    cross (cross a d) d = fun i => dot a d * d i - a i := by
  simp only [dot] at hd
  ext i
  fin_cases i
  · simp [cross, dot]; linear_combination (-a 0) * hd
  · simp [cross, dot]; linear_combination (-a 1) * hd
  · simp [cross, dot]; linear_combination (-a 2) * hd

/-- What `xy_to_gvec` computes for a direction `d` off the beam: the scattering vector is the unit vector along
`d - b`. -/
theorem rotate_half {bh d : V} (hb : dot bh bh = 1) (hd : dot d d = 1)
    (hn : ¬ √(dot (cross bh d) (cross bh d)) = 0) :
    rotateVec (1 / 2 * (Real.pi - Real.arccos (dot bh d)))
        (fun j => cross bh d j / √(dot (cross bh d) (cross bh d))) d =
      some (fun i => (d i - bh i) / (2 * Real.sin (Real.arccos (dot bh d) / 2))) ∧
    0 < Real.sin (Real.arccos (dot bh d) / 2) ∧
    dot bh d = 1 - 2 * Real.sin (Real.arccos (dot bh d) / 2) ^ 2 := by
  set x := dot bh d with hx
  set n := cross bh d with hnd
  have hnn : dot n n = 1 - x ^ 2 := by rw [hnd, dot_cross_self, hb, hd]; ring
  have hnpos : 0 < dot n n := lt_of_le_of_ne (dot_self_nonneg _) fun h0 => hn (by rw [← h0, Real.sqrt_zero])
  have hx1 : -1 < x ∧ x < 1 := by constructor <;> nlinarith
  set T := Real.arccos x with hT
  have hcosT : Real.cos T = x := Real.cos_arccos hx1.1.le hx1.2.le
  have hT0 : 0 < T := Real.arccos_pos.2 hx1.2
  have hTpi : T < Real.pi := by
    rcases lt_or_eq_of_le (Real.arccos_le_pi x) with h | h
    · exact h
    · have : x ≤ -1 := Real.arccos_eq_pi.1 h
      linarith [hx1.1]
  have hsin2 : 0 < Real.sin (T / 2) := Real.sin_pos_of_pos_of_lt_pi (by linarith) (by linarith)
  have hcos2 : 0 < Real.cos (T / 2) := Real.cos_pos_of_mem_Ioo ⟨by linarith, by linarith⟩
  have hsinT : Real.sin T = 2 * Real.sin (T / 2) * Real.cos (T / 2) := by
    rw [← Real.sin_two_mul]; congr 1; ring
  have hcosT2 : x = 1 - 2 * Real.sin (T / 2) ^ 2 := by
    rw [← hcosT]
    have := Real.cos_two_mul (T / 2)
    rw [show 2 * (T / 2) = T by ring] at this
    have hs := Real.sin_sq_add_cos_sq (T / 2)
    linarith
  have hsqrt : √(dot n n) = Real.sin T := by
    rw [hnn, ← hcosT]
    have := Real.sin_sq_add_cos_sq T
    rw [show 1 - Real.cos T ^ 2 = Real.sin T ^ 2 by linarith]
    exact Real.sqrt_sq (by rw [hsinT]; positivity)
  have hsT : Real.sin T ≠ 0 := by rw [hsinT]; positivity
  refine ⟨?_, hsin2, hcosT2⟩
  have hu : dot (fun j => n j / √(dot n n)) (fun j => n j / √(dot n n)) = 1 := unit_of_sqrt hnpos
  have hproj : dot (fun j => n j / √(dot n n)) d = 0 := by
    have : dot (fun j => n j / √(dot n n)) d = dot d n / √(dot n n) := by simp only [dot]; ring
    rw [this, hnd, dot_cross_right]; simp
  have hcr : ∀ j, cross (fun j => n j / √(dot n n)) d j = (x * d j - bh j) / √(dot n n) := by
    intro j
    have h1 := congrFun (cross_cross bh d hd) j
    rw [← hx, ← hnd] at h1
    have : cross (fun j => n j / √(dot n n)) d j = cross n d j / √(dot n n) := by
      fin_cases j <;> simp [cross] <;> ring
    rw [this, h1]
  have hc : Real.cos (1 / 2 * (Real.pi - T)) = Real.sin (T / 2) := by
    rw [show 1 / 2 * (Real.pi - T) = Real.pi / 2 - T / 2 by ring, Real.cos_pi_div_two_sub]
  have hs : Real.sin (1 / 2 * (Real.pi - T)) = Real.cos (T / 2) := by
    rw [show 1 / 2 * (Real.pi - T) = Real.pi / 2 - T / 2 by ring, Real.sin_pi_div_two_sub]
  unfold rotateVec
  simp only [hu, Real.sqrt_one]
  rw [if_neg one_ne_zero]
  congr 1
  ext j
  rw [hcr, hproj, hc, hs, hsqrt, hsinT]
  have e1 := hsin2.ne'
  have e2 := hcos2.ne'
  field_simp
  linear_combination Real.cos (T / 2) * d j * hcosT2

/-- What `xy_to_gvec` returns, for a point off the beam. -/
theorem xyToGvec_value {rb : M} (hrb : IsRotation rb) {xy : ℝ × ℝ} {rd rs : M} {td ts tc : V}
    (hf : FarEnough xy rd rs td ts tc) (hoff : |dot (fun i => -rb i 2) (dHat xy rd rs td ts tc)| < 1) :
    ∃ out g, xyToGvec xy rd rs td ts tc rb = some out ∧ out.gvec = some g ∧
      out.tTh = Real.arccos (dot (fun i => -rb i 2) (dHat xy rd rs td ts tc)) ∧
      out.eta = atan2 (mulTV rb (dHat xy rd rs td ts tc) 1) (mulTV rb (dHat xy rd rs td ts tc) 0) ∧
      (∀ i, g i = (dHat xy rd rs td ts tc i - -rb i 2) / (2 * Real.sin (out.tTh / 2))) ∧
      0 < Real.sin (out.tTh / 2) ∧
      dot (fun i => -rb i 2) (dHat xy rd rs td ts tc) = 1 - 2 * Real.sin (out.tTh / 2) ^ 2 := by
  have hbeam := beamRmat_of_columns hrb
  obtain ⟨-, -, a22, -⟩ := rot_entries hrb.1
  have hb : dot (fun i => -rb i 2) (fun i => -rb i 2) = 1 := by simp only [dot]; linarith
  have hd : dot (dHat xy rd rs td ts tc) (dHat xy rd rs td ts tc) = 1 := by
    have := (dHat_isDirection hf).1
    rwa [IsUnit3, ← dot_eq] at this
  have eps1 : (1 : ℝ) > epsf := by unfold epsf; norm_num
  have u1 : (unitRow (fun i => -rb i 2)).1 = fun i => -rb i 2 := by
    rw [unitRow_of_gt (by rw [hb, Real.sqrt_one]; exact eps1), hb, Real.sqrt_one]; simp
  set d := dHat xy rd rs td ts tc with hdd
  set bh : V := fun i => -rb i 2 with hbh
  have hn : ¬ √(dot (cross bh d) (cross bh d)) = 0 := by
    rw [dot_cross_self, hb, hd]
    have h2 : dot bh d ^ 2 < 1 := by rw [← sq_abs]; nlinarith [abs_nonneg (dot bh d)]
    exact (Real.sqrt_pos.2 (by linarith)).ne'
  obtain ⟨h1, h2, h3⟩ := rotate_half hb hd hn
  refine ⟨⟨Real.arccos (dot bh d), atan2 (mulTV rb d 1) (mulTV rb d 0),
    some (fun i => (d i - bh i) / (2 * Real.sin (Real.arccos (dot bh d) / 2)))⟩, _, ?_, rfl, rfl, rfl,
    fun i => rfl, h2, h3⟩
  simp only [xyToGvec, xyToGvecC]
  rw [← hbh, hbeam]
  simp only [u1, ← hdd, if_neg hn, h1]
  rfl

theorem beam_unit {rb : M} (hrb : IsRotation rb) : dot (fun i => -rb i 2) (fun i => -rb i 2) = 1 := by
  obtain ⟨-, -, a22, -⟩ := rot_entries hrb.1
  simp only [dot]; linarith

theorem isUnit_dHat {xy : ℝ × ℝ} {rd rs : M} {td ts tc : V} (hf : FarEnough xy rd rs td ts tc) :
    dot (dHat xy rd rs td ts tc) (dHat xy rd rs td ts tc) = 1 := by
  have := (dHat_isDirection hf).1
  rwa [IsUnit3, ← dot_eq] at this

theorem mirror_normal {bh d : V} {s : ℝ} (hs : 0 < s) (hb : dot bh bh = 1) (hd : dot d d = 1)
    (h : dot bh d = 1 - 2 * s ^ 2) :
    IsUnit3 (fun i => (d i - bh i) / (2 * s)) ∧ bh ⬝ᵥ (fun i => (d i - bh i) / (2 * s)) = -s ∧
      reflected bh (fun i => (d i - bh i) / (2 * s)) = d := by
  have hs0 := hs.ne'
  have h2 : bh ⬝ᵥ (fun i => (d i - bh i) / (2 * s)) = -s := by
    rw [← dot_eq]
    simp only [dot] at *
    field_simp
    linear_combination h - hb
  refine ⟨?_, h2, ?_⟩
  · rw [IsUnit3, ← dot_eq]
    simp only [dot] at *
    field_simp
    linear_combination hd + hb - 2 * h
  · unfold reflected
    rw [h2]
    ext i
    simp
    field_simp
    ring

/-- C48: the scattering vector computed from a detector point off the beam is a unit vector at the Bragg angle to
the beam, and the beam mirrored in its plane goes from the crystal to the point. -/
theorem xyToGvec_reflects {rb : M} (hrb : IsRotation rb) {xy : ℝ × ℝ} {rd rs : M} {td ts tc : V}
    (hf : FarEnough xy rd rs td ts tc) (hoff : |(fun i => -rb i 2) ⬝ᵥ dHat xy rd rs td ts tc| < 1) :
    ∃ out g, xyToGvec xy rd rs td ts tc rb = some out ∧ out.gvec = some g ∧ IsUnit3 g ∧
      (fun i => -rb i 2) ⬝ᵥ g = -Real.sin (out.tTh / 2) ∧ 0 < out.tTh ∧ out.tTh < Real.pi ∧
      reflected (fun i => -rb i 2) g = dHat xy rd rs td ts tc ∧
      Hits rd td (crystalPosition rs ts tc) (reflected (fun i => -rb i 2) g) xy := by
  rw [← dot_eq] at hoff
  obtain ⟨out, g, h1, h2, h3, -, h5, h6, h7⟩ := xyToGvec_value hrb hf hoff
  have hb := beam_unit hrb
  have hd := isUnit_dHat hf
  have hdir := dHat_isDirection hf
  obtain ⟨m1, m2, m3⟩ := mirror_normal h6 hb hd h7
  obtain rfl : g = fun i => (dHat xy rd rs td ts tc i - -rb i 2) / (2 * Real.sin (out.tTh / 2)) := by
    ext i; exact h5 i
  rw [abs_lt] at hoff
  refine ⟨out, _, h1, h2, m1, m2, ?_, ?_, m3, ?_⟩
  · rw [h3]; exact Real.arccos_pos.2 hoff.2
  · rw [h3]
    refine lt_of_le_of_ne (Real.arccos_le_pi _) fun h0 => ?_
    have := Real.arccos_eq_pi.1 h0
    linarith [hoff.1]
  · rw [m3]
    obtain ⟨-, c, hc, e⟩ := hdir
    exact ⟨c, hc, by rw [← e]; abel⟩

theorem arg_polar {r a : ℝ} (hr : 0 < r) (h1 : -Real.pi < a) (h2 : a ≤ Real.pi) :
    atan2 (r * Real.sin a) (r * Real.cos a) = a := by
  have := Complex.arg_mul_cos_add_sin_mul_I hr (θ := a) ⟨h1, h2⟩
  refine Eq.trans ?_ this
  unfold atan2
  congr 1
  apply Complex.ext <;>
    simp [Complex.cos_ofReal_re, Complex.sin_ofReal_re, Complex.cos_ofReal_im, Complex.sin_ofReal_im]

/-- A detector point hit along the unit direction `d` is seen from the crystal in direction `d`. -/
theorem dHat_of_hits {xy : ℝ × ℝ} {rd rs : M} {td ts tc d : V} (hf : FarEnough xy rd rs td ts tc)
    (hd : IsUnit3 d) (h : Hits rd td (crystalPosition rs ts tc) d xy) : dHat xy rd rs td ts tc = d := by
  obtain ⟨s, hs, e⟩ := h
  refine isDirection_unique (dHat_isDirection hf) ⟨hd, s, hs, ?_⟩
  rw [← e]; abel

/-- C48, round trip: a reflection given by its angles, turned into a scattering vector and projected on the
detector, is read back from the detector point with the same two-theta and eta and the same scattering vector in
the laboratory. -/
theorem angles_gvec_xy_round_trip {b e : V} (hr : BeamResolved b) {rb : M} (hrb : beamRmat b e = some rb)
    {rd rc : M} (hd : IsRotation rd) (hc : IsRotation rc) {td ts tc : V} {tth eta : ℝ} (ome chi : ℝ)
    (ht : 0 < tth ∧ tth < Real.pi) (he : -Real.pi < eta ∧ eta ≤ Real.pi) {xy : ℝ × ℝ}
    (h : gvecToXY (anglesToGvec tth eta ome b e chi rc) rd (sampleRmat chi ome) rc td ts tc b = some xy)
    (hf : FarEnough xy rd (sampleRmat chi ome) td ts tc) :
    xyToGvec xy rd (sampleRmat chi ome) td ts tc rb =
      some ⟨tth, eta, some (sampleRmat chi ome *ᵥ (rc *ᵥ anglesToGvec tth eta ome b e chi rc))⟩ := by
  have hE := beamRmat_isBeamFrame hrb
  have hbe := cross_ne_zero_of_frame hrb
  have hb : IsDirection (fun i => -rb i 2) b := hE.2.1
  have hEq : eigenBeamFrame b e = rb := isBeamFrame_unique (eigenBeamFrame_isBeamFrame hbe) hE
  have hits := gvecToXY_hits hr hb hd h
  rw [← dvec_is_reflection hbe hb hc] at hits
  have hlab : sampleRmat chi ome *ᵥ (rc *ᵥ anglesToDvec tth eta ome b e chi rc) =
      mulV rb ![Real.sin tth * Real.cos eta, Real.sin tth * Real.sin eta, -Real.cos tth] := by
    simp only [← mulV_eq, anglesToDvec]
    rw [lab_of_toCrystal hc, hEq]
  have hG : sampleRmat chi ome *ᵥ (rc *ᵥ anglesToGvec tth eta ome b e chi rc) =
      mulV rb ![Real.cos (tth / 2) * Real.cos eta, Real.cos (tth / 2) * Real.sin eta, Real.sin (tth / 2)] := by
    simp only [← mulV_eq, anglesToGvec]
    rw [lab_of_toCrystal hc, hEq, half]
  have hDu : IsUnit3 (mulV rb ![Real.sin tth * Real.cos eta, Real.sin tth * Real.sin eta, -Real.cos tth]) := by
    rw [IsUnit3, ← dot_eq, dot_mulV_mulV hE.1.1]
    simp [dot]
    linear_combination Real.sin_sq_add_cos_sq tth + Real.sin tth ^ 2 * Real.sin_sq_add_cos_sq eta
  rw [hlab] at hits
  have hdh := dHat_of_hits hf hDu hits
  have hsin : 0 < Real.sin tth := Real.sin_pos_of_pos_of_lt_pi ht.1 ht.2
  have hdot : dot (fun i => -rb i 2) (dHat xy rd (sampleRmat chi ome) td ts tc) = Real.cos tth := by
    rw [hdh, beam_eq_mulV hE hb, dot_mulV_mulV hE.1.1]
    simp [dot]
  have hoff : |dot (fun i => -rb i 2) (dHat xy rd (sampleRmat chi ome) td ts tc)| < 1 := by
    rw [hdot, ← sq_lt_one_iff_abs_lt_one]
    have := Real.sin_sq_add_cos_sq tth
    nlinarith
  obtain ⟨out, g, h1, h2, h3, h4, h5, h6, -⟩ := xyToGvec_value hE.1 hf hoff
  rw [h1]
  rw [hdot, Real.arccos_cos ht.1.le ht.2.le] at h3
  rw [hdh, mulTV_mulV hE.1.1] at h4
  have h4' : out.eta = eta := by
    rw [h4]; exact arg_polar hsin he.1 he.2
  obtain ⟨o1, o2, o3⟩ := out
  simp only at h2 h3 h4' h5 h6
  subst h3 h4' h2
  congr 3
  rw [hG]
  ext i
  rw [h5, hdh, ← pre_reflected, ← reflected_mulV hE.1.1, ← beam_eq_mulV hE hb, ← hG, reflected,
    (anglesToGvec_bragg hbe hb hc _ _ _ _).2]
  have := h6.ne'
  simp
  field_simp

/-- C48, round trip the other way: the scattering vector read from a detector point off the beam projects back to
that point, when the crystal does not lie in the detector plane. -/
theorem xy_gvec_xy_round_trip {b e : V} (hr : BeamResolved b) {rb : M} (hrb : beamRmat b e = some rb)
    {rd rs rc : M} (hd : IsRotation rd) (hs : IsRotation rs) (hc : IsRotation rc) {td ts tc : V} {xy : ℝ × ℝ}
    (hf : FarEnough xy rd rs td ts tc) (hoff : |(fun i => -rb i 2) ⬝ᵥ dHat xy rd rs td ts tc| < 1)
    (hpl : (fun i => rd i 2) ⬝ᵥ (crystalPosition rs ts tc - td) ≠ 0) :
    ∃ out g, xyToGvec xy rd rs td ts tc rb = some out ∧ out.gvec = some g ∧
      gvecToXY (rcᵀ *ᵥ (rsᵀ *ᵥ g)) rd rs rc td ts tc b = some xy := by
  have hE := beamRmat_isBeamFrame hrb
  obtain ⟨out, g, h1, h2, -, -, -, -, h7, h8⟩ := xyToGvec_reflects hE.1 hf hoff
  refine ⟨out, g, h1, h2, ?_⟩
  have hb : IsDirection (fun i => -rb i 2) b := hE.2.1
  have hback : rs *ᵥ (rc *ᵥ (rcᵀ *ᵥ (rsᵀ *ᵥ g))) = g := by
    rw [← mulTV_eq, ← mulTV_eq, ← mulV_eq, ← mulV_eq, mulV_mulTV hc.1, mulV_mulTV hs.1]
  refine gvecToXY_complete hr hb hd (by rw [hback]; exact h8) ?_
  rw [hback]
  intro h0
  apply hpl
  obtain ⟨s, hs', e⟩ := h8
  obtain ⟨a00, a11, a22, a01, a02, a12⟩ := rot_entries hd.1
  rw [← dot_eq] at h0 ⊢
  generalize reflected _ g = w at *
  generalize crystalPosition rs ts tc = p at *
  have e0 := congrFun e 0
  have e1 := congrFun e 1
  have e2 := congrFun e 2
  simp at e0 e1 e2
  simp [dot] at h0 ⊢
  linear_combination rd 0 2 * e0 + rd 1 2 * e1 + rd 2 2 * e2 + xy.1 * a02 + xy.2 * a12 - s * h0

/-! ### A case that meets the hypotheses -/

theorem resolved_default : BeamResolved ![0, 0, -1] := by
  refine ⟨![0, 0, -1], ⟨by rw [IsUnit3, ← dot_eq]; simp [dot], 1, one_pos, by simp⟩, ?_, Or.inl rfl⟩
  rw [← dot_eq]; simp [dot, epsf]; norm_num

theorem default_frame : eigenBeamFrame ![0, 0, -1] ![1, 0, 0] = 1 := eigenBeamFrame_eq_beamRmat beamRmat_default

/-- Two-theta of 60 degrees, detector one metre downstream. -/
theorem demo_hit : gvecToXY (anglesToGvec (Real.pi / 3) 0 0 ![0, 0, -1] ![1, 0, 0] 0 1) 1 (sampleRmat 0 0) 1
    ![0, 0, -1000] 0 0 ![0, 0, -1] = some (1000 * √3, 0) := by
  have hd := resolved_default
  have hb : IsDirection (![0, 0, -1] : V) ![0, 0, -1] :=
    ⟨by rw [IsUnit3, ← dot_eq]; simp [dot], 1, one_pos, by simp⟩
  have hbe : (![1, 0, 0] : V) ⨯₃ ![0, 0, -1] ≠ 0 := by
    intro h; have := congrFun h 1; simp [cross_apply] at this
  have hD : reflected ![0, 0, -1] (sampleRmat 0 0 *ᵥ ((1 : M) *ᵥ
      anglesToGvec (Real.pi / 3) 0 0 ![0, 0, -1] ![1, 0, 0] 0 1)) = ![√3 / 2, 0, -(1 / 2)] := by
    rw [← dvec_is_reflection hbe hb isRotation_one]
    simp only [← mulV_eq, anglesToDvec]
    rw [lab_of_toCrystal isRotation_one, default_frame]
    ext i; fin_cases i <;> simp [mulV_eq]
  refine gvecToXY_complete hd hb isRotation_one ?_ ?_
  · rw [hD]
    refine ⟨2000, by norm_num, ?_⟩
    ext i; fin_cases i <;> simp [crystalPosition, Matrix.one_apply] <;> ring
  · rw [hD, ← dot_eq]
    simp [dot]

example : xyToGvec (1000 * √3, 0) 1 (sampleRmat 0 0) ![0, 0, -1000] 0 0 1 =
    some ⟨Real.pi / 3, 0, some (sampleRmat 0 0 *ᵥ ((1 : M) *ᵥ
      anglesToGvec (Real.pi / 3) 0 0 ![0, 0, -1] ![1, 0, 0] 0 1))⟩ := by
  have hpi := Real.pi_pos
  refine angles_gvec_xy_round_trip resolved_default beamRmat_default isRotation_one isRotation_one 0 0
    ⟨by linarith, by linarith⟩ ⟨by linarith, by linarith⟩ demo_hit ?_
  unfold FarEnough
  rw [← dot_eq]
  have h3 : √3 * √3 = 3 := Real.mul_self_sqrt (by norm_num)
  simp [dot, crystalPosition, Matrix.one_apply, epsf, Matrix.vecHead, Matrix.vecTail]
  nlinarith

end Hexrd.Transforms
