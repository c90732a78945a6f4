import Verif.Spec.NfKernels
import Verif.Props.Geometry

/-! # C171: the near-field versions of the transforms -/
namespace Hexrd.NfKernels
open Hexrd.Transforms

theorem frame_standard : eigenBeamFrame beam ![1, 0, 0] = 1 := by
  have h1 : cross ![1, 0, 0] beam = ![0, 1, 0] := by ext i; fin_cases i <;> simp [cross, beam]
  have h2 : eigenUnit beam = beam := by
    unfold eigenUnit
    rw [show dot beam beam = 1 by simp [dot, beam]]
    simp
  have h3 : eigenUnit (![0, 1, 0] : V) = ![0, 1, 0] := by
    unfold eigenUnit
    rw [show dot (![0, 1, 0] : V) ![0, 1, 0] = 1 by simp [dot]]
    simp
  unfold eigenBeamFrame
  rw [h1, h2, h3]
  ext i j
  fin_cases i <;> fin_cases j <;> simp [ofCols, cross, beam]

/-- **C171** the scattering vectors of the near-field code are those of the library, for its standard beam and reference direction. -/
theorem gvec_library (tth eta ome chi : ℝ) (rc : M) :
    gvec tth eta (sampleRmat chi ome) rc = anglesToGvec tth eta ome ![0, 0, -1] ![1, 0, 0] chi rc := by
  have h : eigenBeamFrame ![0, 0, -1] ![1, 0, 0] = 1 := frame_standard
  unfold anglesToGvec
  rw [toCrystal_eq, h]
  have e : 0.5 * tth = tth * (1 / 2) := by norm_num; ring
  ext j
  simp only [gvec, e]
  fin_cases j <;> simp [mulTV, mulV]

/-- **C171** for all spots of a grain, each with the rotation of its own frame. -/
theorem gvecs_library (angs : List (ℝ × ℝ × ℝ)) (chi : ℝ) (rc : M) :
    gvecs angs chi rc = angs.map fun a => anglesToGvec a.1 a.2.1 a.2.2 ![0, 0, -1] ![1, 0, 0] chi rc := by
  unfold gvecs sampleRmats
  rw [List.map_map]
  induction angs with
  | nil => rfl
  | cons a l ih =>
    simp only [List.map_cons, List.zipWith_cons_cons, Function.comp, gvec_library] at ih ⊢
    rw [← ih]

theorem normalized_unit {g : V} (h : dot g g = 1) : normalized g = g := by
  unfold normalized
  have : g 0 * g 0 + g 1 * g 1 + g 2 * g 2 = 1 := h
  simp [this]

/-- A vector that is not zero is brought to unit length, whatever its length was. -/
theorem normalized_direction (g : V) (h : dot g g ≠ 0) (c : ℝ) (hc : 0 < c) :
    dot (normalized g) (normalized g) = 1 ∧ normalized (fun i => c * g i) = normalized g := by
  have hp : 0 < dot g g := lt_of_le_of_ne (by simp only [dot]; nlinarith [mul_self_nonneg (g 0), mul_self_nonneg (g 1), mul_self_nonneg (g 2)]) h.symm
  have hs : √(dot g g) * √(dot g g) = dot g g := Real.mul_self_sqrt hp.le
  have hq : √(dot g g) ≠ 0 := (Real.sqrt_pos.2 hp).ne'
  have e0 : ∀ v : V, v 0 * v 0 + v 1 * v 1 + v 2 * v 2 = dot v v := fun _ => rfl
  have e1 : dot (fun i => c * g i) (fun i => c * g i) = c ^ 2 * dot g g := by simp only [dot]; ring
  have e2 : √(c ^ 2 * dot g g) = c * √(dot g g) := by rw [Real.sqrt_mul (sq_nonneg c), Real.sqrt_sq hc.le]
  constructor
  · unfold normalized
    simp only [e0, h, if_false]
    have : dot (fun i => g i * (1 / √(dot g g))) (fun i => g i * (1 / √(dot g g))) = dot g g / (√(dot g g) * √(dot g g)) := by
      simp only [dot]; ring
    rw [this, hs, div_self h]
  · unfold normalized
    simp only [e0 (fun i => c * g i), e0 g, e1, h, if_false, e2]
    rw [if_neg (by positivity)]
    ext i
    field_simp

/-- **C171** only the direction of the scattering vector counts. -/
theorem toXY_scale (g : V) (rd rs rc : M) (td ts tc : V) (h : dot g g ≠ 0) (c : ℝ) (hc : 0 < c) :
    toXY (fun i => c * g i) rd rs rc td ts tc = toXY g rd rs rc td ts tc := by
  unfold toXY
  rw [(normalized_direction g h c hc).2]

theorem beam_unit : normalized beam = beam := normalized_unit (by simp [dot, beam])

theorem normalizeBeam_standard : normalizeBeam beam = ![0, 0, 1] := by
  have h : dot beam beam = 1 := by simp [dot, beam]
  unfold normalizeBeam
  rw [h, if_pos (by unfold epsf; norm_num)]
  simp only [Real.sqrt_one]
  rw [if_pos (by simp [beam]; unfold epsf; norm_num)]

/-- The ray of the library is the beam reflected in the planes of the scattering vector. -/
theorem diffract_standard (v : V) : diffract ![0, 0, 1] v = Spec.ray v := by
  ext i; fin_cases i <;> simp [diffract, Spec.ray] <;> ring

/-- **C171** the binary rotation is the half turn: it takes every vector to its mirror image in the axis. -/
theorem binary_half_turn (v u : V) : mulV (binaryRotMat v) u = fun i => 2 * dot v u * v i - u i := by
  ext i; fin_cases i <;> simp [mulV, binaryRotMat, dot] <;> ring

theorem binary_standard (v : V) : mulV (binaryRotMat v) beam = fun i => -Spec.ray v i := by
  ext i; fin_cases i <;> simp [mulV, binaryRotMat, beam, Spec.ray] <;> ring

/-- When the near-field code gives a point: the scattering vector is at a Bragg angle other than 0 and 90 degrees, and the ray goes
against the normal of the detector. -/
theorem toXY_some_iff (g : V) (rd rs rc : M) (td ts tc : V) (hg : dot g g = 1) :
    (toXY g rd rs rc td ts tc).isSome ↔ (epsf ≤ (Spec.lab rs rc g) 2 ∧ (Spec.lab rs rc g) 2 ≤ 1 - epsf) ∧
      dot (Spec.normal rd) (Spec.ray (Spec.lab rs rc g)) ≤ -epsf := by
  have e1 : -dot beam (mulV rs (mulV rc g)) = Spec.lab rs rc g 2 := by simp [dot, beam, Spec.lab]
  have e2 : mulV rd ![0, 0, 1] = Spec.normal rd := by ext i; fin_cases i <;> simp [mulV, Spec.normal]
  have e3 : dot (Spec.normal rd) (fun i => -Spec.ray (mulV rs (mulV rc g)) i) = -dot (Spec.normal rd) (Spec.ray (Spec.lab rs rc g)) := by
    simp only [dot, Spec.lab]; ring
  unfold toXY
  simp only [beam_unit, normalized_unit hg, e1, e2, binary_standard, e3]
  split_ifs with h1 h2
  · simp only [Option.isSome_none, Bool.false_eq_true, false_iff]
    rintro ⟨⟨a, b⟩, -⟩
    rcases h1 with h1 | h1 <;> linarith
  · simp only [Option.isSome_none, Bool.false_eq_true, false_iff]
    rintro ⟨-, c⟩
    linarith
  · push Not at h1 h2
    simp only [Option.isSome_some, true_iff]
    exact ⟨h1, by linarith⟩

/-- **C171** if the plane of the detector is behind the grain, as seen along the detector's normal, every point that the near-field code
gives is the one that the library gives. -/
theorem toXY_library_partial (g : V) (rd rs rc : M) (td ts tc : V) (hg : dot g g = 1) (hgap : Spec.gap rd rs td ts tc < 0)
    (xy : ℝ × ℝ) (h : toXY g rd rs rc td ts tc = some xy) : gvecToXY g rd rs rc td ts tc ![0, 0, -1] = some xy := by
  have hd := (toXY_some_iff g rd rs rc td ts tc hg).1 (by simp [h])
  have hneg : dot (Spec.normal rd) (Spec.ray (Spec.lab rs rc g)) < 0 := by
    have : (0 : ℝ) < epsf := by unfold epsf; positivity
    linarith [hd.2]
  have e1 : -dot beam (mulV rs (mulV rc g)) = Spec.lab rs rc g 2 := by simp [dot, beam, Spec.lab]
  have e2 : mulV rd ![0, 0, 1] = Spec.normal rd := by ext i; fin_cases i <;> simp [mulV, Spec.normal]
  have e3 : dot (Spec.normal rd) (fun i => -Spec.ray (mulV rs (mulV rc g)) i) = -dot (Spec.normal rd) (Spec.ray (Spec.lab rs rc g)) := by
    simp only [dot, Spec.lab]; ring
  have e4 : dot (Spec.normal rd) (fun i => td i - (mulV rs tc i + ts i)) = Spec.gap rd rs td ts tc := by
    unfold Spec.gap; simp only [dot]; ring
  unfold toXY at h
  simp only [beam_unit, normalized_unit hg, e1, e2, binary_standard, e3, e4] at h
  rw [if_neg (by push Not; exact hd.1), if_neg (by linarith [hd.2])] at h
  have hb : normalizeBeam ![0, 0, -1] = ![0, 0, 1] := normalizeBeam_standard
  have hn : dot (Spec.normal rd) (Spec.ray (Spec.lab rs rc g)) ≠ 0 := ne_of_lt hneg
  unfold gvecToXY projectRay
  simp only [hb, diffract_standard]
  have f1 : col rd 2 = Spec.normal rd := rfl
  have f2 : -dot td (col rd 2) + dot (col rd 2) (rayOrigin rs ts tc) = -Spec.gap rd rs td ts tc := by
    rw [f1]; unfold Spec.gap; simp only [dot, rayOrigin]; ring
  rw [f2, f1]
  change (if -Spec.gap rd rs td ts tc / dot (Spec.normal rd) (Spec.ray (Spec.lab rs rc g)) < 0 then _ else _) = _
  rw [if_pos (div_neg_of_pos_of_neg (by linarith) hneg), ← h]
  have f3 : ∀ j : Fin 3, dot (fun i => Spec.gap rd rs td ts tc / -dot (Spec.normal rd) (Spec.ray (Spec.lab rs rc g)) *
        -Spec.ray (mulV rs (mulV rc g)) i - (td i - (mulV rs tc i + ts i))) (col rd j)
      = -dot td (col rd j) + dot (col rd j) (rayOrigin rs ts tc)
        - -Spec.gap rd rs td ts tc / dot (Spec.normal rd) (Spec.ray (Spec.lab rs rc g)) * dot (col rd j) (Spec.ray (mulV rs (mulV rc g))) := by
    intro j
    simp only [div_neg, neg_div]
    generalize Spec.gap rd rs td ts tc / dot (Spec.normal rd) (Spec.ray (Spec.lab rs rc g)) = q
    simp only [dot, rayOrigin]
    ring
  rw [f3 0, f3 1]
  rfl

/-- **C171** the other way round: a point of the library is also given by the near-field code, unless the ray is within the tolerance of
the beam, of backscattering or of the plane of the detector. -/
theorem library_toXY_partial (g : V) (rd rs rc : M) (td ts tc : V) (hg : dot g g = 1) (hgap : Spec.gap rd rs td ts tc < 0)
    (hl : epsf ≤ (Spec.lab rs rc g) 2 ∧ (Spec.lab rs rc g) 2 ≤ 1 - epsf) (hr : epsf ≤ |dot (Spec.normal rd) (Spec.ray (Spec.lab rs rc g))|)
    (xy : ℝ × ℝ) (h : gvecToXY g rd rs rc td ts tc ![0, 0, -1] = some xy) : toXY g rd rs rc td ts tc = some xy := by
  have hb : normalizeBeam ![0, 0, -1] = ![0, 0, 1] := normalizeBeam_standard
  have f2 : -dot td (col rd 2) + dot (col rd 2) (rayOrigin rs ts tc) = -Spec.gap rd rs td ts tc := by
    unfold Spec.gap Spec.normal col; simp only [dot, rayOrigin]; ring
  have hneg : dot (Spec.normal rd) (Spec.ray (Spec.lab rs rc g)) < 0 := by
    by_contra hc
    push Not at hc
    unfold gvecToXY projectRay at h
    simp only [hb, diffract_standard, f2] at h
    rw [if_neg] at h
    · simp at h
    · have : 0 ≤ -Spec.gap rd rs td ts tc / dot (Spec.normal rd) (Spec.ray (Spec.lab rs rc g)) := div_nonneg (by linarith) hc
      exact not_lt.2 this
  rw [abs_of_neg hneg] at hr
  obtain ⟨xy', h'⟩ := Option.isSome_iff_exists.1 ((toXY_some_iff g rd rs rc td ts tc hg).2 ⟨hl, by linarith⟩)
  have := toXY_library_partial g rd rs rc td ts tc hg hgap xy' h'
  rw [h', ← this, h]

/-- **C171 is false** for a detector in front of the grain: the near-field code gives the point where the ray, continued backwards, meets
its plane; the library gives none. -/
theorem backwards_fails : ∃ (g : V) (td : V), dot g g = 1 ∧ (toXY g 1 1 1 td 0 0).isSome ∧ gvecToXY g 1 1 1 td 0 0 ![0, 0, -1] = none := by
  have e : Spec.lab 1 1 ![4 / 5, 0, 3 / 5] = ![4 / 5, 0, 3 / 5] := by
    ext i; fin_cases i <;> simp [Spec.lab, mulV]
  have hg : dot (![4 / 5, 0, 3 / 5] : V) ![4 / 5, 0, 3 / 5] = 1 := by simp [dot]; norm_num
  refine ⟨![4 / 5, 0, 3 / 5], ![0, 0, 1], hg, ?_, ?_⟩
  · rw [toXY_some_iff _ _ _ _ _ _ _ hg, e]
    refine ⟨⟨?_, ?_⟩, ?_⟩
    · simp; unfold epsf; norm_num
    · simp; unfold epsf; norm_num
    · simp [dot, Spec.normal, Spec.ray]; unfold epsf; norm_num
  · have hb : normalizeBeam ![0, 0, -1] = ![0, 0, 1] := normalizeBeam_standard
    have e' : mulV 1 (mulV 1 ![4 / 5, 0, 3 / 5]) = (![4 / 5, 0, 3 / 5] : V) := e
    unfold gvecToXY projectRay
    simp only [hb, diffract_standard, e']
    rw [if_neg]
    simp [dot, col, rayOrigin, mulV, Spec.ray]
    norm_num

/-- A detector behind the grain that is hit. -/
example : ∃ xy, toXY ![4 / 5, 0, 3 / 5] 1 1 1 ![0, 0, -1] 0 0 = some xy ∧ Spec.gap 1 1 ![0, 0, -1] 0 0 < 0 := by
  have e : Spec.lab 1 1 ![4 / 5, 0, 3 / 5] = ![4 / 5, 0, 3 / 5] := by
    ext i; fin_cases i <;> simp [Spec.lab, mulV]
  have hg : dot (![4 / 5, 0, 3 / 5] : V) ![4 / 5, 0, 3 / 5] = 1 := by simp [dot]; norm_num
  have : (toXY ![4 / 5, 0, 3 / 5] 1 1 1 ![0, 0, -1] 0 0).isSome := by
    rw [toXY_some_iff _ _ _ _ _ _ _ hg, e]
    refine ⟨⟨?_, ?_⟩, ?_⟩
    · simp; unfold epsf; norm_num
    · simp; unfold epsf; norm_num
    · simp [dot, Spec.normal, Spec.ray]; unfold epsf; norm_num
  obtain ⟨xy, h⟩ := Option.isSome_iff_exists.1 this
  exact ⟨xy, h, by simp [Spec.gap, Spec.normal, dot, mulV]⟩

end Hexrd.NfKernels
