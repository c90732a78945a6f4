import Verif.Model.LaueSim
import Verif.Spec.LaueSim
import Verif.Props.Geometry
import Mathlib.Data.List.Basic

/-! Lemmas on the Laue simulation: the list structure of the output, and the geometry of one ray. -/

namespace Hexrd.LaueSim

open Matrix Hexrd.Transforms Hexrd.Transforms.Spec Hexrd.Simulate Hexrd.Detector Spec

/-- The row of one reflection, if the simulation reports it. -/
noncomputable def kept (s : Scene) (g : Grain) (rb : M) (h : V) : Option Spot :=
  (project s g h).bind fun xy => (measure s g rb (h, xy)).bind fun r => if r.2 then some r.1 else none

theorem filterMap_rows {α β : Type} {f : α → Option (β × Bool)} {l : List α} {rows : List (β × Bool)}
    (h : l.mapM f = some rows) :
    (rows.map fun r => if r.2 then some r.1 else none).filterMap id =
      l.filterMap fun a => (f a).bind fun r => if r.2 then some r.1 else none := by
  induction l generalizing rows with
  | nil => simp at h; subst h; rfl
  | cons a l ih =>
    simp only [List.mapM_cons] at h
    cases ha : f a with
    | none => simp [ha] at h
    | some r =>
      cases hl : l.mapM f with
      | none => simp [ha, hl] at h
      | some rs =>
        simp [ha, hl] at h
        subst h
        have : (rs.map fun r => if r.2 then some r.1 else none).filterMap (fun x => x) = _ := ih hl
        simp only [List.map_cons, List.filterMap_cons, ha, Option.bind_some, id]
        cases r.2 <;> simp only [Bool.false_eq_true, if_true, if_false, this]

theorem length_rows {α β : Type} {f : α → Option β} {l : List α} {rows : List β} (h : l.mapM f = some rows) :
    rows.length = l.length := by
  induction l generalizing rows with
  | nil => simp at h; subst h; rfl
  | cons a l ih =>
    simp only [List.mapM_cons] at h
    cases ha : f a with
    | none => simp [ha] at h
    | some r =>
      cases hl : l.mapM f with
      | none => simp [ha, hl] at h
      | some rs => simp [ha, hl] at h; subst h; simp [ih hl]

/-- The rows of the output that are not NaN, in order. -/
theorem simulate_rows {s : Scene} {g : Grain} {hkls : List V} {out : List (Option Spot)}
    (h : simulateGrain s g hkls = some out) :
    (∀ rb, beamRmat s.beam etaVec = some rb → out.filterMap id = hkls.filterMap (kept s g rb)) ∧
      (beamRmat s.beam etaVec = none → out.filterMap id = []) ∧ out.length = hkls.length := by
  unfold simulateGrain at h
  simp only at h
  have hk : ∀ rb, (hkls.filterMap fun h => (project s g h).map fun xy => (h, xy)).filterMap
      (fun a => (measure s g rb a).bind fun r => if r.2 then some r.1 else none) = hkls.filterMap (kept s g rb) := by
    intro rb
    rw [List.filterMap_filterMap]
    congr 1
    funext x
    unfold kept
    cases project s g x <;> rfl
  split at h
  · rename_i he
    rw [Option.some.injEq] at h
    subst h
    rw [List.isEmpty_iff] at he
    refine ⟨fun rb _ => ?_, fun _ => by simp, by simp⟩
    rw [← hk, he]
    simp
  · cases hb : beamRmat s.beam etaVec with
    | none => simp [hb] at h
    | some rb =>
      cases hm : (hkls.filterMap fun h => (project s g h).map fun xy => (h, xy)).mapM (measure s g rb) with
      | none => simp [hb, hm] at h
      | some rows =>
        simp only [hb, hm, Option.pure_def, Option.bind_eq_bind, Option.bind_some, Option.some.injEq] at h
        subst h
        refine ⟨fun rb' hrb' => ?_, by simp, ?_⟩
        · rw [Option.some.injEq] at hrb'
          subst hrb'
          rw [List.filterMap_append, filterMap_rows hm, hk]
          simp
        · have h1 := length_rows hm
          have h2 := List.length_filterMap_le (fun h => (project s g h).map fun xy => (h, xy)) hkls
          simp only [List.length_append, List.length_map, List.length_replicate]
          omega

theorem measure_defined (s : Scene) (g : Grain) {rb : M} (hrb : IsRotation rb) (p : V × (ℝ × ℝ)) :
    ∃ o, xyToGvec p.2 s.rd s.rs s.td s.ts g.tc rb = some o := by
  simp only [xyToGvec, xyToGvecC, beamRmat_of_columns hrb]
  exact ⟨_, rfl⟩

theorem mapM_defined {α β : Type} {f : α → Option β} {l : List α} (h : ∀ a ∈ l, ∃ b, f a = some b) :
    ∃ r, l.mapM f = some r := by
  induction l with
  | nil => exact ⟨[], by simp⟩
  | cons a l ih =>
    obtain ⟨b, hb⟩ := h a (by simp)
    obtain ⟨r, hr⟩ := ih fun x hx => h x (List.mem_cons_of_mem _ hx)
    exact ⟨b :: r, by simp [List.mapM_cons, hb, hr]⟩

/-- The simulation succeeds when there is a beam frame. -/
theorem simulate_defined (s : Scene) (g : Grain) (hkls : List V) {rb : M} (hrb : beamRmat s.beam etaVec = some rb) :
    ∃ out, simulateGrain s g hkls = some out := by
  unfold simulateGrain
  simp only
  split
  · exact ⟨_, rfl⟩
  · obtain ⟨rows, hr⟩ := mapM_defined (f := measure s g rb)
      (l := hkls.filterMap fun h => (project s g h).map fun xy => (h, xy)) (fun p _ => by
        obtain ⟨o, ho⟩ := measure_defined s g (beamRmat_isBeamFrame hrb).1 p
        simp only [measure, ho]
        exact ⟨_, rfl⟩)
    exact ⟨_, by simp only [hrb, hr, Option.bind_eq_bind, Option.bind_some]; rfl⟩

/-! ### One ray -/

theorem dot_comb {b q d : V} {c : ℝ} (e : ∀ i, d i = b i + c * q i) :
    dot d d = dot b b + 2 * c * dot b q + c ^ 2 * dot q q ∧ dot b d = dot b b + c * dot b q := by
  constructor <;> simp only [dot, e] <;> ring

/-- The ray leaving planes with reciprocal vector `q`. -/
theorem ray {b q : V} (hb : dot b b = 1) (hq : 0 < dot q q) :
    dot (reflected b ((1 / √(dot q q)) • q)) (reflected b ((1 / √(dot q q)) • q)) = 1 ∧
      dot b (reflected b ((1 / √(dot q q)) • q)) = 1 - 2 * (dot b q / √(dot q q)) ^ 2 ∧
      ∀ i, reflected b ((1 / √(dot q q)) • q) i = b i - 2 * dot b q / dot q q * q i := by
  have hs : √(dot q q) ^ 2 = dot q q := Real.sq_sqrt hq.le
  have hs0 : √(dot q q) ≠ 0 := (Real.sqrt_pos.2 hq).ne'
  have e : ∀ i, reflected b ((1 / √(dot q q)) • q) i = b i - 2 * dot b q / dot q q * q i := by
    intro i
    simp only [reflected, ← dot_eq]
    have : dot b ((1 / √(dot q q)) • q) = dot b q / √(dot q q) := by simp [dot]; ring
    rw [this]
    simp only [Pi.sub_apply, Pi.smul_apply, smul_eq_mul]
    generalize √(dot q q) = r at hs hs0 ⊢
    rw [← hs]
    field_simp
  have hq0 := hq.ne'
  obtain ⟨h1, h2⟩ := dot_comb (b := b) (q := q) (d := reflected b ((1 / √(dot q q)) • q))
    (c := -(2 * dot b q / dot q q)) (fun i => by rw [e]; ring)
  refine ⟨?_, ?_, e⟩
  · rw [h1, hb]; field_simp; ring
  · rw [h2, hb, div_pow, hs]; field_simp; ring

/-- Half the scattering angle. -/
theorem sin_half_arccos {x : ℝ} (hx : |x| ≤ 1) : Real.sin (1 / 2 * Real.arccos (1 - 2 * x ^ 2)) = |x| := by
  have h1 : x ^ 2 ≤ 1 := by rw [← sq_abs]; nlinarith [abs_nonneg x]
  have h2 : Real.cos (Real.arccos (1 - 2 * x ^ 2)) = 1 - 2 * x ^ 2 :=
    Real.cos_arccos (by nlinarith) (by nlinarith [sq_nonneg x])
  set t := Real.arccos (1 - 2 * x ^ 2)
  have h0 : 0 ≤ t := Real.arccos_nonneg _
  have hpi : t ≤ Real.pi := Real.arccos_le_pi _
  have h3 : 0 ≤ Real.sin (1 / 2 * t) := Real.sin_nonneg_of_nonneg_of_le_pi (by linarith) (by linarith)
  have h4 : Real.cos t = 1 - 2 * Real.sin (1 / 2 * t) ^ 2 := by
    have := Real.cos_two_mul (1 / 2 * t)
    have h := Real.sin_sq_add_cos_sq (1 / 2 * t)
    rw [show 2 * (1 / 2 * t) = t by ring] at this
    linarith
  have h5 : Real.sin (1 / 2 * t) ^ 2 = |x| ^ 2 := by rw [sq_abs]; linarith
  exact (sq_eq_sq₀ h3 (abs_nonneg x)).1 h5

theorem cauchy {b q : V} (hb : dot b b = 1) (hq : 0 < dot q q) : |dot b q / √(dot q q)| ≤ 1 := by
  rw [← sq_le_one_iff_abs_le_one, div_pow, Real.sq_sqrt hq.le, div_le_one hq]
  have := dot_self_nonneg (cross b q)
  rw [dot_cross_self, hb] at this
  linarith

/-- Laue's equation fixes the wavelength and the direction. -/
theorem laue_unique {b d q : V} {lam : ℝ} (hb : dot b b = 1) (hq : 0 < dot q q)
    (h : LaueEquation b d q lam) :
    dot b q < 0 ∧ lam = -(2 * dot b q / dot q q) ∧ d = reflected b ((1 / √(dot q q)) • q) := by
  obtain ⟨hd, hl, he⟩ := h
  rw [IsUnit3, ← dot_eq] at hd
  have hi : ∀ i, d i = b i + lam * q i := by
    intro i
    have := congrFun he i
    simp only [Pi.smul_apply, Pi.sub_apply, smul_eq_mul] at this
    rw [← this]; field_simp; ring
  have h1 := (dot_comb hi).1
  rw [hd, hb] at h1
  have h2 : lam * (2 * dot b q + lam * dot q q) = 0 := by linarith
  have h3 : 2 * dot b q + lam * dot q q = 0 := by
    rcases mul_eq_zero.1 h2 with h | h
    · exact absurd h hl.ne'
    · exact h
  have h4 : lam = -(2 * dot b q / dot q q) := by
    rw [eq_comm, neg_eq_iff_eq_neg, div_eq_iff hq.ne']; linarith
  refine ⟨by nlinarith, h4, ?_⟩
  ext i
  rw [(ray hb hq).2.2 i, hi i, h4]
  ring

/-- And where the beam meets the planes from the front, Laue's equation holds. -/
theorem laue_holds {b q : V} (hb : dot b b = 1) (hq : 0 < dot q q) (hbq : dot b q < 0) :
    LaueEquation b (reflected b ((1 / √(dot q q)) • q)) q (-(2 * dot b q / dot q q)) := by
  have hl : 0 < -(2 * dot b q / dot q q) := by
    rw [← neg_div]; exact div_pos (by linarith) hq
  refine ⟨?_, hl, ?_⟩
  · rw [IsUnit3, ← dot_eq]; exact (ray hb hq).1
  · ext i
    simp only [Pi.smul_apply, Pi.sub_apply, smul_eq_mul, (ray hb hq).2.2 i]
    have h1 := hl.ne'
    have h2 := hq.ne'
    have h3 := hbq.ne
    field_simp
    ring

/-- The wavelength computed from the spacing and the scattering angle. -/
theorem wavelength_eq {b q : V} (hb : dot b b = 1) (hq : 0 < dot q q) :
    2 * (1 / √(dot q q)) *
        Real.sin (1 / 2 * Real.arccos (dot b (reflected b ((1 / √(dot q q)) • q)))) = 2 * |dot b q| / dot q q := by
  rw [(ray hb hq).2.1, sin_half_arccos (cauchy hb hq), abs_div, abs_of_pos (Real.sqrt_pos.2 hq)]
  have hs : √(dot q q) * √(dot q q) = dot q q := Real.mul_self_sqrt hq.le
  have hs0 : √(dot q q) ≠ 0 := (Real.sqrt_pos.2 hq).ne'
  generalize √(dot q q) = r at hs hs0 ⊢
  rw [← hs]
  field_simp

end Hexrd.LaueSim
