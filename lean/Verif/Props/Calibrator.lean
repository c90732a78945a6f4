import Verif.Model.Calibrator
import Verif.Props.CalibRigid

/-! C157: running a calibration leaves the detectors where the parameters say. -/

namespace Hexrd.Calibrator

open Hexrd.Transforms Hexrd.Transforms.Spec Hexrd.Calib Hexrd.Calib.Spec Matrix

/-- What is read from the parameters made for a constraint, among parameters with other names. -/
theorem make_read (L : RotLib) (c : Conv) (pre : Calib.Name) (k : Constraint) (ps : List Param) (hn : (ps.map Param.name).Nodup)
    (hs : constrainedParams L c pre k ⊆ ps) : readC ps pre c = some (make L c k) := by
  have hm : ∀ q ∈ constrainedParams L c pre k, get ps q.name = some q := fun q hq => get_of_mem hn (hs hq)
  have hx := hm _ (List.mem_of_getElem? (i := 0) rfl)
  have hy := hm _ (List.mem_of_getElem? (i := 1) rfl)
  have hz := hm _ (List.mem_of_getElem? (i := 2) rfl)
  have ha := hm _ (List.mem_of_getElem? (i := 3) rfl)
  have hb := hm _ (List.mem_of_getElem? (i := 4) rfl)
  have hd := hm _ (List.mem_of_getElem? (i := 5) rfl)
  simp only at hx hy hz ha hb hd
  have e3 : ∀ v : V, ![v 0, v 1, v 2] = v := fun v => by ext i; fin_cases i <;> rfl
  unfold readC make
  simp [hx, hy, hz, ha, hb, hd, e3]

/-- An update about a centre that exists. -/
theorem update_eq (L : RotLib) (c : Conv) (p : CParams) (s : Sys) (h : s.center ≠ .groupMean) :
    ∃ center, update L c p s = some { s with
      panels := (constrainedStep L c center p (s.panels, s.con)).1, con := (constrainedStep L c center p (s.panels, s.con)).2 } := by
  unfold update
  cases hc : s.center with
  | instrumentMean => exact ⟨meanCenter s.panels, by simp [systemStep]⟩
  | origin => exact ⟨0, by simp [systemStep]⟩
  | groupMean => exact absurd hc h

theorem make_step {L : RotLib} (hL : L.Lawful) (c : Conv) (center : V) (l : List Panel) (k : Constraint) :
    (constrainedStep L c center (make L c k) (l, k)).1.map pose = l.map pose := by
  rw [(step_panels L c center _ l k).1, List.map_map]
  refine List.map_congr_left fun q _ => ?_
  simp only [Function.comp]
  rw [pose_movePanel hL]
  have : stepRot c (make L c k) k = 1 := by
    simp only [stepRot, make, if_true, tiltToRmat_detectorAngles hL]
    exact rot_mul_transpose (expmapRmat_isRotation _).1
  rw [this]
  simp [stepShift, make, moved_one]

/-- After the parameters are made anew, taking them over does not move the detectors. -/
theorem remake_still {L : RotLib} (hL : L.Lawful) (c : Conv) (s : Sys) (h : s.center ≠ .groupMean) :
    ∃ s', update L c (remake L c s).params (remake L c s) = some s' ∧ s'.panels.map pose = s.panels.map pose := by
  obtain ⟨center, e⟩ := update_eq L c (remake L c s).params (remake L c s) h
  exact ⟨_, e, make_step hL c center s.panels s.con⟩

/-- The same after a reset of the constraint and new parameters, and after another type of constraint was chosen in between. -/
theorem reset_remake_still {L : RotLib} (hL : L.Lawful) (c : Conv) (s : Sys) :
    ∃ s', update L c (remake L c (reset s)).params (remake L c (reset s)) = some s' ∧ s'.panels.map pose = s.panels.map pose ∧
      setType L c false s = remake L c (reset s) := by
  obtain ⟨s', e, h⟩ := remake_still hL c (reset s) (by simp [reset])
  exact ⟨s', e, h, rfl⟩

/-- A reset of the constraint alone: the parameters that were in force move the detectors once more, by the whole translation. -/
theorem reset_moves_again (L : RotLib) (c : Conv) (s s1 s2 : Sys) (t : V) (h0 : s.con = zero)
    (hp : s.params = ⟨0, t, false, true⟩) (h1 : update L c s.params s = some s1)
    (h2 : update L c (reset s1).params (reset s1) = some s2) :
    s1.panels.map Panel.tvec = s.panels.map (fun q => q.tvec + t) ∧
      s2.panels.map Panel.tvec = s1.panels.map (fun q => q.tvec + t) ∧
      ∃ s3, update L c s1.params s1 = some s3 ∧ s3.panels.map Panel.tvec = s1.panels.map Panel.tvec := by
  have step : ∀ (a b : Sys) (u : V), a.con.tvec = u → update L c ⟨0, t, false, true⟩ a = some b →
      b.panels.map Panel.tvec = a.panels.map (fun q => q.tvec + (t - u)) ∧ b.con.tvec = t ∧ b.params = a.params ∧
        b.center = a.center := by
    intro a b u hu hb
    unfold update at hb
    cases hc : a.center with
    | groupMean => rw [hc] at hb; simp [systemStep] at hb
    | instrumentMean =>
      rw [hc] at hb
      simp only [systemStep, Option.map_some, Option.some.injEq] at hb
      subst hb
      refine ⟨?_, by simp [constrainedStep, shiftStep], rfl, rfl⟩
      simp only [constrainedStep, shiftStep, rotateStep, if_true, Bool.false_eq_true, if_false, List.map_map]
      refine List.map_congr_left fun q _ => ?_
      funext i
      simp [hu]
    | origin =>
      rw [hc] at hb
      simp only [systemStep, Option.map_some, Option.some.injEq] at hb
      subst hb
      refine ⟨?_, by simp [constrainedStep, shiftStep], rfl, rfl⟩
      simp only [constrainedStep, shiftStep, rotateStep, if_true, Bool.false_eq_true, if_false, List.map_map]
      refine List.map_congr_left fun q _ => ?_
      funext i
      simp [hu]
  rw [hp] at h1
  obtain ⟨a1, a2, a3, a4⟩ := step s s1 0 (by rw [h0]; rfl) h1
  have hp1 : s1.params = ⟨0, t, false, true⟩ := a3.trans hp
  have h2' : update L c ⟨0, t, false, true⟩ (reset s1) = some s2 := by rw [← hp1]; exact h2
  obtain ⟨b1, -, -, -⟩ := step (reset s1) s2 0 rfl h2'
  refine ⟨by simpa using a1, by simpa [reset] using b1, ?_⟩
  have hc : s1.center ≠ .groupMean := by
    rw [a4]
    intro hc
    unfold update at h1
    rw [hc] at h1
    simp [systemStep] at h1
  obtain ⟨center, e⟩ := update_eq L c ⟨0, t, false, true⟩ s1 hc
  rw [hp1]
  obtain ⟨d1, -, -, -⟩ := step s1 _ t a2 e
  exact ⟨_, e, by simpa using d1⟩

/-- A detector is moved by a shift of 1 to 1, and by the same parameters after a reset to 2. -/
theorem reset_fails (L : RotLib) (c : Conv) : ∃ s s1 s2 : Sys, update L c s.params s = some s1 ∧
    update L c (reset s1).params (reset s1) = some s2 ∧ s2.panels.map pose ≠ s1.panels.map pose := by
  let s : Sys := ⟨[⟨0, 0, none, none, none⟩], zero, .instrumentMean, ⟨0, fun _ => 1, false, true⟩⟩
  obtain ⟨m1, e1⟩ := update_eq L c s.params s (by simp [s])
  obtain ⟨s1, hs1⟩ : ∃ s1, update L c s.params s = some s1 := ⟨_, e1⟩
  obtain ⟨m2, e2⟩ := update_eq L c (reset s1).params (reset s1) (by simp [reset])
  refine ⟨s, s1, _, hs1, e2, ?_⟩
  have h := reset_moves_again L c s s1 _ (fun _ => 1) rfl rfl hs1 e2
  intro hp
  have h1 := h.1
  have h2 := h.2.1
  have ht : ∀ a b : List Panel, a.map pose = b.map pose → a.map Panel.tvec = b.map Panel.tvec := by
    intro a b hab
    have := congrArg (List.map Prod.snd) hab
    simpa [List.map_map, Function.comp_def, pose] using this
  have h3 := ht _ _ hp
  rw [h2] at h3
  have h4 : (s.panels.map fun q => q.tvec + fun _ => 1) = [fun _ => (1 : ℝ)] := by
    simp [s]
  rw [h4] at h1
  have h5 := congrArg (List.map fun v : V => v + fun _ => 1) h1
  rw [List.map_map] at h5
  rw [show ((fun v : V => v + fun _ => 1) ∘ Panel.tvec) = fun q : Panel => q.tvec + fun _ => 1 from rfl, h3, h1] at h5
  simp only [List.map_cons, List.map_nil, List.cons.injEq, and_true] at h5
  have := congrFun h5 0
  norm_num at this

/-- The reset also forgets that rotations were to be about the origin. -/
theorem reset_center_fails (s : Sys) (h : s.center = .origin) : (reset s).center ≠ s.center := by
  rw [h]; simp [reset]

theorem evaluate_run (L : RotLib) (c : Conv) (trials : List CParams) : ∀ s : Sys, s.center = .instrumentMean →
    ∃ r, runSystem L c (trials.map (Prod.mk .instrumentMean)) (s.panels, s.con) = some r ∧
      evaluate L c trials s = some { s with panels := r.1, con := r.2 } := by
  induction trials with
  | nil => intro s _; exact ⟨(s.panels, s.con), rfl, rfl⟩
  | cons p ps ih =>
    intro s hs
    obtain ⟨r, h1, h2⟩ := ih { s with
      panels := (constrainedStep L c (meanCenter s.panels) p (s.panels, s.con)).1,
      con := (constrainedStep L c (meanCenter s.panels) p (s.panels, s.con)).2 } hs
    refine ⟨r, ?_, ?_⟩
    · simp only [List.map_cons, runSystem, systemStep, Option.bind_some]
      exact h1
    · simp only [evaluate, update, hs, systemStep, Option.map_some, Option.bind_some]
      rw [hs] at h2
      exact h2

/-- After a calibration with rotations about the mean centre the detectors are where the resulting parameters alone put them, whatever
the minimizer tried, and these parameters are stored. -/
theorem calibration_result {L : RotLib} (hL : L.Lawful) (c : Conv) (trials : List CParams) (result : CParams) (s : Sys)
    (hc : s.center = .instrumentMean) (hf : ∀ u ∈ trials, SameFree u result) :
    ∃ s1 s2, runCalibration L c trials result s = some s1 ∧ update L c result s = some s2 ∧
      s1.panels.map pose = s2.panels.map pose ∧ s1.params = result := by
  obtain ⟨r, h1, h2⟩ := evaluate_run L c trials s hc
  have hu : update L c result s = some { s with
      panels := (constrainedStep L c (meanCenter s.panels) result (s.panels, s.con)).1,
      con := (constrainedStep L c (meanCenter s.panels) result (s.panels, s.con)).2 } := by
    simp [update, hc, systemStep]
  refine ⟨{ s with
      panels := (constrainedStep L c (meanCenter r.1) result r).1, con := (constrainedStep L c (meanCenter r.1) result r).2,
      params := result }, _, ?_, hu, ?_, ?_⟩
  · unfold runCalibration
    rw [h2]
    simp [update, hc, systemStep]
  · refine history_independent hL c trials result (s.panels, s.con) (constrainedStep L c (meanCenter r.1) result r)
      (constrainedStep L c (meanCenter s.panels) result (s.panels, s.con)) hf ?_ ?_
    · rw [runSystem_append, h1]
      simp [runSystem, systemStep]
    · simp [runSystem, systemStep]
  · rfl
where
  runSystem_append {L : RotLib} {c : Conv} (a b : List (Center × CParams)) : ∀ s, runSystem L c (a ++ b) s =
      (runSystem L c a s).bind (runSystem L c b) := by
    induction a with
    | nil => intro s; rfl
    | cons x a ih =>
      intro s
      simp only [List.cons_append, runSystem]
      cases systemStep L c x.1 x.2 s with
      | none => rfl
      | some t => simp [ih]

/-! ### Residuals -/

/-- The residual of several calibrators: the sum of squares per number is the mean over the calibrators, each with the weight of its
number of residuals. -/
theorem residual_mean (rs : List (List ℝ)) (h : ∀ r ∈ rs, r ≠ []) :
    normalizedSsqr (residual rs) * (rs.map fun r => (r.length : ℝ)).sum =
      (rs.map fun r => normalizedSsqr r * r.length).sum := by
  have hlen : ((residual rs).length : ℝ) = (rs.map fun r => (r.length : ℝ)).sum := by
    unfold residual
    rw [List.length_flatten]
    induction rs with
    | nil => simp
    | cons r rs ih => simp [ih fun q hq => h q (List.mem_cons_of_mem _ hq)]
  have hsum : ((residual rs).map fun x => x * x).sum = (rs.map fun r => normalizedSsqr r * r.length).sum := by
    unfold residual
    rw [List.map_flatten, List.sum_flatten, List.map_map]
    congr 1
    apply List.map_congr_left
    intro r hr
    have : (r.length : ℝ) ≠ 0 := by exact_mod_cast (List.length_pos_of_ne_nil (h r hr)).ne'
    simp only [Function.comp, normalizedSsqr]
    field_simp
  rw [← hlen, ← hsum]
  by_cases he : residual rs = []
  · simp [he]
  · have : ((residual rs).length : ℝ) ≠ 0 := by exact_mod_cast (List.length_pos_of_ne_nil he).ne'
    unfold normalizedSsqr
    field_simp

theorem ssqr_nonneg (r : List ℝ) : 0 ≤ (r.map fun x => x * x).sum := by
  induction r with
  | nil => simp
  | cons x r ih => simp only [List.map_cons, List.sum_cons]; nlinarith [mul_self_nonneg x]

/-- The fit is reported as successful exactly if the sum of squares became smaller, for as many residuals as before of which not all
were zero. -/
theorem improved_iff (r0 r1 : List ℝ) (hl : r0.length = r1.length) (h0 : ∃ x ∈ r0, x ≠ 0) :
    improved r0 r1 = true ↔ (r1.map fun x => x * x).sum < (r0.map fun x => x * x).sum := by
  obtain ⟨x, hx, hx0⟩ := h0
  have hpos : 0 < (r0.map fun x => x * x).sum := by
    obtain ⟨a, b, rfl⟩ := List.append_of_mem hx
    have h1 := ssqr_nonneg a
    have h2 := ssqr_nonneg b
    simp only [List.map_append, List.map_cons, List.sum_append, List.sum_cons]
    have : 0 < x * x := mul_self_pos.2 hx0
    linarith
  have hn : (0 : ℝ) < r0.length := by exact_mod_cast List.length_pos_of_mem hx
  have hn1 : (0 : ℝ) < r1.length := by rw [← hl]; exact hn
  unfold improved
  rw [decide_eq_true_eq, gt_iff_lt, sub_pos]
  unfold normalizedSsqr
  rw [← hl, div_div_div_cancel_right₀ hn.ne', div_lt_one hpos]

/-! ### Options -/

theorem lookup_append {V : Type} (a b : List (String × V)) (k : String) :
    (a ++ b).lookup k = (a.lookup k).or (b.lookup k) := by
  induction a with
  | nil => rfl
  | cons e a ih =>
    rw [List.cons_append, List.lookup_cons, List.lookup_cons, ih]
    split <;> rfl

/-- For least squares the options given replace the defaults one by one. Another method takes the options as given, with a default for
the number of evaluations that cannot be replaced: giving it raises. -/
theorem options_spec {V : Type} (defaults odict : List (String × V)) (maxNfev : V) (k : String) :
    (∃ o, options defaults maxNfev true odict = some o ∧ keyword o k = (keyword odict k).or (keyword defaults k)) ∧
      (keyword odict "max_nfev" = none → ∃ o, options defaults maxNfev false odict = some o ∧
        keyword o k = (keyword odict k).or (if k = "max_nfev" then some maxNfev else none)) ∧
      (keyword odict "max_nfev" ≠ none → options defaults maxNfev false odict = none) := by
  refine ⟨⟨_, rfl, ?_⟩, ?_, ?_⟩
  · unfold keyword
    rw [List.reverse_append, lookup_append]
  · intro h
    refine ⟨("max_nfev", maxNfev) :: odict, by simp [options, h], ?_⟩
    unfold keyword
    rw [List.reverse_cons, lookup_append]
    congr 1
    rw [List.lookup_cons]
    by_cases hk : k = "max_nfev"
    · simp [hk]
    · have : (k == "max_nfev") = false := by simpa using hk
      rw [this, if_neg hk]; rfl
  · intro h
    simp [options, Option.isSome_iff_ne_none.2 h]

/-- A valid value is stored and the parameters are made anew unless it was stored before; every other value raises, but not with the
message about the valid values. -/
theorem engineering_spec (cur v : Option String) :
    (v = cur → setEngineering cur v = .ok (cur, false)) ∧
      (v ≠ cur → v = none ∨ v = some "None" ∨ v = some "TARDIS" → setEngineering cur v = .ok (v, true)) ∧
      (v ≠ cur → ¬ (v = none ∨ v = some "None" ∨ v = some "TARDIS") →
        ∃ e, setEngineering cur v = .error e ∧ e ≠ .message) := by
  unfold setEngineering
  refine ⟨fun h => by rw [if_pos h], fun h hv => ?_, fun h hv => ?_⟩
  · rw [if_neg h, if_neg]
    rcases hv with rfl | rfl | rfl <;> simp
  · rw [if_neg h, if_pos]
    · exact ⟨_, rfl, by decide⟩
    · simpa using hv

/-! ### Cases -/

/-- A calibration about the mean centre with one trial. -/
example : ∃ (s : Sys) (u r : CParams), s.center = .instrumentMean ∧ SameFree u r ∧ u.tvec ≠ r.tvec :=
  ⟨⟨[⟨0, 0, none, none, none⟩], zero, .instrumentMean, ⟨0, 0, true, true⟩⟩, ⟨0, 0, true, true⟩, ⟨0, fun _ => 1, true, true⟩, rfl,
    ⟨rfl, rfl⟩, by intro h; have := congrFun h 0; norm_num at this⟩

end Hexrd.Calibrator
