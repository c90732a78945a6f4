import Verif.Lemmas.Calib

/-!
C53: relative constraints keep the arrangement of the detectors.
C67: whether the result depends on the history of the updates.
-/

namespace Hexrd.Calib

open Hexrd.Transforms Hexrd.Transforms.Spec Hexrd.Calib.Spec Matrix

/-! ### The whole instrument -/

/-- A history of updates with a system constraint; the rotation center may be changed in between. -/
noncomputable def runSystem (L : RotLib) (c : Conv) :
    List (Center × CParams) → List Panel × Constraint → Option (List Panel × Constraint)
  | [], s => some s
  | (k, p) :: h, s => (systemStep L c k p s).bind (runSystem L c h)

theorem systemStep_eq {L : RotLib} {c : Conv} {k : Center} {p : CParams} {s s' : List Panel × Constraint}
    (h : systemStep L c k p s = some s') : ∃ center, s' = constrainedStep L c center p s := by
  cases k
  · exact ⟨meanCenter s.1, by simpa [systemStep] using h.symm⟩
  · simp [systemStep] at h
  · exact ⟨0, by simpa [systemStep] using h.symm⟩

theorem step_rigid {L : RotLib} (hL : L.Lawful) (c : Conv) (center : V) (p : CParams) (s : List Panel × Constraint) :
    RigidlyMoved (s.1.map pose) ((constrainedStep L c center p s).1.map pose) := by
  rw [show s = (s.1, s.2) from rfl, (step_panels L c center p s.1 s.2).1, List.map_map]
  refine ⟨stepRot c p s.2, center - stepRot c p s.2 *ᵥ center + stepShift p s.2, stepRot_isRotation c p s.2, ?_⟩
  rw [List.map_map]
  exact List.map_congr_left fun q _ => pose_movePanel hL c center p s.2 q

/-- C53: whatever the history of the parameters, all detectors take part in one rigid motion and nothing else of them
changes. -/
theorem system_rigid {L : RotLib} (hL : L.Lawful) (c : Conv) (h : List (Center × CParams))
    (s s' : List Panel × Constraint) (hs : runSystem L c h s = some s') :
    RigidlyMoved (s.1.map pose) (s'.1.map pose) ∧ s'.1.map attrs = s.1.map attrs := by
  induction h generalizing s with
  | nil =>
    simp only [runSystem, Option.some.injEq] at hs
    subst hs
    exact ⟨rigidlyMoved_refl _, rfl⟩
  | cons kp h ih =>
    obtain ⟨k, p⟩ := kp
    simp only [runSystem, Option.bind_eq_some_iff] at hs
    obtain ⟨s1, h1, h2⟩ := hs
    obtain ⟨center, rfl⟩ := systemStep_eq h1
    obtain ⟨ih1, ih2⟩ := ih _ h2
    refine ⟨rigidlyMoved_trans (step_rigid hL c center p s) ih1, ?_⟩
    rw [ih2, show s = (s.1, s.2) from rfl, (step_panels L c center p s.1 s.2).1, List.map_map]
    exact List.map_congr_left fun q _ => attrs_movePanel L c center p s.2 q

/-- C53: … so each detector is seen from each other one as before. -/
theorem system_arrangement {L : RotLib} (hL : L.Lawful) (c : Conv) (h : List (Center × CParams))
    (s s' : List Panel × Constraint) (hs : runSystem L c h s = some s') :
    SameArrangement (s.1.map pose) (s'.1.map pose) :=
  sameArrangement_of_rigidlyMoved (system_rigid hL c h s s' hs).1

/-- C53: … and an update raises only for the group center, which a system constraint does not have. -/
theorem system_defined (L : RotLib) (c : Conv) (h : List (Center × CParams)) (s : List Panel × Constraint)
    (hc : ∀ x ∈ h, x.1 ≠ .groupMean) : ∃ s', runSystem L c h s = some s' := by
  induction h generalizing s with
  | nil => exact ⟨s, rfl⟩
  | cons kp h ih =>
    obtain ⟨k, p⟩ := kp
    have hk : k ≠ .groupMean := hc (k, p) (by simp)
    cases k with
    | groupMean => exact absurd rfl hk
    | instrumentMean => exact ih _ fun x hx => hc x (by simp [hx])
    | origin => exact ih _ fun x hx => hc x (by simp [hx])

/-! ### Groups -/

/-- A history of updates with group constraints. -/
noncomputable def runGroup (L : RotLib) (c : Conv) (h : List (Center × (Name → CParams)))
    (s : List Panel × (Name → Constraint)) : List Panel × (Name → Constraint) :=
  h.foldl (fun s kp => groupUpdate L c kp.1 kp.2 s) s

/-- The center of rotation of a group (`relative_constraints.py:114-126`). -/
noncomputable def groupCenter (k : Center) (g : Name) (l : List Panel) : V :=
  match k with
  | .instrumentMean => meanCenter l
  | .groupMean => meanCenter (l.filter fun q => q.group = some g)
  | .origin => 0

theorem groupStep_panels (L : RotLib) (c : Conv) (k : Center) (g : Name) (p : CParams) (s : List Panel × Constraint) :
    (groupStep L c k g p s).1 =
      s.1.map fun q => if q.group = some g then movePanel L c (groupCenter k g s.1) p s.2 q else q := by
  cases k <;> rfl

/-- The detectors of one group. -/
def members (g : Name) (l : List Panel) : List Panel := l.filter fun q => q.group = some g

theorem members_map {g : Name} {f : Panel → Panel} (hf : ∀ q, (f q).group = q.group) (l : List Panel) :
    members g (l.map f) = (members g l).map f := by
  induction l with
  | nil => rfl
  | cons q l ih =>
    simp only [members, List.map_cons, List.filter_cons, hf] at *
    split <;> simp [ih]

theorem filter_none_map {f : Panel → Panel} (hf : ∀ q, q.group = none → f q = q) (hg : ∀ q, (f q).group = q.group)
    (l : List Panel) : (l.map f).filter (fun q => q.group = none) = l.filter fun q => q.group = none := by
  induction l with
  | nil => rfl
  | cons q l ih =>
    simp only [List.map_cons, List.filter_cons, hg, ih]
    by_cases h : q.group = none
    · rw [hf q h]
    · simp [h]

theorem groupStep_rigid {L : RotLib} (hL : L.Lawful) (c : Conv) (k : Center) (g g' : Name) (p : CParams)
    (s : List Panel × Constraint) :
    RigidlyMoved ((members g' s.1).map pose) ((members g' (groupStep L c k g p s).1).map pose) ∧
      (groupStep L c k g p s).1.map attrs = s.1.map attrs ∧
      (groupStep L c k g p s).1.filter (fun q => q.group = none) = s.1.filter fun q => q.group = none := by
  rw [groupStep_panels]
  have hg : ∀ q : Panel, (if q.group = some g then movePanel L c (groupCenter k g s.1) p s.2 q else q).group = q.group := by
    intro q; split
    · exact group_movePanel _ _ _ _ _ _
    · rfl
  refine ⟨?_, ?_, ?_⟩
  · rw [members_map hg, List.map_map]
    by_cases h : g' = g
    · subst h
      refine ⟨stepRot c p s.2, groupCenter k g' s.1 - stepRot c p s.2 *ᵥ groupCenter k g' s.1 + stepShift p s.2,
        stepRot_isRotation c p s.2, ?_⟩
      rw [List.map_map]
      refine List.map_congr_left fun q hq => ?_
      have : q.group = some g' := by simpa [members] using (List.mem_filter.1 hq).2
      simp only [Function.comp, this, if_true]
      exact pose_movePanel hL c _ p s.2 q
    · have : ∀ q ∈ members g' s.1,
          (pose ∘ fun q => if q.group = some g then movePanel L c (groupCenter k g s.1) p s.2 q else q) q = pose q := by
        intro q hq
        have hq' : q.group = some g' := by simpa [members] using (List.mem_filter.1 hq).2
        have : q.group ≠ some g := by rw [hq']; simpa using h
        simp [this]
      rw [List.map_congr_left this]
      exact rigidlyMoved_refl _
  · rw [List.map_map]
    refine List.map_congr_left fun q _ => ?_
    simp only [Function.comp]
    split
    · exact attrs_movePanel _ _ _ _ _ _
    · rfl
  · exact filter_none_map (fun q hq => if_neg (by rw [hq]; simp)) hg s.1

theorem groupUpdate_rigid {L : RotLib} (hL : L.Lawful) (c : Conv) (k : Center) (g' : Name) (ps : Name → CParams)
    (s : List Panel × (Name → Constraint)) :
    RigidlyMoved ((members g' s.1).map pose) ((members g' (groupUpdate L c k ps s).1).map pose) ∧
      (groupUpdate L c k ps s).1.map attrs = s.1.map attrs ∧
      (groupUpdate L c k ps s).1.filter (fun q => q.group = none) = s.1.filter fun q => q.group = none := by
  unfold groupUpdate
  generalize detectorGroups s.1 = gs
  induction gs generalizing s with
  | nil => exact ⟨rigidlyMoved_refl _, rfl, rfl⟩
  | cons g gs ih =>
    rw [List.foldl_cons]
    obtain ⟨h1, h2, h3⟩ := ih ((groupStep L c k g (ps g) (s.1, s.2 g)).1,
      fun g' => if g' = g then (groupStep L c k g (ps g) (s.1, s.2 g)).2 else s.2 g')
    obtain ⟨e1, e2, e3⟩ := groupStep_rigid hL c k g g' (ps g) (s.1, s.2 g)
    exact ⟨rigidlyMoved_trans e1 h1, h2.trans e2, h3.trans e3⟩

/-- C53: whatever the history of the parameters, the detectors of each group take part in one rigid motion, detectors
outside all groups do not move, and nothing else of any detector changes. -/
theorem group_rigid {L : RotLib} (hL : L.Lawful) (c : Conv) (h : List (Center × (Name → CParams)))
    (s : List Panel × (Name → Constraint)) :
    (∀ g, RigidlyMoved ((members g s.1).map pose) ((members g (runGroup L c h s).1).map pose)) ∧
      (runGroup L c h s).1.map attrs = s.1.map attrs ∧
      (runGroup L c h s).1.filter (fun q => q.group = none) = s.1.filter fun q => q.group = none := by
  induction h generalizing s with
  | nil => exact ⟨fun g => rigidlyMoved_refl _, rfl, rfl⟩
  | cons kp h ih =>
    have h0 := fun g => groupUpdate_rigid hL c kp.1 g kp.2 s
    obtain ⟨h1, h2, h3⟩ := ih (groupUpdate L c kp.1 kp.2 s)
    exact ⟨fun g => rigidlyMoved_trans (h0 g).1 (h1 g), h2.trans (h0 []).2.1, h3.trans (h0 []).2.2⟩

/-! ### Dependence on the history -/

/-- The sum of one coordinate of moved positions. -/
theorem sum_moved (q : M) (t : V) (f : Panel → Panel) (hf : ∀ x, (f x).tvec = q *ᵥ x.tvec + t) (l : List Panel)
    (i : Fin 3) :
    ((l.map f).map fun x => x.tvec i).sum =
      q i 0 * (l.map fun x => x.tvec 0).sum + q i 1 * (l.map fun x => x.tvec 1).sum +
        q i 2 * (l.map fun x => x.tvec 2).sum + l.length * t i := by
  induction l with
  | nil => simp
  | cons x l ih =>
    simp only [List.map_cons, List.sum_cons, ih, hf, Pi.add_apply, mulVec, dotProduct, Fin.sum_univ_three,
      List.length_cons, Nat.cast_add, Nat.cast_one]
    ring

theorem meanCenter_moved (q : M) (t : V) (f : Panel → Panel) (hf : ∀ x, (f x).tvec = q *ᵥ x.tvec + t)
    (l : List Panel) (hl : l ≠ []) : meanCenter (l.map f) = q *ᵥ meanCenter l + t := by
  have hn : (l.length : ℝ) ≠ 0 := by simpa using hl
  ext i
  simp only [meanCenter, sum_moved q t f hf, Pi.add_apply, mulVec, dotProduct, Fin.sum_univ_three, List.length_map]
  field_simp

theorem tvec_movePanel {L : RotLib} (hL : L.Lawful) (c : Conv) (center : V) (p : CParams) (k : Constraint) (q : Panel) :
    (movePanel L c center p k q).tvec =
      stepRot c p k *ᵥ q.tvec + (center - stepRot c p k *ᵥ center + stepShift p k) :=
  congrArg Prod.snd (pose_movePanel hL c center p k q)

/-- The same parameters are free in both. -/
def SameFree (u p : CParams) : Prop := u.tiltVary = p.tiltVary ∧ u.tvecVary = p.tvecVary

theorem stepRot_stepRot {L : RotLib} (hL : L.Lawful) (c : Conv) (center : V) (u p : CParams) (k : Constraint)
    (h : SameFree u p) :
    stepRot c p (constrainedStep L c center u ([], k)).2 * stepRot c u k = stepRot c p k := by
  have hk := (step_constraint hL c center u [] k).1
  unfold stepRot
  rw [hk, h.1]
  cases p.tiltVary
  · simp
  · simp only [if_true]
    rw [Matrix.mul_assoc, ← Matrix.mul_assoc _ (tiltToRmat c u.tilt), (tiltToRmat_isRotation c u.tilt).1, Matrix.one_mul]

theorem stepShift_stepShift {L : RotLib} (hL : L.Lawful) (c : Conv) (center : V) (u p : CParams) (k : Constraint)
    (h : SameFree u p) :
    stepShift u k + stepShift p (constrainedStep L c center u ([], k)).2 = stepShift p k := by
  have hk := (step_constraint hL c center u [] k).2
  unfold stepShift
  rw [hk, h.2]
  cases p.tvecVary <;> simp

/-- Two updates about the mean center are the second alone. -/
theorem two_steps {L : RotLib} (hL : L.Lawful) (c : Conv) (u p : CParams) (s : List Panel × Constraint)
    (h : SameFree u p) :
    (constrainedStep L c (meanCenter (constrainedStep L c (meanCenter s.1) u s).1) p
      (constrainedStep L c (meanCenter s.1) u s)).1.map pose =
    (constrainedStep L c (meanCenter s.1) p s).1.map pose := by
  obtain ⟨l, k⟩ := s
  by_cases hl : l = []
  · subst hl
    have : (constrainedStep L c (meanCenter []) u ([], k)).1 = [] := by
      rw [(step_panels L c _ u [] k).1]; rfl
    rw [show constrainedStep L c (meanCenter ([], k).1) u ([], k) =
      ((constrainedStep L c (meanCenter []) u ([], k)).1, (constrainedStep L c (meanCenter []) u ([], k)).2) from rfl,
      this, (step_panels _ _ _ _ _ _).1, (step_panels _ _ _ _ _ _).1]
    rfl
  · simp only
    obtain ⟨h1, h2⟩ := step_panels L c (meanCenter l) u l k
    rw [show constrainedStep L c (meanCenter l) u (l, k) =
      ((constrainedStep L c (meanCenter l) u (l, k)).1, (constrainedStep L c (meanCenter l) u (l, k)).2) from rfl]
    simp only
    rw [(step_panels L c _ p _ _).1, (step_panels L c _ p l k).1, h1, h2,
      meanCenter_moved _ _ _ (fun x => tvec_movePanel hL c (meanCenter l) u k x) l hl]
    simp only [List.map_map]
    refine List.map_congr_left fun q _ => ?_
    simp only [Function.comp]
    rw [pose_movePanel hL, pose_movePanel hL, pose_movePanel hL, moved_moved, stepRot_stepRot hL c _ u p k h]
    congr 1
    have e1 := stepShift_stepShift hL c (meanCenter l) u p k h
    have e2 := stepRot_stepRot hL c (meanCenter l) u p k h
    rw [← e1, ← e2]
    simp only [mulVec_add, mulVec_sub, mulVec_mulVec]
    abel

/-- C67: with rotations about the mean center, the detectors end where the last parameters put them, whatever the
parameters in between were. -/
theorem history_independent {L : RotLib} (hL : L.Lawful) (c : Conv) (us : List CParams) (p : CParams)
    (s s1 s2 : List Panel × Constraint) (hf : ∀ u ∈ us, SameFree u p)
    (h1 : runSystem L c (us.map (Prod.mk .instrumentMean) ++ [(.instrumentMean, p)]) s = some s1)
    (h2 : runSystem L c [(.instrumentMean, p)] s = some s2) : s1.1.map pose = s2.1.map pose := by
  induction us generalizing s s2 with
  | nil =>
    simp only [List.map_nil, List.nil_append] at h1
    rw [h1] at h2
    cases h2; rfl
  | cons u us ih =>
    simp only [List.map_cons, List.cons_append, runSystem, systemStep, Option.bind_some] at h1
    have h3 : runSystem L c [(.instrumentMean, p)] (constrainedStep L c (meanCenter s.1) u s) =
      some (constrainedStep L c (meanCenter (constrainedStep L c (meanCenter s.1) u s).1) p
        (constrainedStep L c (meanCenter s.1) u s)) := rfl
    rw [ih _ _ (fun x hx => hf x (by simp [hx])) h1 h3, two_steps hL c u p s (hf u (by simp))]
    simp only [runSystem, systemStep, Option.bind_some, Option.some.injEq] at h2
    rw [← h2]

/-- The hypotheses are met: any history about the mean center runs. -/
theorem history_defined (L : RotLib) (c : Conv) (us : List CParams) (s : List Panel × Constraint) :
    ∃ s', runSystem L c (us.map (Prod.mk .instrumentMean)) s = some s' :=
  system_defined L c _ s fun x hx => by
    obtain ⟨u, -, rfl⟩ := List.mem_map.1 hx
    simp

theorem detectorGroups_aux (gs acc : List Name) (h : acc.Nodup) :
    (gs.foldl (fun acc g => if g ∈ acc then acc else acc ++ [g]) acc).Nodup ∧
      ∀ g, g ∈ gs.foldl (fun acc g => if g ∈ acc then acc else acc ++ [g]) acc ↔ g ∈ acc ∨ g ∈ gs := by
  induction gs generalizing acc with
  | nil => simp [h]
  | cons x gs ih =>
    rw [List.foldl_cons]
    by_cases hx : x ∈ acc
    · rw [if_pos hx]
      obtain ⟨h1, h2⟩ := ih acc h
      refine ⟨h1, fun g => ?_⟩
      rw [h2, List.mem_cons]
      constructor
      · rintro (h | h) <;> simp [h]
      · rintro (h | rfl | h)
        · exact Or.inl h
        · exact Or.inl hx
        · exact Or.inr h
    · rw [if_neg hx]
      obtain ⟨h1, h2⟩ := ih (acc ++ [x]) (by
        rw [List.nodup_append]; refine ⟨h, by simp, ?_⟩
        intro a ha b hb hab; simp at hb; subst hb; exact hx (hab ▸ ha))
      refine ⟨h1, fun g => ?_⟩
      rw [h2]; simp [or_assoc]

theorem detectorGroups_nodup (l : List Panel) : (detectorGroups l).Nodup :=
  (detectorGroups_aux _ [] List.nodup_nil).1

theorem mem_detectorGroups (l : List Panel) (g : Name) : g ∈ detectorGroups l ↔ ∃ q ∈ l, q.group = some g := by
  rw [detectorGroups, (detectorGroups_aux _ [] List.nodup_nil).2]
  simp

/-- What a group sees of the state. -/
def project (g : Name) (s : List Panel × (Name → Constraint)) : List Panel × Constraint := (members g s.1, s.2 g)

theorem groupStep_project (L : RotLib) (c : Conv) (g g' : Name) (p : CParams)
    (s : List Panel × (Name → Constraint)) :
    project g' ((groupStep L c .groupMean g p (s.1, s.2 g)).1,
      fun x => if x = g then (groupStep L c .groupMean g p (s.1, s.2 g)).2 else s.2 x) =
    if g' = g then constrainedStep L c (meanCenter (members g s.1)) p (project g s) else project g' s := by
  have hg : ∀ q : Panel, (if q.group = some g then movePanel L c (groupCenter .groupMean g s.1) p (s.2 g) q
      else q).group = q.group := by
    intro q; split
    · exact group_movePanel _ _ _ _ _ _
    · rfl
  unfold project
  rw [groupStep_panels]
  simp only
  rw [members_map hg]
  split
  · rename_i h
    subst h
    refine Prod.ext ?_ ?_
    · simp only
      rw [(step_panels L c _ p _ _).1]
      refine List.map_congr_left fun q hq => ?_
      have : q.group = some g' := by simpa [members] using (List.mem_filter.1 hq).2
      simp only [this, if_true]
      rfl
    · simp only
      rw [(step_panels L c _ p _ _).2]
      rfl
  · rename_i h
    refine Prod.ext ?_ rfl
    simp only
    conv_rhs => rw [← List.map_id (members g' s.1)]
    refine List.map_congr_left fun q hq => ?_
    have hq' : q.group = some g' := by simpa [members] using (List.mem_filter.1 hq).2
    have : q.group ≠ some g := by rw [hq']; simpa using h
    simp [this]

theorem groupFold_project (L : RotLib) (c : Conv) (g' : Name) (ps : Name → CParams) (gs : List Name)
    (hn : gs.Nodup) (s : List Panel × (Name → Constraint)) :
    project g' (gs.foldl (fun s g => ((groupStep L c .groupMean g (ps g) (s.1, s.2 g)).1,
      fun x => if x = g then (groupStep L c .groupMean g (ps g) (s.1, s.2 g)).2 else s.2 x)) s) =
    if g' ∈ gs then constrainedStep L c (meanCenter (members g' s.1)) (ps g') (project g' s) else project g' s := by
  induction gs generalizing s with
  | nil => simp
  | cons g gs ih =>
    rw [List.foldl_cons, ih (List.nodup_cons.1 hn).2]
    have hp := groupStep_project L c g g' (ps g) s
    have hm : members g' (groupStep L c .groupMean g (ps g) (s.1, s.2 g)).1 = (project g' ((groupStep L c .groupMean g
      (ps g) (s.1, s.2 g)).1, fun x => if x = g then (groupStep L c .groupMean g (ps g) (s.1, s.2 g)).2
        else s.2 x)).1 := rfl
    simp only [hm]
    rw [hp]
    by_cases h : g' = g
    · subst h
      have : g' ∉ gs := (List.nodup_cons.1 hn).1
      simp [this]
    · simp [h, project]

/-- With rotations about the group center, each group is updated on its own. -/
theorem groupUpdate_project (L : RotLib) (c : Conv) (g : Name) (ps : Name → CParams)
    (s : List Panel × (Name → Constraint)) (hg : g ∈ detectorGroups s.1) :
    systemStep L c .instrumentMean (ps g) (project g s) = some (project g (groupUpdate L c .groupMean ps s)) := by
  have := groupFold_project L c g ps (detectorGroups s.1) (detectorGroups_nodup s.1) s
  rw [if_pos hg] at this
  unfold groupUpdate
  rw [this]
  rfl

theorem groups_groupUpdate {L : RotLib} (hL : L.Lawful) (c : Conv) (k : Center) (g : Name) (ps : Name → CParams)
    (s : List Panel × (Name → Constraint)) : g ∈ detectorGroups (groupUpdate L c k ps s).1 ↔ g ∈ detectorGroups s.1 := by
  have h := (groupUpdate_rigid hL c k [] ps s).2.1
  have : ∀ l : List Panel, (∃ q ∈ l, q.group = some g) ↔ ∃ a ∈ l.map attrs, a.2.2 = some g := by
    intro l; simp [attrs]
  rw [mem_detectorGroups, mem_detectorGroups, this, this, h]

theorem runGroup_project {L : RotLib} (hL : L.Lawful) (c : Conv) (g : Name) (h : List (Name → CParams))
    (s : List Panel × (Name → Constraint)) (hg : g ∈ detectorGroups s.1) :
    runSystem L c (h.map fun ps => (.instrumentMean, ps g)) (project g s) =
      some (project g (runGroup L c (h.map (Prod.mk .groupMean)) s)) := by
  induction h generalizing s with
  | nil => rfl
  | cons ps h ih =>
    simp only [List.map_cons, runSystem, groupUpdate_project L c g ps s hg, Option.bind_some]
    rw [ih _ ((groups_groupUpdate hL c _ g ps s).2 hg)]
    rfl

/-- C67: with rotations about the group centers, the detectors of each group end where the group's last parameters put
them. -/
theorem history_independent_group {L : RotLib} (hL : L.Lawful) (c : Conv) (us : List (Name → CParams))
    (p : Name → CParams) (s : List Panel × (Name → Constraint)) (g : Name) (hf : ∀ u ∈ us, SameFree (u g) (p g)) :
    (members g (runGroup L c (us.map (Prod.mk .groupMean) ++ [(.groupMean, p)]) s).1).map pose =
      (members g (runGroup L c [(.groupMean, p)] s).1).map pose := by
  by_cases hg : g ∈ detectorGroups s.1
  · have h1 := runGroup_project hL c g (us ++ [p]) s hg
    have h2 := runGroup_project hL c g [p] s hg
    simp only [List.map_append, List.map_cons, List.map_nil] at h1 h2
    have e : (us.map fun ps => (Center.instrumentMean, ps g)) = (us.map fun ps => ps g).map (Prod.mk .instrumentMean) := by
      simp
    rw [e] at h1
    refine history_independent hL c (us.map fun ps => ps g) (p g) _ _ _ ?_ h1 h2
    intro u hu
    obtain ⟨w, hw, rfl⟩ := List.mem_map.1 hu
    exact hf w hw
  · have hm : ∀ h : List (Center × (Name → CParams)), (members g (runGroup L c h s).1).map pose = [] := by
      intro h
      obtain ⟨q, t, -, ht⟩ := (group_rigid hL c h s).1 g
      have : members g s.1 = [] := by
        rw [members, List.filter_eq_nil_iff]
        intro q hq hqg
        exact hg ((mem_detectorGroups _ _).2 ⟨q, hq, by simpa using hqg⟩)
      rw [this] at ht
      simpa using ht
    rw [hm, hm]

/-! ### Other centers -/

theorem expmap_half_turn : expmapRmat ![0, 0, Real.pi] = !![-1, 0, 0; 0, -1, 0; 0, 0, 1] := by
  have hd : dot ![0, 0, Real.pi] ![0, 0, Real.pi] = Real.pi ^ 2 := by simp [dot]; ring
  have hp := Real.pi_pos
  have hn : eigenUnit ![0, 0, Real.pi] = ![0, 0, 1] := by
    rw [eigenUnit_of_pos (by rw [hd]; positivity), hd, Real.sqrt_sq hp.le]
    ext i; fin_cases i <;> simp [hp.ne']
  unfold expmapRmat
  rw [hn, hd, Real.sqrt_sq hp.le]
  ext i j
  fin_cases i <;> fin_cases j <;> simp

/-- All zero, everything free. -/
def home : CParams := ⟨0, 0, true, true⟩
/-- Half a turn about z and one unit along x. -/
noncomputable def away : CParams := ⟨![0, 0, Real.pi], ![1, 0, 0], true, true⟩

/-- C67 fails for the laboratory origin as center: going away and back does not bring the detector back. -/
theorem origin_history {L : RotLib} (hL : L.Lawful) :
    ∃ s s1 s2 : List Panel × Constraint, runSystem L .expmap [(.origin, away), (.origin, home)] s = some s1 ∧
      runSystem L .expmap [(.origin, home)] s = some s2 ∧ s1.1.map Panel.tvec = [![-2, 0, 0]] ∧
      s2.1.map Panel.tvec = [![0, 0, 0]] := by
  refine ⟨([⟨0, ![0, 0, 0], none, none, none⟩], ⟨0, 0⟩), _, _, rfl, rfl, ?_, ?_⟩
  · set k : Constraint := ⟨0, 0⟩
    set q : Panel := ⟨0, ![0, 0, 0], none, none, none⟩
    obtain ⟨h1, h2⟩ := step_panels L .expmap 0 away [q] k
    obtain ⟨e1, e2⟩ := step_constraint hL .expmap 0 away [q] k
    rw [show constrainedStep L .expmap 0 away ([q], k) =
      ((constrainedStep L .expmap 0 away ([q], k)).1, (constrainedStep L .expmap 0 away ([q], k)).2) from rfl,
      (step_panels L .expmap 0 home _ _).1, h1]
    simp only [List.map_cons, List.map_nil, tvec_movePanel hL]
    congr 1
    simp only [stepRot, stepShift, e1, e2]
    simp only [away, home, if_true, tiltToRmat, expmap_half_turn, expmap_zero]
    ext i
    fin_cases i <;> simp [q, k, mulVec, dotProduct, Fin.sum_univ_three, expmap_zero]
    norm_num
  · simp only [(step_panels L .expmap 0 home _ _).1, List.map_cons, List.map_nil, tvec_movePanel hL]
    congr 1
    ext i
    fin_cases i <;> simp [stepRot, stepShift, home, tiltToRmat, expmap_zero]

/-- C67 fails for group constraints about the center of the whole instrument, even for rotations alone. -/
theorem group_instrument_history {L : RotLib} (hL : L.Lawful) :
    ∃ (s : List Panel × (Name → Constraint)) (u : CParams), u.tvecVary = false ∧
      (runGroup L .expmap [(.instrumentMean, fun _ => u), (.instrumentMean, fun _ => ⟨0, 0, true, false⟩)] s).1.map
        Panel.tvec = [![0, 0, 0], ![0, 0, 0]] ∧
      (runGroup L .expmap [(.instrumentMean, fun _ => ⟨0, 0, true, false⟩)] s).1.map Panel.tvec =
        [![2, 0, 0], ![0, 0, 0]] := by
  set g : Name := ['g']
  set A : Panel := ⟨0, ![2, 0, 0], none, none, some g⟩
  set B : Panel := ⟨0, ![0, 0, 0], none, none, none⟩
  set u : CParams := ⟨![0, 0, Real.pi], 0, true, false⟩ with hu
  set v : CParams := ⟨0, 0, true, false⟩ with hv
  have hgr : ∀ q r : Panel, q.group = some g → r.group = none → detectorGroups [q, r] = [g] := by
    intro q r h h'; simp [detectorGroups, h, h']
  have hone : ∀ (p : CParams) (q r : Panel) (k : Name → Constraint), q.group = some g → r.group = none →
      (groupUpdate L .expmap .instrumentMean (fun _ => p) ([q, r], k)).1 =
        [movePanel L .expmap (meanCenter [q, r]) p (k g) q, r] ∧
      (groupUpdate L .expmap .instrumentMean (fun _ => p) ([q, r], k)).2 g =
        (constrainedStep L .expmap (meanCenter [q, r]) p ([], k g)).2 := by
    intro p q r k h h'
    unfold groupUpdate
    simp only [hgr q r h h', List.foldl_cons, List.foldl_nil, groupStep_panels, groupCenter, List.map_cons, List.map_nil,
      h, h', if_true]
    exact ⟨by simp, rfl⟩
  have hmean : ∀ x : V, ∀ q : Panel, q.tvec = x → meanCenter [q, B] = fun i => x i / 2 := by
    intro x q hq; ext i
    have : (B.tvec) i = 0 := by fin_cases i <;> rfl
    simp [meanCenter, hq, this]
  refine ⟨([A, B], fun _ => ⟨0, 0⟩), u, rfl, ?_, ?_⟩
  · simp only [runGroup, List.foldl_cons, List.foldl_nil]
    obtain ⟨h1, h2⟩ := hone u A B (fun _ => ⟨0, 0⟩) rfl rfl
    set s1 := groupUpdate L .expmap .instrumentMean (fun _ => u) ([A, B], fun _ => ⟨0, 0⟩)
    have hs1 : s1 = ([movePanel L .expmap (meanCenter [A, B]) u ⟨0, 0⟩ A, B], s1.2) := Prod.ext h1 rfl
    have ht : (movePanel L .expmap (meanCenter [A, B]) u ⟨0, 0⟩ A).tvec = ![0, 0, 0] := by
      have hh : (fun i => (![2, 0, 0] : V) i / 2) = ![1, 0, 0] := by ext i; fin_cases i <;> simp
      rw [tvec_movePanel hL, hmean ![2, 0, 0] A rfl, hh]
      simp only [stepRot, stepShift, hu, if_true, tiltToRmat, expmap_half_turn, expmap_zero]
      ext i
      simp only [Pi.add_apply, Pi.sub_apply, mulVec, dotProduct, Fin.sum_univ_three, transpose_one, Matrix.mul_one, A]
      fin_cases i <;> simp
      norm_num
    rw [hs1, (hone v _ B s1.2 (group_movePanel _ _ _ _ _ _) rfl).1]
    simp only [List.map_cons, List.map_nil, tvec_movePanel hL]
    rw [hmean _ _ ht, ← tvec_movePanel hL, ht]
    congr 1
    have : (fun i => (![0, 0, 0] : V) i / 2) = 0 := by ext i; fin_cases i <;> simp
    have h0 : (![0, 0, 0] : V) = 0 := by ext i; fin_cases i <;> simp
    rw [this, h0]
    simp [stepShift, hv]
  · simp only [runGroup, List.foldl_cons, List.foldl_nil]
    rw [(hone v A B (fun _ => ⟨0, 0⟩) rfl rfl).1]
    simp only [List.map_cons, List.map_nil, tvec_movePanel hL]
    congr 1
    simp [stepRot, stepShift, hv, tiltToRmat, expmap_zero, A]

/-! ### Creating and reading the constraint parameters -/

theorem get_of_mem {ps : List Param} (hn : (ps.map Param.name).Nodup) {p : Param} (hp : p ∈ ps) :
    get ps p.name = some p := by
  unfold get
  cases hf : ps.reverse.find? fun q => q.name = p.name with
  | none =>
    have := List.find?_eq_none.1 hf p (by simpa using hp)
    simp at this
  | some q =>
    have h1 := List.find?_some hf
    have h2 := List.mem_of_find?_eq_some hf
    rw [List.mem_reverse] at h2
    simp only [decide_eq_true_eq] at h1
    rw [List.inj_on_of_nodup_map hn h2 hp h1]

theorem val_of_mem {ps : List Param} (hn : (ps.map Param.name).Nodup) {p : Param} (hp : p ∈ ps) :
    val ps p.name = some p.value := by rw [val, get_of_mem hn hp]; rfl

/-- C53: parameters made from a constraint and read again move nothing; the other parameters do not matter. -/
theorem constraint_round_trip {L : RotLib} (hL : L.Lawful) (c : Conv) (pre : Name) (center : V) (ps : List Param)
    (s : List Panel × Constraint) (hn : (ps.map Param.name).Nodup) (hs : constrainedParams L c pre s.2 ⊆ ps) :
    ∃ p, readC ps pre c = some p ∧ (constrainedStep L c center p s).1.map pose = s.1.map pose ∧
      expmapRmat (constrainedStep L c center p s).2.tilt = expmapRmat s.2.tilt ∧
      (constrainedStep L c center p s).2.tvec = s.2.tvec := by
  have hm : ∀ q ∈ constrainedParams L c pre s.2, get ps q.name = some q := fun q hq => get_of_mem hn (hs hq)
  have hx := hm _ (List.mem_of_getElem? (i := 0) rfl)
  have hy := hm _ (List.mem_of_getElem? (i := 1) rfl)
  have hz := hm _ (List.mem_of_getElem? (i := 2) rfl)
  have ha := hm _ (List.mem_of_getElem? (i := 3) rfl)
  have hb := hm _ (List.mem_of_getElem? (i := 4) rfl)
  have hd := hm _ (List.mem_of_getElem? (i := 5) rfl)
  simp only at hx hy hz ha hb hd
  have e3 : ∀ v : V, ![v 0, v 1, v 2] = v := fun v => by ext i; fin_cases i <;> rfl
  refine ⟨⟨detectorAngles L c s.2.tilt, s.2.tvec, true, true⟩, ?_, ?_, ?_⟩
  · unfold readC
    simp [hx, hy, hz, ha, hb, hd, e3]
  · rw [show s = (s.1, s.2) from rfl, (step_panels L c center _ s.1 s.2).1, List.map_map]
    refine List.map_congr_left fun q _ => ?_
    simp only [Function.comp]
    rw [pose_movePanel hL]
    have : stepRot c ⟨detectorAngles L c s.2.tilt, s.2.tvec, true, true⟩ s.2 = 1 := by
      simp only [stepRot, if_true, tiltToRmat_detectorAngles hL]
      exact rot_mul_transpose (expmapRmat_isRotation _).1
    rw [this]
    simp [stepShift, moved_one]
  · obtain ⟨h1, h2⟩ := step_constraint hL c center ⟨detectorAngles L c s.2.tilt, s.2.tvec, true, true⟩ s.1 s.2
    rw [h1, h2]
    simp [tiltToRmat_detectorAngles hL]

end Hexrd.Calib
