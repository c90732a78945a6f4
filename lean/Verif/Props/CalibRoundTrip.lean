import Verif.Props.CalibRigid
import Verif.Lemmas.CalibNames

/-!
C52: creating fit parameters from an instrument and updating the instrument from them.
-/

namespace Hexrd.Calib

open Hexrd.Transforms Hexrd.Transforms.Spec Hexrd.Calib.Spec Matrix

/-- Nothing a user can see has changed: beams, stage, and name, orientation, position, distortion, radius and group of
every detector. -/
structure Restored (a b : Instr) : Prop where
  beams : b.beams = a.beams
  chi : b.chi = a.chi
  tvec : b.tvec = a.tvec
  dets : (b.dets.map fun x => (x.1, pose x.2, attrs x.2)) = a.dets.map fun x => (x.1, pose x.2, attrs x.2)

/-! ### Beams -/

/-- The angles of a beam give its direction back. -/
theorem beam_round_trip {b : V} (h : √(dot b b) > epsf) :
    calcBeamVec (calcBeamAngles b).1 (calcBeamAngles b).2 = fun i => b i / √(dot b b) := by
  have hneg : dot (fun i => -b i) (fun i => -b i) = dot b b := by simp [dot]
  have hp : 0 < √(dot b b) := lt_trans epsf_pos h
  have hd : 0 < dot b b := Real.sqrt_pos.1 hp
  set m := √(dot b b) with hm
  have hm2 : m ^ 2 = dot b b := Real.sq_sqrt hd.le
  have hn : (unitRow fun i => -b i).1 = fun i => -b i / m := by
    rw [unitRow_of_gt (by rw [hneg]; exact h), hneg]
  unfold calcBeamVec calcBeamAngles
  simp only [hn, radians_degrees]
  have hu : (b 0 / m) ^ 2 + (b 1 / m) ^ 2 + (b 2 / m) ^ 2 = 1 := by
    have : b 0 ^ 2 + b 1 ^ 2 + b 2 ^ 2 = m ^ 2 := by rw [hm2, dot]; ring
    field_simp
    linarith
  have h1 : -1 ≤ -b 1 / m := by
    have : (b 1 / m) ^ 2 ≤ 1 := by nlinarith [sq_nonneg (b 0 / m), sq_nonneg (b 2 / m)]
    have e : -b 1 / m = -(b 1 / m) := by ring
    rw [e]; nlinarith
  have h2 : -b 1 / m ≤ 1 := by
    have : (b 1 / m) ^ 2 ≤ 1 := by nlinarith [sq_nonneg (b 0 / m), sq_nonneg (b 2 / m)]
    have e : -b 1 / m = -(b 1 / m) := by ring
    rw [e]; nlinarith
  have hs : √(1 - (-b 1 / m) ^ 2) = ‖(⟨-b 0 / m, -b 2 / m⟩ : ℂ)‖ := by
    rw [Complex.norm_def, Complex.normSq_mk]
    congr 1
    have e : ∀ x : ℝ, -x / m = -(x / m) := fun x => by ring
    rw [e, e, e]
    nlinarith
  rw [Real.sin_arccos, Real.cos_arccos h1 h2, hs, atan2, Complex.norm_mul_cos_arg, Complex.norm_mul_sin_arg]
  ext i
  fin_cases i <;> simp <;> ring

/-! ### Distortion parameters -/

theorem mapIdx_names (det : Name) (l : List ℝ) :
    (l.mapIdx fun ii pp => (⟨distName det ii, pp, false, none, none⟩ : Param)).map Param.name =
      (List.range l.length).map (distName det) := by
  apply List.ext_getElem <;> simp

/-- How many distortion parameters a panel has. -/
def nDist (p : Panel) : Nat := match p.distortion with
  | none => 0
  | some d => d.params.length

theorem infix_sDist {det q : Name} (h : (det ++ sDist) <:+: q) : sDist <:+: q :=
  (List.suffix_append det sDist).isInfix.trans h

theorem filter_none_of {det : Name} {l : List Name} (h : ∀ q ∈ l, ¬ sDist <:+: q) :
    l.filter (fun q => decide ((det ++ sDist) <:+: q)) = [] := by
  rw [List.filter_eq_nil_iff]
  intro q hq hd
  exact h q hq (infix_sDist (by simpa using hd))

theorem detNames_eq (L : RotLib) (c : Conv) (det : Name) (p : Panel) :
    (detParams L c det p).map Param.name =
      [det ++ (angleNames c).1, det ++ (angleNames c).2.1, det ++ (angleNames c).2.2, det ++ sTX, det ++ sTY, det ++ sTZ] ++
      (List.range (nDist p)).map (distName det) ++ (match p.radius with | none => [] | some _ => [det ++ sRadius]) := by
  unfold detParams nDist
  cases p.distortion <;> cases p.radius <;> simp [mapIdx_names] <;> exact mapIdx_names det _

theorem fixed_clean {c : Conv} {det : Name} (hd : ¬ sDist <:+: det) :
    (∀ q ∈ [det ++ (angleNames c).1, det ++ (angleNames c).2.1, det ++ (angleNames c).2.2, det ++ sTX, det ++ sTY,
      det ++ sTZ], ¬ sDist <:+: q) ∧ ¬ sDist <:+: det ++ sRadius := by
  obtain ⟨c1, c2, c3⟩ := clean_angles c
  obtain ⟨c4, c5, c6, c7⟩ := clean_tvec
  refine ⟨?_, fun h => hd (clean_append c7 h)⟩
  simp only [List.mem_cons, List.not_mem_nil, or_false, forall_eq_or_imp, forall_eq]
  exact ⟨fun h => hd (clean_append c1 h), fun h => hd (clean_append c2 h), fun h => hd (clean_append c3 h),
    fun h => hd (clean_append c4 h), fun h => hd (clean_append c5 h), fun h => hd (clean_append c6 h)⟩

theorem filter_own (L : RotLib) (c : Conv) {det : Name} (p : Panel) (hd : ¬ sDist <:+: det) :
    ((detParams L c det p).map Param.name).filter (fun q => decide ((det ++ sDist) <:+: q)) =
      (List.range (nDist p)).map (distName det) := by
  obtain ⟨h1, h2⟩ := fixed_clean (c := c) hd
  rw [detNames_eq, List.filter_append, List.filter_append, filter_none_of h1, List.nil_append]
  have hr : (match p.radius with | none => [] | some _ => [det ++ sRadius]).filter
      (fun q => decide ((det ++ sDist) <:+: q)) = [] := by
    apply filter_none_of
    cases p.radius <;> simp [h2]
  rw [hr, List.append_nil, List.filter_eq_self]
  intro q hq
  obtain ⟨i, -, rfl⟩ := List.mem_map.1 hq
  simpa using own_infix det i

theorem filter_other (L : RotLib) (c : Conv) {det det' : Name} (p : Panel) (hd : ¬ sDist <:+: det')
    (h : ¬ det <:+ det') :
    ((detParams L c det' p).map Param.name).filter (fun q => decide ((det ++ sDist) <:+: q)) = [] := by
  obtain ⟨h1, h2⟩ := fixed_clean (c := c) hd
  rw [detNames_eq, List.filter_append, List.filter_append, filter_none_of h1, List.nil_append]
  have hr : (match p.radius with | none => [] | some _ => [det' ++ sRadius]).filter
      (fun q => decide ((det ++ sDist) <:+: q)) = [] := by
    apply filter_none_of
    cases p.radius <;> simp [h2]
  rw [hr, List.append_nil, List.filter_eq_nil_iff]
  intro q hq hq'
  obtain ⟨i, -, rfl⟩ := List.mem_map.1 hq
  exact h (suffix_of_infix_distName hd (by simpa using hq'))

theorem beam_clean {multi : Bool} {k : Name} (b : Beam) (hk : ¬ sDist <:+: k) :
    ∀ q ∈ (beamParams multi k b).map Param.name, ¬ sDist <:+: q := by
  obtain ⟨c1, c2, c3, c4, c5⟩ := clean_beam
  obtain ⟨d1, d2, d3, d4, d5⟩ := clean_beam'
  have key : ∀ suf : Name, clean ('_' :: suf) = true → ¬ sDist <:+: suf → ¬ sDist <:+: beamPrefix multi k ++ suf := by
    intro suf h1 h2 h
    cases multi
    · exact h2 h
    · rw [show beamPrefix true k ++ suf = k ++ '_' :: suf by simp [beamPrefix]] at h
      exact hk (clean_append h1 h)
  intro q hq
  unfold beamParams at hq
  cases hc : b.correction with
  | none =>
    simp [hc] at hq
    rcases hq with rfl | rfl | rfl
    · exact key _ c1 d1
    · exact key _ c2 d2
    · exact key _ c3 d3
  | some p =>
    simp [hc] at hq
    rcases hq with rfl | rfl | rfl | rfl | rfl
    · exact key _ c1 d1
    · exact key _ c2 d2
    · exact key _ c3 d3
    · exact key _ c4 d4
    · exact key _ c5 d5

theorem stage_clean (ins : Instr) : ∀ q ∈ (stageParams ins).map Param.name, ¬ sDist <:+: q := by
  obtain ⟨c1, c2, c3, c4⟩ := clean_stage
  intro q hq
  simp [stageParams] at hq
  rcases hq with rfl | rfl | rfl | rfl <;> assumption

/-- Conditions on the names under which no parameter is mistaken for another one.  `nodup` is what
`validate_params_list` checks. -/
structure NamesOK (L : RotLib) (c : Conv) (ins : Instr) (extra : List Param) : Prop where
  nodup : ((createInstrParams L c ins ++ extra).map Param.name).Nodup
  beams : ∀ kb ∈ ins.beams, ¬ sDist <:+: kb.1
  dets : ∀ np ∈ ins.dets, ¬ sDist <:+: mangle np.1
  extra : ∀ q ∈ extra, ¬ sDist <:+: q.name
  suffix : ∀ a ∈ ins.dets, ∀ b ∈ ins.dets, mangle a.1 <:+ mangle b.1 → mangle a.1 = mangle b.1

theorem own_names {L : RotLib} {c : Conv} {ins : Instr} {extra : List Param} (h : NamesOK L c ins extra)
    {np : Name × Panel} (hnp : np ∈ ins.dets) :
    ((createInstrParams L c ins ++ extra).map Param.name).filter
      (fun q => decide ((mangle np.1 ++ sDist) <:+: q)) = (List.range (nDist np.2)).map (distName (mangle np.1)) := by
  obtain ⟨l1, l2, hl⟩ := List.append_of_mem hnp
  have hn := h.nodup
  have hdisj : ∀ b ∈ l1 ++ l2, mangle b.1 ≠ mangle np.1 := by
    intro b hb hbe
    simp only [createInstrParams, hl, List.flatMap_append, List.flatMap_cons, List.map_append] at hn
    have hb1 : mangle np.1 ++ sTX ∈ (detParams L c (mangle b.1) b.2).map Param.name := by
      rw [detNames_eq, hbe]; simp
    have hb2 : mangle np.1 ++ sTX ∈ (detParams L c (mangle np.1) np.2).map Param.name := by
      rw [detNames_eq]; simp
    rw [List.mem_append] at hb
    have hn2 := (List.nodup_append.1 (List.nodup_append.1 hn).1).2.1
    rw [List.nodup_append] at hn2
    rcases hb with hb | hb
    · refine hn2.2.2 (mangle np.1 ++ sTX) ?_ (mangle np.1 ++ sTX) ?_ rfl
      · rw [List.map_flatMap, List.mem_flatMap]; exact ⟨b, hb, hb1⟩
      · rw [List.mem_append]; exact Or.inl hb2
    · have hn3 := hn2.2.1
      rw [List.nodup_append] at hn3
      refine hn3.2.2 _ hb2 _ ?_ rfl
      rw [List.map_flatMap, List.mem_flatMap]; exact ⟨b, hb, hb1⟩
  have hother : ∀ l : List (Name × Panel), (∀ b ∈ l, b ∈ ins.dets ∧ mangle b.1 ≠ mangle np.1) →
      ((l.flatMap fun x => detParams L c (mangle x.1) x.2).map Param.name).filter
        (fun q => decide ((mangle np.1 ++ sDist) <:+: q)) = [] := by
    intro l hl'
    rw [List.map_flatMap, List.filter_flatMap, List.flatMap_eq_nil_iff]
    intro b hb
    exact filter_other L c b.2 (h.dets b (hl' b hb).1)
      fun hs => (hl' b hb).2 (h.suffix np hnp b (hl' b hb).1 hs).symm
  have hm1 : ∀ b ∈ l1, b ∈ ins.dets ∧ mangle b.1 ≠ mangle np.1 := fun b hb =>
    ⟨by rw [hl]; simp [hb], hdisj b (by simp [hb])⟩
  have hm2 : ∀ b ∈ l2, b ∈ ins.dets ∧ mangle b.1 ≠ mangle np.1 := fun b hb =>
    ⟨by rw [hl]; simp [hb], hdisj b (by simp [hb])⟩
  simp only [createInstrParams, List.map_append, List.filter_append]
  rw [filter_none_of (stage_clean ins), hl]
  simp only [List.flatMap_append, List.flatMap_cons, List.map_append, List.filter_append]
  rw [hother l1 hm1, hother l2 hm2, filter_own L c np.2 (h.dets np hnp)]
  have hb : ((ins.beams.flatMap fun kb => beamParams (multiBeam ins) kb.1 kb.2).map Param.name).filter
      (fun q => decide ((mangle np.1 ++ sDist) <:+: q)) = [] := by
    apply filter_none_of
    intro q hq
    rw [List.map_flatMap, List.mem_flatMap] at hq
    obtain ⟨kb, hkb, hq⟩ := hq
    exact beam_clean kb.2 (h.beams kb hkb) q hq
  have he : (extra.map Param.name).filter (fun q => decide ((mangle np.1 ++ sDist) <:+: q)) = [] := by
    apply filter_none_of
    intro q hq
    obtain ⟨x, hx, rfl⟩ := List.mem_map.1 hq
    exact h.extra x hx
  rw [hb, he]
  simp

theorem mapM_val {ps : List Param} {f : Nat → Name} {l : List ℝ}
    (h : ∀ i (hi : i < l.length), val ps (f i) = some l[i]) : ((List.range l.length).map f).mapM (val ps) = some l := by
  induction l generalizing f with
  | nil => rfl
  | cons x l ih =>
    rw [List.length_cons, List.range_succ_eq_map, List.map_cons, List.map_map, List.mapM_cons, h 0 (by simp)]
    have := ih (f := f ∘ Nat.succ) fun i hi => h (i + 1) (by simpa using hi)
    rw [this]
    rfl

/-- The distortion of a panel passes its own length check. -/
def DistOK (p : Panel) : Prop := ∀ d, p.distortion = some d → d.params.length = d.need ∧ d.need ≤ 10

theorem mem_params {L : RotLib} {c : Conv} {ins : Instr} {extra : List Param} {np : Name × Panel} (hnp : np ∈ ins.dets)
    {q : Param} (hq : q ∈ detParams L c (mangle np.1) np.2) : q ∈ createInstrParams L c ins ++ extra := by
  rw [List.mem_append, createInstrParams, List.mem_append, List.mem_flatMap]
  exact Or.inl (Or.inr ⟨np, hnp, hq⟩)

theorem vec3 (v : V) : ![v 0, v 1, v 2] = v := by ext i; fin_cases i <;> rfl

theorem updateDistortion_round_trip {L : RotLib} {c : Conv} {ins : Instr} {extra : List Param}
    (h : NamesOK L c ins extra) {np : Name × Panel} (hnp : np ∈ ins.dets) (hd : DistOK np.2) :
    updateDistortion (createInstrParams L c ins ++ extra) (mangle np.1) np.2.distortion = some np.2.distortion := by
  have ho := own_names h hnp
  unfold updateDistortion
  simp only [ho]
  cases hp : np.2.distortion with
  | none => simp [nDist, hp]
  | some d =>
    obtain ⟨h1, h2⟩ := hd d hp
    have hnd : nDist np.2 = d.params.length := by simp [nDist, hp]
    rw [hnd]
    have hv : ∀ i (hi : i < d.params.length),
        val (createInstrParams L c ins ++ extra) (distName (mangle np.1) i) = some d.params[i] := by
      intro i hi
      have hm : (⟨distName (mangle np.1) i, d.params[i], false, none, none⟩ : Param) ∈
          detParams L c (mangle np.1) np.2 := by
        unfold detParams
        simp only [hp, List.mem_append]
        refine Or.inl (Or.inr ?_)
        rw [List.mem_mapIdx]
        exact ⟨i, hi, rfl⟩
      exact val_of_mem h.nodup (mem_params hnp hm)
    split
    · rename_i he
      rfl
    · simp only [sortNames_dist (mangle np.1) d.params.length (by omega), mapM_val hv]
      simp [h1]

theorem updateDet_round_trip {L : RotLib} (hL : L.Lawful) {c : Conv} {ins : Instr} {extra : List Param}
    (h : NamesOK L c ins extra) {np : Name × Panel} (hnp : np ∈ ins.dets) (hd : DistOK np.2) :
    ∃ p, updateDet L c (createInstrParams L c ins ++ extra) (mangle np.1) np.2 = some p ∧ pose p = pose np.2 ∧
      attrs p = attrs np.2 := by
  have hm : ∀ q ∈ detParams L c (mangle np.1) np.2,
      val (createInstrParams L c ins ++ extra) q.name = some q.value :=
    fun q hq => val_of_mem h.nodup (mem_params hnp hq)
  have h0 := hm ⟨_, _, _, _, _⟩ (List.mem_append_left _ (List.mem_append_left _ (List.mem_of_getElem? (i := 0) rfl)))
  have h1 := hm ⟨_, _, _, _, _⟩ (List.mem_append_left _ (List.mem_append_left _ (List.mem_of_getElem? (i := 1) rfl)))
  have h2 := hm ⟨_, _, _, _, _⟩ (List.mem_append_left _ (List.mem_append_left _ (List.mem_of_getElem? (i := 2) rfl)))
  have h3 := hm ⟨_, _, _, _, _⟩ (List.mem_append_left _ (List.mem_append_left _ (List.mem_of_getElem? (i := 3) rfl)))
  have h4 := hm ⟨_, _, _, _, _⟩ (List.mem_append_left _ (List.mem_append_left _ (List.mem_of_getElem? (i := 4) rfl)))
  have h5 := hm ⟨_, _, _, _, _⟩ (List.mem_append_left _ (List.mem_append_left _ (List.mem_of_getElem? (i := 5) rfl)))
  simp only at h0 h1 h2 h3 h4 h5
  refine ⟨⟨setAngles L c (detectorAngles L c np.2.tilt), np.2.tvec, np.2.distortion, np.2.radius, np.2.group⟩, ?_, ?_, rfl⟩
  · unfold updateDet
    simp only [h0, h1, h2, h3, h4, h5, updateDistortion_round_trip h hnp hd, Option.bind_eq_bind, Option.bind_some,
      vec3]
    cases hr : np.2.radius with
    | none => rfl
    | some r =>
      have h6 := hm ⟨mangle np.1 ++ sRadius, r, false, none, none⟩ (by simp [detParams, hr])
      simp only at h6
      simp [h6]
  · unfold pose
    simp only [setAngles_detectorAngles hL]

theorem updateBeam_round_trip {L : RotLib} {c : Conv} {ins : Instr} {extra : List Param} (h : NamesOK L c ins extra)
    {kb : Name × Beam} (hkb : kb ∈ ins.beams) (hu : IsUnit3 kb.2.vector) :
    updateBeam (createInstrParams L c ins ++ extra) (multiBeam ins) kb.1 kb.2 = some kb.2 := by
  have hm : ∀ q ∈ beamParams (multiBeam ins) kb.1 kb.2,
      val (createInstrParams L c ins ++ extra) q.name = some q.value := by
    refine fun q hq => val_of_mem h.nodup ?_
    rw [List.mem_append, createInstrParams, List.mem_append, List.mem_append, List.mem_flatMap]
    exact Or.inl (Or.inl (Or.inl ⟨kb, hkb, hq⟩))
  have h0 := hm ⟨_, _, _, _, _⟩ (List.mem_append_left _ (List.mem_of_getElem? (i := 0) rfl))
  have h1 := hm ⟨_, _, _, _, _⟩ (List.mem_append_left _ (List.mem_of_getElem? (i := 1) rfl))
  have h2 := hm ⟨_, _, _, _, _⟩ (List.mem_append_left _ (List.mem_of_getElem? (i := 2) rfl))
  simp only at h0 h1 h2
  have hd : dot kb.2.vector kb.2.vector = 1 := by rw [dot_eq]; exact hu
  have hv := beam_round_trip (b := kb.2.vector) (by rw [hd, Real.sqrt_one]; unfold epsf; norm_num)
  rw [hd, Real.sqrt_one] at hv
  simp only [div_one] at hv
  unfold updateBeam
  simp only [h0, h1, h2, Option.bind_eq_bind, Option.bind_some, hv]
  cases hc : kb.2.correction with
  | none =>
    simp only [Option.bind_some, Option.some.injEq]
    rw [← hc]
  | some p =>
    have h3 := hm ⟨beamPrefix (multiBeam ins) kb.1 ++ sCorr ++ sIcpt, p.1, false, none, none⟩ (by simp [beamParams, hc])
    have h4 := hm ⟨beamPrefix (multiBeam ins) kb.1 ++ sCorr ++ sSlope, p.2, false, none, none⟩ (by simp [beamParams, hc])
    simp only at h3 h4
    simp only [h3, h4, Option.bind_some, Option.some.injEq]
    rw [← hc]

theorem mapM_some {α β : Type} {f : α → Option β} {l : List α} (h : ∀ x ∈ l, ∃ y, f x = some y) :
    ∃ r, l.mapM f = some r ∧ List.Forall₂ (fun x y => f x = some y) l r := by
  induction l with
  | nil => exact ⟨[], rfl, List.Forall₂.nil⟩
  | cons x l ih =>
    obtain ⟨y, hy⟩ := h x (by simp)
    obtain ⟨r, hr, hr'⟩ := ih fun z hz => h z (by simp [hz])
    exact ⟨y :: r, by simp [List.mapM_cons, hy, hr], List.Forall₂.cons hy hr'⟩

/-- C52: updating an instrument from the parameters made from it, with any further parameters of the calibrators among
them, leaves the instrument as it was. -/
theorem round_trip {L : RotLib} (hL : L.Lawful) (c : Conv) (ins : Instr) (extra : List Param)
    (h : NamesOK L c ins extra) (hb : ∀ kb ∈ ins.beams, IsUnit3 kb.2.vector) (hd : ∀ np ∈ ins.dets, DistOK np.2) :
    ∃ ins', updateInstr L c (createInstrParams L c ins ++ extra) ins = some ins' ∧ Restored ins ins' := by
  have hs : ∀ q ∈ stageParams ins, val (createInstrParams L c ins ++ extra) q.name = some q.value := by
    refine fun q hq => val_of_mem h.nodup ?_
    rw [List.mem_append, createInstrParams, List.mem_append, List.mem_append]
    exact Or.inl (Or.inl (Or.inr hq))
  have s0 := hs ⟨_, _, _, _, _⟩ (List.mem_of_getElem? (i := 0) rfl)
  have s1 := hs ⟨_, _, _, _, _⟩ (List.mem_of_getElem? (i := 1) rfl)
  have s2 := hs ⟨_, _, _, _, _⟩ (List.mem_of_getElem? (i := 2) rfl)
  have s3 := hs ⟨_, _, _, _, _⟩ (List.mem_of_getElem? (i := 3) rfl)
  simp only at s0 s1 s2 s3
  obtain ⟨bs, hbs, hbs'⟩ := mapM_some (l := ins.beams) (f := fun kb =>
    (updateBeam (createInstrParams L c ins ++ extra) (multiBeam ins) kb.1 kb.2).map fun b => (kb.1, b))
    fun kb hkb => ⟨kb, by rw [updateBeam_round_trip h hkb (hb kb hkb)]; rfl⟩
  obtain ⟨ds, hds, hds'⟩ := mapM_some (l := ins.dets) (f := fun np =>
    (updateDet L c (createInstrParams L c ins ++ extra) (mangle np.1) np.2).map fun p => (np.1, p))
    fun np hnp => by
      obtain ⟨p, hp, -⟩ := updateDet_round_trip hL h hnp (hd np hnp)
      exact ⟨(np.1, p), by rw [hp]; rfl⟩
  refine ⟨⟨bs, ins.chi, ins.tvec, ds⟩, ?_, ?_, rfl, rfl, ?_⟩
  · unfold updateInstr
    simp only [hbs, hds, s0, s1, s2, s3, Option.bind_eq_bind, Option.bind_some, vec3, radians_degrees]
  · simp only
    have : ∀ l r, List.Forall₂ (fun (kb : Name × Beam) y =>
        (updateBeam (createInstrParams L c ins ++ extra) (multiBeam ins) kb.1 kb.2).map (fun b => (kb.1, b)) = some y) l r →
        (∀ kb ∈ l, kb ∈ ins.beams) → r = l := by
      intro l r hr
      induction hr with
      | nil => intro _; rfl
      | cons hx _ ih =>
        rename_i x y l r _
        intro hm
        rw [ih fun kb hk => hm kb (by simp [hk])]
        have hx' : x ∈ ins.beams := hm x (by simp)
        rw [updateBeam_round_trip h hx' (hb x hx')] at hx
        cases hx; rfl
    exact this _ _ hbs' fun _ hk => hk
  · simp only
    have : ∀ l r, List.Forall₂ (fun (np : Name × Panel) y =>
        (updateDet L c (createInstrParams L c ins ++ extra) (mangle np.1) np.2).map (fun p => (np.1, p)) = some y) l r →
        (∀ np ∈ l, np ∈ ins.dets) →
        (r.map fun x => (x.1, pose x.2, attrs x.2)) = l.map fun x => (x.1, pose x.2, attrs x.2) := by
      intro l r hr
      induction hr with
      | nil => intro _; rfl
      | cons hx _ ih =>
        rename_i x y l r _
        intro hm
        rw [List.map_cons, List.map_cons, ih fun kb hk => hm kb (by simp [hk])]
        have hx' : x ∈ ins.dets := hm x (by simp)
        obtain ⟨p, hp, h1, h2⟩ := updateDet_round_trip hL h hx' (hd x hx')
        rw [hp] at hx
        cases hx
        simp [h1, h2]
    exact this _ _ hds' fun _ hk => hk

/-! ### Each parameter reaches its detector, and only that one -/

/-- C52: what an update does to a detector: position and orientation are the values of its six parameters. -/
theorem update_applies {L : RotLib} (hL : L.Lawful) (c : Conv) (ps : List Param) (det : Name) (p p' : Panel)
    (h : updateDet L c ps det p = some p') :
    ∃ a t : V, val ps (det ++ (angleNames c).1) = some (a 0) ∧ val ps (det ++ (angleNames c).2.1) = some (a 1) ∧
      val ps (det ++ (angleNames c).2.2) = some (a 2) ∧ val ps (det ++ sTX) = some (t 0) ∧
      val ps (det ++ sTY) = some (t 1) ∧ val ps (det ++ sTZ) = some (t 2) ∧ pose p' = (tiltToRmat c a, t) ∧
      p'.group = p.group ∧ (∀ r, p.radius = some r → val ps (det ++ sRadius) = p'.radius) ∧
      updateDistortion ps det p.distortion = some p'.distortion := by
  have hpose : ∀ a t : V, pose ⟨setAngles L c a, t, p'.distortion, p'.radius, p.group⟩ = (tiltToRmat c a, t) := by
    intro a t
    unfold pose
    simp only [Prod.mk.injEq, and_true]
    cases c
    · rfl
    · simp only [setAngles, tiltToRmat]; exact hL.log _ (rmatOf_isRotation _ _)
    · simp only [setAngles, tiltToRmat]; exact hL.log _ (rmatOf_isRotation _ _)
  unfold updateDet at h
  cases hr : p.radius with
  | none =>
    simp only [hr, Option.bind_eq_bind, Option.bind_eq_some_iff] at h
    obtain ⟨a0, h0, a1, h1, a2, h2, x, hx, y, hy, z, hz, r, hr', d, hd, h⟩ := h
    cases h
    exact ⟨![a0, a1, a2], ![x, y, z], h0, h1, h2, hx, hy, hz, hpose _ _, rfl, (fun r h => nomatch h), hd⟩
  | some r0 =>
    simp only [hr, Option.bind_eq_bind, Option.bind_eq_some_iff, Option.map_eq_some_iff] at h
    obtain ⟨a0, h0, a1, h1, a2, h2, x, hx, y, hy, z, hz, r, ⟨v, hv, rfl⟩, d, hd, h⟩ := h
    cases h
    exact ⟨![a0, a1, a2], ![x, y, z], h0, h1, h2, hx, hy, hz, hpose _ _, rfl, fun _ _ => hv, hd⟩

/-- C52: with the same names, parameters that belong to other detectors do not matter. -/
theorem update_isolated (L : RotLib) (c : Conv) (ps ps' : List Param) (det : Name) (p : Panel)
    (hn : ps.map Param.name = ps'.map Param.name)
    (hv : ∀ q, det <+: q ∨ (det ++ sDist) <:+: q → val ps q = val ps' q) :
    updateDet L c ps det p = updateDet L c ps' det p := by
  have hp : ∀ suf : Name, val ps (det ++ suf) = val ps' (det ++ suf) := fun suf => hv _ (Or.inl ⟨suf, rfl⟩)
  have hd : updateDistortion ps det p.distortion = updateDistortion ps' det p.distortion := by
    unfold updateDistortion
    simp only [hn]
    have : ∀ l : List Name, (∀ q ∈ l, (det ++ sDist) <:+: q) → l.mapM (val ps) = l.mapM (val ps') := by
      intro l hl
      induction l with
      | nil => rfl
      | cons q l ih =>
        rw [List.mapM_cons, List.mapM_cons, hv q (Or.inr (hl q (by simp))), ih fun q hq => hl q (by simp [hq])]
    rw [this]
    intro q hq
    have := (List.mergeSort_perm _ _).mem_iff.1 hq
    simpa using (List.mem_filter.1 this).2
  unfold updateDet
  rw [hd]
  simp only [hp]

/-! ### Where it fails -/

/-- Names of two detectors, the second ending with the first. -/
def nFF : Name := ['f', 'f', '1']
/-- See `nFF`. -/
def nXFF : Name := ['x', 'f', 'f', '1']

/-- A panel without distortion. -/
def plain : Panel := ⟨0, 0, none, none, none⟩
/-- A panel with one distortion parameter. -/
def bent : Panel := ⟨0, 0, some ⟨1, [0]⟩, none, none⟩

/-- An instrument with one beam and the two detectors. -/
def twoDets (a b : Name) : Instr := ⟨[([], ⟨![0, 0, -1], 65, none⟩)], 0, 0, [(a, plain), (b, bent)]⟩

theorem twoDets_names (L : RotLib) (a b : Name) : (createInstrParams L .xyz (twoDets a b) ++ []).map Param.name =
    [sPolar, sAzim, sEnergy, sChi, sITX, sITY, sITZ, mangle a ++ s_UX, mangle a ++ s_UY, mangle a ++ s_UZ,
      mangle a ++ sTX, mangle a ++ sTY, mangle a ++ sTZ, mangle b ++ s_UX, mangle b ++ s_UY, mangle b ++ s_UZ,
      mangle b ++ sTX, mangle b ++ sTY, mangle b ++ sTZ, distName (mangle b) 0] := rfl

/-- C52 fails for detectors of which one name ends with the other: although the parameters pass validation, the update
raises. -/
theorem suffix_fails (L : RotLib) :
    duplicateNames ((createInstrParams L .xyz (twoDets nFF nXFF)).map Param.name) = [] ∧
      updateInstr L .xyz (createInstrParams L .xyz (twoDets nFF nXFF)) (twoDets nFF nXFF) = none := by
  have hn := twoDets_names L nFF nXFF
  rw [List.append_nil] at hn
  refine ⟨by rw [hn]; decide, ?_⟩
  have : updateDistortion (createInstrParams L .xyz (twoDets nFF nXFF)) (mangle nFF) none = none := by
    unfold updateDistortion
    simp only [hn]
    rw [if_neg (by decide)]
  cases hu : updateInstr L .xyz (createInstrParams L .xyz (twoDets nFF nXFF)) (twoDets nFF nXFF) with
  | none => rfl
  | some r =>
    exfalso
    unfold updateInstr at hu
    simp only [Option.bind_eq_bind, Option.bind_eq_some_iff] at hu
    obtain ⟨-, -, -, -, -, -, -, -, -, -, ds, hds, -⟩ := hu
    simp only [twoDets, List.mapM_cons, Option.bind_eq_bind, Option.bind_eq_some_iff, Option.map_eq_some_iff] at hds
    obtain ⟨x, ⟨q, hq, -⟩, -⟩ := hds
    unfold updateDet at hq
    simp only [show plain.radius = none from rfl, Option.bind_eq_bind, Option.bind_eq_some_iff] at hq
    obtain ⟨-, -, -, -, -, -, -, -, -, -, -, -, -, -, d, hd, -⟩ := hq
    exact absurd (this.symm.trans hd) (by simp)

/-- C52 fails for eleven distortion parameters: they are read in the order of their names. -/
theorem eleven_sorted : sortNames ((List.range 11).map (distName ['d'])) =
    ([0, 1, 10, 2, 3, 4, 5, 6, 7, 8, 9].map (distName ['d'])) := by
  have hle : ∀ a b : Name, a ≤ b ∨ b ≤ a := fun a b => List.le_total a b
  refine List.Perm.eq_of_pairwise (le := fun a b => a ≤ b) ?_ ?_ ?_ ?_
  · intro a b _ _ h1 h2; exact List.le_antisymm h1 h2
  · have := List.pairwise_mergeSort (le := fun a b : Name => decide (a ≤ b))
      (fun a b c h1 h2 => by
        rw [decide_eq_true_iff] at *; exact List.le_trans h1 h2)
      (fun a b => by
        rw [Bool.or_eq_true, decide_eq_true_iff, decide_eq_true_iff]; exact hle a b)
      ((List.range 11).map (distName ['d']))
    exact this.imp fun h => by rwa [decide_eq_true_iff] at h
  · decide
  · refine (List.mergeSort_perm _ _).trans ?_
    exact List.Perm.map _ (by decide)

/-- C52: detectors whose names differ only in `-` and `_` are refused before a fit. -/
theorem mangle_refused (L : RotLib) :
    duplicateNames ((createInstrParams L .xyz (twoDets ['a', '-', '1'] ['a', '_', '1'])).map Param.name) ≠ [] := by
  have hn := twoDets_names L ['a', '-', '1'] ['a', '_', '1']
  rw [List.append_nil] at hn
  rw [hn]; decide

/-- The hypotheses of `round_trip` are met. -/
theorem round_trip_example (L : RotLib) : NamesOK L .xyz (twoDets nFF ['f', 'f', '-', '2']) [] ∧
    (∀ kb ∈ (twoDets nFF ['f', 'f', '-', '2']).beams, IsUnit3 kb.2.vector) ∧
    ∀ np ∈ (twoDets nFF ['f', 'f', '-', '2']).dets, DistOK np.2 := by
  refine ⟨⟨?_, ?_, ?_, by simp, ?_⟩, ?_, ?_⟩
  · rw [twoDets_names]; decide
  · intro kb hkb
    simp only [twoDets, List.mem_singleton] at hkb
    subst hkb; decide
  · intro np hnp
    simp only [twoDets, List.mem_cons, List.not_mem_nil, or_false] at hnp
    rcases hnp with rfl | rfl <;> decide
  · intro a ha b hb
    simp only [twoDets, List.mem_cons, List.not_mem_nil, or_false] at ha hb
    rcases ha with rfl | rfl <;> rcases hb with rfl | rfl <;> decide
  · intro kb hkb
    simp only [twoDets, List.mem_singleton] at hkb
    subst hkb
    simp [IsUnit3, dotProduct, Fin.sum_univ_three]
  · intro np hnp d hd
    simp only [twoDets, List.mem_cons, List.not_mem_nil, or_false] at hnp
    rcases hnp with rfl | rfl
    · simp [plain] at hd
    · simp [bent] at hd
      subst hd; simp

/-! ### Materials -/

theorem lpName_inj : ∀ i j : Fin 6, lpName i = lpName j → i = j := by decide

/-- C69: updating a material from the parameters made from it, whatever other parameters there are, leaves its lattice
parameters as they were. -/
theorem material_round_trip (mat : Name) (editable : Fin 6 → Bool) (lp : Fin 6 → ℝ) (pre post : List (Name × ℝ))
    (hp : ∀ x ∈ pre ++ post, ∀ i, x.1 ≠ lpParam mat i) :
    updateMaterial (pre ++ materialParams mat editable lp ++ post) mat lp = lp := by
  funext i
  unfold updateMaterial
  cases hf : (pre ++ materialParams mat editable lp ++ post).reverse.find? (fun p => p.1 = lpParam mat i) with
  | none => rfl
  | some x =>
    simp only
    have h1 := List.find?_some hf
    have h2 := List.mem_of_find?_eq_some hf
    simp only [decide_eq_true_eq] at h1
    rw [List.mem_reverse, List.mem_append, List.mem_append] at h2
    have hx : x ∈ materialParams mat editable lp := by
      rcases h2 with (h | h) | h
      · exact absurd h1 (hp x (by simp [h]) i)
      · exact h
      · exact absurd h1 (hp x (by simp [h]) i)
    unfold materialParams at hx
    simp only [List.mem_filterMap] at hx
    obtain ⟨j, -, hj⟩ := hx
    split at hj
    · simp only [Option.some.injEq] at hj
      subst hj
      simp only [lpParam] at h1
      have := lpName_inj j i (List.cons.inj (List.append_cancel_left h1)).2
      subst this
      simp only
      split <;> ring
    · cases hj

/-- C69: a parameter that is not free keeps its value, a free one takes the fitted value in nm or degrees. -/
theorem material_update (mat : Name) (ps : List (Name × ℝ)) (lp : Fin 6 → ℝ) (i : Fin 6) :
    ((∀ x ∈ ps, x.1 ≠ lpParam mat i) → updateMaterial ps mat lp i = lp i) ∧
      ∀ v, (ps.map Prod.fst).Nodup → (lpParam mat i, v) ∈ ps →
        updateMaterial ps mat lp i = if i.val < 3 then v / 10 else v := by
  constructor
  · intro h
    unfold updateMaterial
    cases hf : ps.reverse.find? (fun p => p.1 = lpParam mat i) with
    | none => rfl
    | some x =>
      have h1 := List.find?_some hf
      have h2 := List.mem_of_find?_eq_some hf
      exact absurd (by simpa using h1) (h x (by simpa using h2))
  · intro v hn hm
    unfold updateMaterial
    cases hf : ps.reverse.find? (fun p => p.1 = lpParam mat i) with
    | none =>
      have := List.find?_eq_none.1 hf _ (by simpa using hm)
      simp at this
    | some x =>
      have h1 := List.find?_some hf
      have h2 := List.mem_of_find?_eq_some hf
      have : x = (lpParam mat i, v) :=
        List.inj_on_of_nodup_map hn (by simpa using h2) hm (by simpa using h1)
      subst this
      simp only
      split <;> ring

end Hexrd.Calib
