import Verif.Model.PowderCalib
import Verif.Props.CalibNames
import Verif.Props.CalibRigid
import Mathlib.Tactic.Linarith
import Mathlib.Tactic.FieldSimp

/-! C133: the rings of a calibration without structure: their parameters and residuals. -/
namespace Hexrd.PowderCalib
open Hexrd.Calib

/-! ### What was picked -/

/-- The points of a ring, panel by panel in the order of the instrument. -/
def ringPicks (dets : List Name) (ring : Ring) : List (Name × (ℝ × ℝ)) :=
  dets.flatMap fun d => ((ring.lookup d).getD []).map fun xy => (d, xy)

/-- All points with the source and the number of their ring. -/
def picksFrom (dets : List Name) (s : Name) : Nat → List Ring → List (Name × Nat × Name × (ℝ × ℝ))
  | _, [] => []
  | i, ring :: rings => (ringPicks dets ring).map (fun dx => (s, i, dx)) ++ picksFrom dets s (i + 1) rings

def allPicks (dets : List Name) (data : List (Name × List Ring)) : List (Name × Nat × Name × (ℝ × ℝ)) :=
  data.flatMap fun sr => picksFrom dets sr.1 0 sr.2

/-- Rings that only mention panels of the instrument, and have a point if they mention one. -/
structure RingOk (dets : List Name) (ring : Ring) : Prop where
  known : ∀ d ∈ ring.map Prod.fst, d ∈ dets
  filled : ring = [] ∨ ringPicks dets ring ≠ []

/-! ### The names -/

theorem last_underscore {a b x y : Name} (hx : '_' ∉ x) (hy : '_' ∉ y) (h : a ++ '_' :: x = b ++ '_' :: y) :
    a = b ∧ x = y := by
  induction a generalizing b with
  | nil =>
    cases b with
    | nil => simpa using h
    | cons c b =>
      rw [List.nil_append, List.cons_append, List.cons.injEq] at h
      exact absurd (h.2 ▸ List.mem_append_right b (List.mem_cons_self ..)) hx
  | cons c a ih =>
    cases b with
    | nil =>
      rw [List.nil_append, List.cons_append, List.cons.injEq] at h
      exact absurd (h.2 ▸ List.mem_append_right a (List.mem_cons_self ..)) hy
    | cons d b =>
      rw [List.cons_append, List.cons_append, List.cons.injEq] at h
      obtain ⟨h1, h2⟩ := ih h.2
      exact ⟨by rw [h.1, h1], h2⟩

/-- C133: rings of different sources or with different numbers have different parameters. -/
theorem ring_names_inj {beams : List Name} {s s' p p' : Name} {i i' : Nat} (hp : prefixOf beams s = some p)
    (hp' : prefixOf beams s' = some p') (h : ringName p i = ringName p' i') : s = s' ∧ i = i' := by
  have key : ∀ q q' : Name, ringName (q ++ sDS) i = ringName (q' ++ sDS) i' → q = q' ∧ i = i' := by
    intro q q' h
    have e : ∀ (q : Name) (i : Nat), ringName (q ++ sDS) i =
        (q ++ ['D', 'S', '_', 'r', 'i', 'n', 'g']) ++ '_' :: Nat.toDigits 10 i := by
      intro q i; simp [ringName, sDS]
    rw [e, e] at h
    obtain ⟨h1, h2⟩ := last_underscore Nat.underscore_not_in_toDigits Nat.underscore_not_in_toDigits h
    exact ⟨List.append_cancel_right h1, toDigits_inj h2⟩
  unfold prefixOf at hp hp'
  split at hp
  · cases hp
  · split at hp'
    · cases hp'
    · rename_i hs hs'
      rw [not_not] at hs hs'
      split at hp
      · rename_i hl
        rw [if_pos hl] at hp'
        obtain ⟨b, rfl⟩ := List.length_eq_one_iff.1 hl
        simp only [List.mem_singleton] at hs hs'
        rw [Option.some.injEq] at hp hp'
        subst hp hp'
        exact ⟨hs.trans hs'.symm, (key [] [] (by simpa using h)).2⟩
      · rename_i hl
        rw [if_neg hl] at hp'
        rw [Option.some.injEq] at hp hp'
        subst hp hp'
        obtain ⟨h1, h2⟩ := key _ _ h
        exact ⟨List.append_cancel_right h1, h2⟩

/-! ### The angles of a ring -/

theorem lookup_isSome_iff {α : Type} {l : List (Name × α)} {n : Name} : (l.lookup n).isSome ↔ n ∈ l.map Prod.fst := by
  induction l with
  | nil => simp
  | cons a l ih =>
    rw [List.lookup_cons]
    by_cases h : n = a.1
    · subst h; simp
    · have : (n == a.1) = false := by simpa using h
      rw [this, ih]
      simp [h]

theorem ringAngles_ok {dets : List Name} {ring : Ring} (h : RingOk dets ring) (tth : Name → ℝ × ℝ → ℝ) :
    ringAngles dets tth ring =
      some (dets.map fun d => (d, (ring.lookup d).map fun xs => xs.map fun xy => (xy, tth d xy))) := by
  rw [ringAngles, if_pos h.known]

theorem found_flatten (dets : List Name) (ring : Ring) (tth : Name → ℝ × ℝ → ℝ) :
    (((dets.map fun d => (d, (ring.lookup d).map fun xs => xs.map fun xy => (xy, tth d xy))).filterMap
      Prod.snd).flatten.map Prod.snd) = (ringPicks dets ring).map fun dx => tth dx.1 dx.2 := by
  unfold ringPicks
  induction dets with
  | nil => rfl
  | cons d dets ih =>
    rw [List.map_cons, List.flatMap_cons, List.map_append, ← ih, List.filterMap_cons]
    cases ring.lookup d with
    | none => simp
    | some xs => simp [List.map_map, Function.comp_def]

theorem found_empty {dets : List Name} {ring : Ring} (h : RingOk dets ring) (tth : Name → ℝ × ℝ → ℝ) :
    ((dets.map fun d => (d, (ring.lookup d).map fun xs => xs.map fun xy => (xy, tth d xy))).filterMap
      Prod.snd).isEmpty = true ↔ ringPicks dets ring = [] := by
  rw [List.isEmpty_iff]
  constructor
  · intro he
    rw [List.filterMap_eq_nil_iff] at he
    unfold ringPicks
    rw [List.flatMap_eq_nil_iff]
    intro d hd
    have := he _ (List.mem_map_of_mem hd)
    simp only [Option.map_eq_none_iff] at this
    simp [this]
  · intro he
    rcases h.filled with rfl | hne
    · rw [List.filterMap_eq_nil_iff]
      intro a ha
      obtain ⟨d, -, rfl⟩ := List.mem_map.1 ha
      rfl
    · exact absurd he hne

/-! ### The parameters -/

/-- The mean angle of a ring, in degrees. -/
noncomputable def meanDegrees (dets : List Name) (tth : Name → ℝ × ℝ → ℝ) (ring : Ring) : ℝ :=
  ((ringPicks dets ring).map fun dx => tth dx.1 dx.2).sum / (ringPicks dets ring).length * (180 / Real.pi)

theorem ringParams_mem {dets : List Name} {tth : Name → ℝ × ℝ → ℝ} {pre : Name} (rings : List Ring) :
    ∀ (i : Nat), (∀ ring ∈ rings, RingOk dets ring) →
    ∃ ps, ringParams dets tth pre i rings = some ps ∧
      (∀ p, p ∈ ps ↔ ∃ k ring, rings[k]? = some ring ∧ ringPicks dets ring ≠ [] ∧
        p = ⟨ringName pre (i + k), meanDegrees dets tth ring, true, some (meanDegrees dets tth ring - 5),
          some (meanDegrees dets tth ring + 5)⟩) ∧
      (ps.map Param.name).Nodup := by
  induction rings with
  | nil => intro i _; exact ⟨[], rfl, by simp, by simp⟩
  | cons ring rings ih =>
    intro i h
    obtain ⟨ps, h1, h2, h3⟩ := ih (i + 1) (fun r hr => h r (by simp [hr]))
    have hr := h ring (by simp)
    rw [ringParams]
    simp only [ringAngles_ok hr, Option.bind_eq_bind, Option.bind_some, h1, found_flatten, Option.pure_def]
    by_cases hp : ringPicks dets ring = []
    · refine ⟨ps, by rw [if_pos ((found_empty hr tth).2 hp)], ?_, h3⟩
      intro p
      rw [h2]
      constructor
      · rintro ⟨k, r, a, b, rfl⟩
        exact ⟨k + 1, r, by simpa using a, b, by rw [Nat.add_right_comm, Nat.add_assoc i k 1]⟩
      · rintro ⟨k, r, a, b, rfl⟩
        cases k with
        | zero => simp at a; subst a; exact absurd hp b
        | succ k => exact ⟨k, r, by simpa using a, b, by rw [Nat.add_right_comm, Nat.add_assoc i k 1]⟩
    · have hv : ((ringPicks dets ring).map fun dx => tth dx.1 dx.2).sum /
          (((ringPicks dets ring).map fun dx => tth dx.1 dx.2).length : ℝ) * (180 / Real.pi) =
          meanDegrees dets tth ring := by rw [List.length_map]; rfl
      rw [if_neg (fun hc => hp ((found_empty hr tth).1 hc)), if_neg (by simpa using hp), hv]
      refine ⟨_, rfl, ?_, ?_⟩
      · intro p
        rw [List.mem_cons, h2]
        constructor
        · rintro (rfl | ⟨k, r, a, b, rfl⟩)
          · exact ⟨0, ring, rfl, hp, rfl⟩
          · exact ⟨k + 1, r, by simpa using a, b, by rw [Nat.add_right_comm, Nat.add_assoc i k 1]⟩
        · rintro ⟨k, r, a, b, rfl⟩
          cases k with
          | zero => simp at a; subst a; exact Or.inl rfl
          | succ k => exact Or.inr ⟨k, r, by simpa using a, b, by rw [Nat.add_right_comm, Nat.add_assoc i k 1]⟩
      · rw [List.map_cons, List.nodup_cons]
        refine ⟨?_, h3⟩
        intro hm
        obtain ⟨p, hp', hn⟩ := List.mem_map.1 hm
        obtain ⟨k, r, -, -, rfl⟩ := (h2 p).1 hp'
        simp only [ringName] at hn
        have := toDigits_inj (List.append_cancel_left hn)
        omega

/-- Data of which every source is a beam of the instrument and every ring is as above. -/
structure DataOk (beams dets : List Name) (data : List (Name × List Ring)) : Prop where
  sources : (data.map Prod.fst).Nodup
  beams : ∀ s ∈ data.map Prod.fst, s ∈ beams
  rings : ∀ sr ∈ data, ∀ ring ∈ sr.2, RingOk dets ring

/-- C133: there is one parameter for each ring with a pick: its value is the mean angle in degrees, it is free, and may
move by five degrees. The names are all different. -/
theorem tth_params {beams dets : List Name} {data : List (Name × List Ring)} (h : DataOk beams dets data)
    (tth : Name → Name → ℝ × ℝ → ℝ) :
    ∃ ps, createTth beams dets tth data = some ps ∧ (ps.map Param.name).Nodup ∧
      ∀ p, p ∈ ps ↔ ∃ s rings i ring pre, (s, rings) ∈ data ∧ rings[i]? = some ring ∧ ringPicks dets ring ≠ [] ∧
        prefixOf beams s = some pre ∧
        p = ⟨ringName pre i, meanDegrees dets (tth s) ring, true, some (meanDegrees dets (tth s) ring - 5),
          some (meanDegrees dets (tth s) ring + 5)⟩ := by
  induction data with
  | nil => exact ⟨[], rfl, by simp, by simp⟩
  | cons sr data ih =>
    obtain ⟨s, rings⟩ := sr
    have hsd := h.sources
    rw [List.map_cons, List.nodup_cons] at hsd
    obtain ⟨ps, h1, h2, h3⟩ := ih ⟨hsd.2, fun t ht => h.beams t (by simp [List.mem_map.1 ht]),
      fun t ht => h.rings t (by simp [ht])⟩
    obtain ⟨pre, hpre⟩ : ∃ pre, prefixOf beams s = some pre := by
      unfold prefixOf
      rw [if_neg (not_not.2 (h.beams s (by simp)))]
      split <;> exact ⟨_, rfl⟩
    obtain ⟨qs, h4, h5, h6⟩ := ringParams_mem (dets := dets) (tth := tth s) (pre := pre) rings 0
      (h.rings (s, rings) (by simp))
    refine ⟨qs ++ ps, by rw [createTth, hpre, h1]; simp [h4], ?_, ?_⟩
    · rw [List.map_append, List.nodup_append]
      refine ⟨h6, h2, ?_⟩
      rintro a ha b hb rfl
      obtain ⟨p, hp, hpa⟩ := List.mem_map.1 ha
      obtain ⟨q, hq, hqa⟩ := List.mem_map.1 hb
      obtain ⟨k, r, -, -, rfl⟩ := (h5 p).1 hp
      obtain ⟨s', rings', i, ring, pre', hm, -, -, hpre', rfl⟩ := (h3 q).1 hq
      simp only at hpa hqa
      obtain ⟨rfl, -⟩ := ring_names_inj hpre hpre' (hpa.trans hqa.symm)
      exact hsd.1 (List.mem_map.2 ⟨_, hm, rfl⟩)
    · intro p
      rw [List.mem_append, h5, h3]
      constructor
      · rintro (⟨k, r, a, b, rfl⟩ | ⟨s', rings', i, ring, pre', a, b, c, d, e⟩)
        · exact ⟨s, rings, k, r, pre, by simp, a, b, hpre, by rw [Nat.zero_add]⟩
        · exact ⟨s', rings', i, ring, pre', by simp [a], b, c, d, e⟩
      · rintro ⟨s', rings', i, ring, pre', a, b, c, d, rfl⟩
        rcases List.mem_cons.1 a with a | a
        · rw [Prod.mk.injEq] at a
          obtain ⟨rfl, rfl⟩ := a
          rw [hpre, Option.some.injEq] at d
          subst d
          exact Or.inl ⟨i, ring, b, c, by rw [Nat.zero_add]⟩
        · exact Or.inr ⟨s', rings', i, ring, pre', a, b, c, d, rfl⟩

/-- C133, disagreement: a ring that is there with its panels, but without a single point, does not get a usable
parameter: the mean of nothing is not a number. -/
theorem empty_ring_fails {dets : List Name} (tth : Name → ℝ × ℝ → ℝ) (pre : Name) (i : Nat) {d : Name} (hd : d ∈ dets) :
    ringParams dets tth pre i [[(d, [])]] = none := by
  have hl : ∀ x, ([(d, ([] : List (ℝ × ℝ)))].lookup x) = if x = d then some [] else none := by
    intro x
    rw [List.lookup_cons]
    by_cases h : x = d
    · subst h; simp
    · have : (x == d) = false := by simpa using h
      rw [this, if_neg h]
      rfl
  have ha : ringAngles dets tth [(d, [])] =
      some (dets.map fun e => (e, (([(d, ([] : List (ℝ × ℝ)))].lookup e).map fun xs => xs.map fun xy => (xy, tth e xy)))) := by
    rw [ringAngles, if_pos (by simp [hd])]
  have hpick : ringPicks dets [(d, [])] = [] := by
    unfold ringPicks
    rw [List.flatMap_eq_nil_iff]
    intro e _
    rw [hl]
    split <;> rfl
  rw [ringParams, ha]
  simp only [Option.bind_eq_bind, Option.bind_some, found_flatten, hpick]
  rw [ringParams, Option.bind_some, if_neg, if_pos (by simp)]
  rw [List.isEmpty_iff, List.filterMap_eq_nil_iff]
  intro h
  have := h _ (List.mem_map_of_mem hd)
  simp [hl] at this

/-! ### The residuals -/

theorem ringResidual_spec {dets : List Name} {ring : Ring} (h : ∀ d ∈ ring.map Prod.fst, d ∈ dets)
    (tth : Name → ℝ × ℝ → ℝ) (corr : Option (Name → ℝ × ℝ → ℝ)) {ps : List Param} {name : Name} {v : ℝ}
    (hv : ringPicks dets ring ≠ [] → val ps name = some v) :
    ringResidual dets tth corr ps name ring = some ((ringPicks dets ring).map fun dx =>
      tth dx.1 dx.2 - v * (Real.pi / 180) - (corr.map fun c => c dx.1 dx.2).getD 0) := by
  rw [ringResidual, ringAngles, if_pos h]
  simp only [Option.bind_eq_bind, Option.bind_some, Option.pure_def]
  have aux : ∀ ds : List Name, (ringPicks ds ring ≠ [] → val ps name = some v) →
      ((((ds.map fun d => (d, (ring.lookup d).map fun xs => xs.map fun xy => (xy, tth d xy))).filterMap fun kv =>
        match kv.2 with
        | some (x :: xs) => some (kv.1, x :: xs)
        | _ => none).mapM fun kv => (val ps name).bind fun v =>
          some (kv.2.map fun xt => xt.2 - v * (Real.pi / 180) - match corr with | none => 0 | some c => c kv.1 xt.1)).bind
        fun here => some here.flatten) = some ((ringPicks ds ring).map fun dx =>
      tth dx.1 dx.2 - v * (Real.pi / 180) - (corr.map fun c => c dx.1 dx.2).getD 0) := by
    intro ds
    induction ds with
    | nil => intro _; rfl
    | cons d ds ih =>
      intro hv
      have hsplit : ringPicks (d :: ds) ring = (((ring.lookup d).getD []).map fun xy => (d, xy)) ++ ringPicks ds ring := rfl
      have ih' := ih (fun hne => hv (by rw [hsplit]; simp [hne]))
      cases hl : ring.lookup d with
      | none =>
        rw [hsplit, hl]
        rw [List.map_cons, List.filterMap_cons]
        simp only [hl, Option.map_none, Option.getD_none, List.map_nil, List.nil_append]
        exact ih'
      | some xs =>
        cases xs with
        | nil =>
          rw [hsplit, hl]
          rw [List.map_cons, List.filterMap_cons]
          simp only [hl, Option.map_some, Option.getD_some, List.map_nil, List.nil_append]
          exact ih'
        | cons x xs =>
          have hval := hv (by rw [hsplit, hl]; simp)
          rw [hsplit, hl]
          rw [List.map_cons, List.filterMap_cons]
          simp only [hl, Option.map_some, List.map_cons, Option.getD_some, List.mapM_cons, hval, Option.bind_some,
            Option.bind_eq_bind, Option.pure_def]
          simp only [hval, Option.bind_some] at ih'
          obtain ⟨z, hz1, hz2⟩ := Option.bind_eq_some_iff.1 ih'
          rw [hz1, Option.bind_some, Option.bind_some, List.flatten_cons]
          rw [Option.some.injEq] at hz2
          rw [hz2, List.map_append]
          cases corr <;> simp [Function.comp_def]
  exact aux dets hv

theorem ringsResidual_spec {dets : List Name} (s : Name) (tth : Name → ℝ × ℝ → ℝ) (corr : Option (Name → ℝ × ℝ → ℝ))
    {ps : List Param} {pre : Name} (rings : List Ring) (v : Nat → ℝ) : ∀ i : Nat,
    (∀ ring ∈ rings, ∀ d ∈ ring.map Prod.fst, d ∈ dets) →
    (∀ x ∈ picksFrom dets s i rings, val ps (ringName pre x.2.1) = some (v x.2.1)) →
    ringsResidual dets tth corr ps pre i rings = some ((picksFrom dets s i rings).map fun x =>
      tth x.2.2.1 x.2.2.2 - v x.2.1 * (Real.pi / 180) - (corr.map fun c => c x.2.2.1 x.2.2.2).getD 0) := by
  induction rings with
  | nil => intro i _ _; rfl
  | cons ring rings ih =>
    intro i h hv
    rw [ringsResidual, ringResidual_spec (v := v i) (h ring (by simp)), ih (i + 1) (fun r hr => h r (by simp [hr])),
      picksFrom]
    · simp [Function.comp_def]
    · intro x hx
      exact hv x (by rw [picksFrom]; exact List.mem_append_right _ hx)
    · intro hne
      obtain ⟨dx, hdx⟩ := List.exists_mem_of_ne_nil _ hne
      exact hv (s, i, dx) (by rw [picksFrom]; exact List.mem_append_left _ (List.mem_map.2 ⟨dx, hdx, rfl⟩))

/-- C133: the residual has one entry for each pick: its angle less that of its ring, and less the correction. -/
theorem structureless_residual {beams dets : List Name} {data : List (Name × List Ring)}
    (hb : ∀ s ∈ data.map Prod.fst, s ∈ beams)
    (hk : ∀ sr ∈ data, ∀ ring ∈ sr.2, ∀ d ∈ ring.map Prod.fst, d ∈ dets)
    (tth : Name → Name → ℝ × ℝ → ℝ) (corr : Option (Name → Name → ℝ × ℝ → ℝ)) {ps : List Param}
    (v : Name → Nat → ℝ) (hne : allPicks dets data ≠ [])
    (hv : ∀ x ∈ allPicks dets data, ∀ pre, prefixOf beams x.1 = some pre →
      val ps (ringName pre x.2.1) = some (v x.1 x.2.1)) :
    calcResidual beams dets tth corr ps data = some ((allPicks dets data).map fun x =>
      tth x.1 x.2.2.1 x.2.2.2 - v x.1 x.2.1 * (Real.pi / 180) -
        (corr.map fun c => c x.1 x.2.2.1 x.2.2.2).getD 0) := by
  have hs : ∀ (s : Name) (rings : List Ring) (i : Nat), ∀ x ∈ picksFrom dets s i rings, x.1 = s := by
    intro s rings
    induction rings with
    | nil => intro i x hx; simp [picksFrom] at hx
    | cons ring rings ih =>
      intro i x hx
      rw [picksFrom, List.mem_append] at hx
      rcases hx with hx | hx
      · obtain ⟨dx, -, rfl⟩ := List.mem_map.1 hx; rfl
      · exact ih _ x hx
  have key : sourcesResidual beams dets tth corr ps data = some ((allPicks dets data).map fun x =>
      tth x.1 x.2.2.1 x.2.2.2 - v x.1 x.2.1 * (Real.pi / 180) -
        (corr.map fun c => c x.1 x.2.2.1 x.2.2.2).getD 0) := by
    clear hne
    induction data with
    | nil => rfl
    | cons sr data ih =>
      obtain ⟨s, rings⟩ := sr
      obtain ⟨pre, hpre⟩ : ∃ pre, prefixOf beams s = some pre := by
        unfold prefixOf
        rw [if_neg (not_not.2 (hb s (by simp)))]
        split <;> exact ⟨_, rfl⟩
      have hsplit : allPicks dets ((s, rings) :: data) = picksFrom dets s 0 rings ++ allPicks dets data := rfl
      rw [sourcesResidual, hpre, ih (fun t ht => hb t (by simp [List.mem_map.1 ht])) (fun t ht => hk t (by simp [ht]))
        (fun x hx => hv x (by rw [hsplit]; exact List.mem_append_right _ hx))]
      simp only [Option.bind_eq_bind, Option.bind_some]
      rw [ringsResidual_spec s (tth s) (corr.map fun c => c s) rings (v s) 0 (hk (s, rings) (by simp))]
      · rw [hsplit, List.map_append]
        simp only [Option.bind_some, Option.pure_def, Option.some.injEq, Option.map_map, List.append_cancel_right_eq]
        apply List.map_congr_left
        intro x hx
        rw [hs s rings 0 x hx]
        cases corr <;> rfl
      · intro x hx
        have := hv x (by rw [hsplit]; exact List.mem_append_left _ hx)
        rw [hs s rings 0 x hx] at this
        exact this pre hpre
  rw [calcResidual, key, Option.bind_some, if_neg]
  simpa using hne

/-- C133: with the parameters that it starts from, the residual is defined, and over the picks of each ring it sums to
zero. -/
theorem initial_residual {beams dets : List Name} {data : List (Name × List Ring)} (h : DataOk beams dets data)
    (tth : Name → Name → ℝ × ℝ → ℝ) (hne : allPicks dets data ≠ []) {ps : List Param}
    (hps : createTth beams dets tth data = some ps) :
    ∃ v : Name → Nat → ℝ,
      calcResidual beams dets tth none ps data = some ((allPicks dets data).map fun x =>
        tth x.1 x.2.2.1 x.2.2.2 - v x.1 x.2.1 * (Real.pi / 180)) ∧
      ∀ s rings i ring, (s, rings) ∈ data → rings[i]? = some ring →
        ((ringPicks dets ring).map fun dx => tth s dx.1 dx.2 - v s i * (Real.pi / 180)).sum = 0 := by
  classical
  obtain ⟨ps', h1, h2, h3⟩ := tth_params h tth
  rw [hps, Option.some.injEq] at h1
  subst h1
  let v : Name → Nat → ℝ := fun s i =>
    match data.lookup s with
    | some rings => match rings[i]? with
      | some ring => meanDegrees dets (tth s) ring
      | none => 0
    | none => 0
  have hlook : ∀ s rings, (s, rings) ∈ data → data.lookup s = some rings := by
    have hnd := h.sources
    clear h3 hps hne v h
    induction data with
    | nil => intro s rings hm; simp at hm
    | cons a l ih =>
      rw [List.map_cons, List.nodup_cons] at hnd
      intro s rings hm
      rw [List.lookup_cons]
      rcases List.mem_cons.1 hm with rfl | hm
      · simp
      · have : (s == a.1) = false := by
          rw [beq_eq_false_iff_ne]
          rintro rfl
          exact hnd.1 (List.mem_map.2 ⟨_, hm, rfl⟩)
        rw [this]
        exact ih hnd.2 s rings hm
  have hvv : ∀ s rings i ring, (s, rings) ∈ data → rings[i]? = some ring → v s i = meanDegrees dets (tth s) ring := by
    intro s rings i ring hm hr
    simp only [v, hlook s rings hm, hr]
  have hpick : ∀ (s : Name) (rings : List Ring) (i : Nat), ∀ x ∈ picksFrom dets s i rings,
      x.1 = s ∧ ∃ k ring, rings[k]? = some ring ∧ x.2.1 = i + k ∧ ringPicks dets ring ≠ [] := by
    intro s rings
    induction rings with
    | nil => intro i x hx; simp [picksFrom] at hx
    | cons ring rings ih =>
      intro i x hx
      rw [picksFrom, List.mem_append] at hx
      rcases hx with hx | hx
      · obtain ⟨dx, hdx, rfl⟩ := List.mem_map.1 hx
        exact ⟨rfl, 0, ring, rfl, rfl, List.ne_nil_of_mem hdx⟩
      · obtain ⟨h1, k, r, h2, h3, h4⟩ := ih _ x hx
        exact ⟨h1, k + 1, r, by simpa using h2, by omega, h4⟩
  refine ⟨v, ?_, ?_⟩
  · have := structureless_residual h.beams (fun sr hsr ring hr => (h.rings sr hsr ring hr).known) tth none (ps := ps) v
      hne ?_
    · simpa using this
    · intro x hx pre hpre
      obtain ⟨⟨s, rings⟩, hsr, hx'⟩ := List.mem_flatMap.1 hx
      obtain ⟨e1, k, ring, e2, e3, e4⟩ := hpick s rings 0 x hx'
      rw [Nat.zero_add] at e3
      rw [e1] at hpre
      have hm := (h3 ⟨ringName pre k, meanDegrees dets (tth s) ring, true, some (meanDegrees dets (tth s) ring - 5),
        some (meanDegrees dets (tth s) ring + 5)⟩).2 ⟨s, rings, k, ring, pre, hsr, e2, e4, hpre, rfl⟩
      have := val_of_mem h2 hm
      rw [e1, e3, hvv s rings k ring hsr e2]
      exact this
  · intro s rings i ring hm hr
    rw [hvv s rings i ring hm hr]
    by_cases hp : ringPicks dets ring = []
    · simp [hp]
    · have hlen : ((ringPicks dets ring).length : ℝ) ≠ 0 := by
        have := List.length_pos_iff.2 hp
        exact_mod_cast this.ne'
      have hsum : ∀ (l : List (Name × (ℝ × ℝ))) (c : ℝ), (l.map fun dx => tth s dx.1 dx.2 - c).sum =
          (l.map fun dx => tth s dx.1 dx.2).sum - l.length * c := by
        intro l c
        induction l with
        | nil => simp
        | cons a l ih =>
          rw [List.map_cons, List.sum_cons, ih, List.map_cons, List.sum_cons, List.length_cons, Nat.cast_add,
            Nat.cast_one]
          ring
      have hpi := Real.pi_pos.ne'
      rw [hsum, meanDegrees]
      field_simp
      ring

/-- Two beams, two rings on two panels. -/
def demoRings : List (Name × List Ring) :=
  [(['a'], [[(['p'], [(1, 2), (3, 4)]), (['q'], [(5, 6)])], []]), (['b'], [[(['q'], [(7, 8)])]])]

theorem demo_ok : DataOk [['a'], ['b']] [['p'], ['q']] demoRings := by
  refine ⟨by simp [demoRings], by simp [demoRings], ?_⟩
  intro sr hsr ring hr
  simp only [demoRings, List.mem_cons, List.not_mem_nil, or_false] at hsr
  rcases hsr with rfl | rfl
  · simp only [List.mem_cons, List.not_mem_nil, or_false] at hr
    rcases hr with rfl | rfl
    · exact ⟨by simp, Or.inr (by simp [ringPicks])⟩
    · exact ⟨by simp, Or.inl rfl⟩
  · simp only [List.mem_cons, List.not_mem_nil, or_false] at hr
    subst hr
    exact ⟨by simp, Or.inr (by simp [ringPicks, List.lookup])⟩

example : allPicks [['p'], ['q']] demoRings =
    [(['a'], 0, ['p'], (1, 2)), (['a'], 0, ['p'], (3, 4)), (['a'], 0, ['q'], (5, 6)), (['b'], 0, ['q'], (7, 8))] := rfl

end Hexrd.PowderCalib
