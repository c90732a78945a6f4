import Verif.Lemmas.Picks

/-! C131: calibration picks survive being stored in a calibrator. -/
namespace Hexrd.Picks

/-- C131: the string of a reflection is read back as the reflection, for any number and size of the indices. -/
theorem hkl_string_round_trip (hkl : List Int) : strToHkl (hklToStr hkl) = some hkl := strToHkl_hklToStr hkl

example : hklToStr [1, 0, -12] = "1 0 -12".toList := by decide +kernel
example : strToHkl " 1  +0\t-12".toList = some [1, 0, -12] := by decide +kernel

/-- C131: different reflections have different strings. -/
theorem hkl_string_injective {a b : List Int} : hklToStr a = hklToStr b ↔ a = b :=
  ⟨hklToStr_inj, fun h => by rw [h]⟩

/-! ### Grain and Laue calibrators -/

theorem set_entry {P : Type} {v : GrainPicks P} {data : GrainData P} (h : setGrainPicks v = some data) :
    data.map Prod.fst = v.map Prod.fst ∧
    ∀ k its, (k, its) ∈ v → ∃ hkls, (its.mapM fun p => strToHkl p.1) = some hkls ∧
      (k, (hkls, its.map Prod.snd)) ∈ data := by
  induction v generalizing data with
  | nil =>
    rw [setGrainPicks, List.mapM_nil] at h
    simp only [Option.pure_def, Option.some.injEq] at h
    subst h
    exact ⟨rfl, by simp⟩
  | cons d v ih =>
    obtain ⟨b, bs, hb, hbs, rfl⟩ := mapM_cons_some h
    obtain ⟨h1, h2⟩ := ih hbs
    rw [Option.map_eq_some_iff] at hb
    obtain ⟨hkls, hk, rfl⟩ := hb
    refine ⟨by rw [List.map_cons, h1]; rfl, ?_⟩
    intro k its hm
    rcases List.mem_cons.1 hm with rfl | hm
    · exact ⟨hkls, hk, by simp⟩
    · obtain ⟨hk2, e, he⟩ := h2 k its hm
      exact ⟨hk2, e, by simp [he]⟩

theorem get_entry {P : Type} {dets : List Str} {data : GrainData P} {out : GrainPicks P}
    (h : getGrainPicks dets data = some out) :
    out.map Prod.fst = dets ∧ ∀ k ∈ dets, ∃ e, dictGet data k = some e ∧
      (k, (e.1.zip e.2).foldl (fun acc q => dictSet acc (hklToStr q.1) q.2) []) ∈ out := by
  induction dets generalizing out with
  | nil =>
    rw [getGrainPicks, List.mapM_nil] at h
    simp only [Option.pure_def, Option.some.injEq] at h
    subst h
    exact ⟨rfl, by simp⟩
  | cons k dets ih =>
    obtain ⟨b, bs, hb, hbs, rfl⟩ := mapM_cons_some h
    obtain ⟨h1, h2⟩ := ih hbs
    rw [Option.map_eq_some_iff] at hb
    obtain ⟨e, he, rfl⟩ := hb
    refine ⟨by rw [List.map_cons, h1], ?_⟩
    intro q hq
    rcases List.mem_cons.1 hq with rfl | hq
    · exact ⟨e, he, by simp⟩
    · obtain ⟨e2, a, b⟩ := h2 q hq
      exact ⟨e2, a, by simp [b]⟩

theorem zip_strings {P : Type} {its : List (Str × P)} {hkls : List (List Int)}
    (h : (its.mapM fun p => strToHkl p.1) = some hkls) :
    ∀ g : List Int, (((hkls.zip (its.map Prod.snd)).map fun q => (hklToStr q.1, q.2)).filter
        fun q => q.1 = hklToStr g).map Prod.snd =
      (its.filter fun p => strToHkl p.1 = some g).map Prod.snd := by
  intro g
  induction its generalizing hkls with
  | nil =>
    rw [List.mapM_nil] at h
    simp only [Option.pure_def, Option.some.injEq] at h
    subst h; rfl
  | cons p its ih =>
    obtain ⟨b, bs, hb, hbs, rfl⟩ := mapM_cons_some h
    rw [List.map_cons, List.zip_cons_cons, List.map_cons, List.filter_cons, List.filter_cons]
    have e : (hklToStr b = hklToStr g) ↔ strToHkl p.1 = some g := by
      rw [hb, Option.some.injEq]; exact hkl_string_injective
    by_cases hg : strToHkl p.1 = some g
    · simp only [e, hg, decide_true, if_true, List.map_cons, ih hbs]
    · simp only [e, hg, decide_false, Bool.false_eq_true, if_false, ih hbs]

/-- C131: after the picks of a grain have been set, each detector of the instrument shows, for every reflection, the
last point that was given under a string that reads as this reflection, and no point for the others. -/
theorem grain_picks {P : Type} {v : GrainPicks P} {data : GrainData P} (hset : setGrainPicks v = some data)
    (hnd : (v.map Prod.fst).Nodup) {dets : List Str} {out : GrainPicks P} (hget : getGrainPicks dets data = some out) :
    out.map Prod.fst = dets ∧
    ∀ k ∈ dets, ∃ its d, (k, its) ∈ v ∧ (k, d) ∈ out ∧
      (∀ g, dictGet d (hklToStr g) = ((its.filter fun p => strToHkl p.1 = some g).map Prod.snd).getLast?) ∧
      ∀ s ∈ d.map Prod.fst, ∃ g, s = hklToStr g := by
  obtain ⟨h1, h2⟩ := set_entry hset
  obtain ⟨h3, h4⟩ := get_entry hget
  refine ⟨h3, fun k hk => ?_⟩
  obtain ⟨e, he, hm⟩ := h4 k hk
  have hkv : k ∈ v.map Prod.fst := by
    rw [← h1]
    by_contra hn
    rw [dictGet_none.2 hn] at he
    simp at he
  obtain ⟨⟨k', its⟩, hmem, rfl⟩ := List.mem_map.1 hkv
  obtain ⟨hkls, hh, hd⟩ := h2 _ its hmem
  have hdnd : (data.map Prod.fst).Nodup := by rw [h1]; exact hnd
  have := dictGet_of_mem hdnd hd
  rw [this, Option.some.injEq] at he
  subst he
  refine ⟨its, _, hmem, hm, ?_, ?_⟩
  · intro g
    have := dictGet_fold ((hkls.zip (its.map Prod.snd)).map fun q => (hklToStr q.1, q.2)) [] (hklToStr g)
    rw [List.foldl_map] at this
    rw [this, zip_strings hh g, dictGet_nil, Option.or_none]
  · intro s hs
    have := (fold_keys ((hkls.zip (its.map Prod.snd)).map fun q => (hklToStr q.1, q.2)) [] s)
    rw [List.foldl_map] at this
    have := this.1 hs
    simp only [List.map_nil, List.not_mem_nil, false_or, List.map_map, List.mem_map] at this
    obtain ⟨q, -, rfl⟩ := this
    exact ⟨q.1, rfl⟩

/-- C131: picks whose keys are written as the program writes them come back as they were, in the same order. -/
theorem grain_round_trip {P : Type} (v : GrainPicks P) (hnd : (v.map Prod.fst).Nodup)
    (hk : ∀ k its, (k, its) ∈ v → (its.map Prod.fst).Nodup ∧ ∀ s ∈ its.map Prod.fst, ∃ g, s = hklToStr g) :
    (setGrainPicks v).bind (getGrainPicks (v.map Prod.fst)) = some v := by
  have hread : ∀ its : List (Str × P), (∀ s ∈ its.map Prod.fst, ∃ g, s = hklToStr g) →
      ∃ hkls, (its.mapM fun p => strToHkl p.1) = some hkls ∧
        (hkls.zip (its.map Prod.snd)).map (fun q => (hklToStr q.1, q.2)) = its := by
    intro its
    induction its with
    | nil => intro _; exact ⟨[], rfl, rfl⟩
    | cons p its ih =>
      intro h
      obtain ⟨hkls, h1, h2⟩ := ih (fun s hs => h s (by simp [List.mem_map.1 hs]))
      obtain ⟨g, hg⟩ := h p.1 (by simp)
      refine ⟨g :: hkls, ?_, ?_⟩
      · rw [List.mapM_cons, hg, strToHkl_hklToStr, h1]; rfl
      · rw [List.map_cons, List.zip_cons_cons, List.map_cons, h2, ← hg]
  have hset : ∃ data, setGrainPicks v = some data := by
    unfold setGrainPicks
    have : ∀ w : GrainPicks P, (∀ d ∈ w, d ∈ v) → ∃ data, (w.mapM fun d =>
        (d.2.mapM fun p => strToHkl p.1).map fun hkls => (d.1, (hkls, d.2.map Prod.snd))) = some data := by
      intro w
      induction w with
      | nil => intro _; exact ⟨[], rfl⟩
      | cons d w ih =>
        intro hw
        obtain ⟨data, hdat⟩ := ih (fun d hd => hw d (by simp [hd]))
        obtain ⟨hkls, h1, -⟩ := hread d.2 (hk d.1 d.2 (hw d (by simp))).2
        exact ⟨_, by rw [List.mapM_cons, h1, hdat]; rfl⟩
    exact this v (fun _ h => h)
  obtain ⟨data, hdata⟩ := hset
  obtain ⟨h1, h2⟩ := set_entry hdata
  rw [hdata, Option.bind_some, getGrainPicks]
  have hdnd : (data.map Prod.fst).Nodup := by rw [h1]; exact hnd
  have : ∀ w : GrainPicks P, (∀ d ∈ w, d ∈ v) → ((w.map Prod.fst).mapM fun k => (dictGet data k).map fun e =>
      (k, (e.1.zip e.2).foldl (fun acc q => dictSet acc (hklToStr q.1) q.2) [])) = some w := by
    intro w
    induction w with
    | nil => intro _; rfl
    | cons d w ih =>
      intro hw
      obtain ⟨k, its⟩ := d
      have hm := hw (k, its) (by simp)
      obtain ⟨hkls, hh, hd⟩ := h2 k its hm
      obtain ⟨hkls', hh', hz⟩ := hread its (hk k its hm).2
      rw [hh, Option.some.injEq] at hh'
      subst hh'
      have hf := fold_new its [] (by simpa using (hk k its hm).1)
      conv at hf => lhs; rw [← hz, List.foldl_map]
      rw [List.map_cons, List.mapM_cons, ih (fun d hd => hw d (by simp [hd])), dictGet_of_mem hdnd hd,
        Option.map_some, hf]
      rfl
  exact this v (fun _ h => h)

/-- C131: the picks cannot be shown when a detector of the instrument has none. -/
theorem grain_missing {P : Type} {v : GrainPicks P} {data : GrainData P} (hset : setGrainPicks v = some data)
    {dets : List Str} {k : Str} (hk : k ∈ dets) (hn : k ∉ v.map Prod.fst) : getGrainPicks dets data = none := by
  cases h : getGrainPicks dets data with
  | none => rfl
  | some out =>
    obtain ⟨e, he, -⟩ := (get_entry h).2 k hk
    rw [dictGet_none.2 (by rw [(set_entry hset).1]; exact hn)] at he
    simp at he

/-- C131: two spellings of a reflection are two picks for the fit, but only the last is shown. -/
theorem grain_spelling_fails : ∃ (v : GrainPicks Nat) (data : GrainData Nat),
    (∀ d ∈ v, (d.2.map Prod.fst).Nodup) ∧ setGrainPicks v = some data ∧
    data = [("ge1".toList, ([[1, 0, 0], [1, 0, 0]], [5, 6]))] ∧
    getGrainPicks ["ge1".toList] data = some [("ge1".toList, [("1 0 0".toList, 6)])] :=
  ⟨[("ge1".toList, [("1 0 0".toList, 5), ("1  0 0".toList, 6)])], [("ge1".toList, ([[1, 0, 0], [1, 0, 0]], [5, 6]))],
    by decide +kernel, by decide +kernel, rfl, by decide +kernel⟩

/-! ### The powder calibrator -/

/-- C131: whatever the rows are (found automatically or given), the picks of a detector show under each reflection
exactly the points of its rows, in their order, and no key for a reflection without rows. -/
theorem powder_picks (data : PowderData) {k : Str} {arrays : List (List Row)} (hm : (k, arrays) ∈ data) :
    ∃ d, (k, d) ∈ getPowderPicks data ∧ (d.map Prod.fst).Nodup ∧
      (∀ h, dictGet d (hklToStr h) =
        let xs := (arrays.flatten.filter fun r => rowHkl r = h).map fun r => (r 0, r 1)
        if xs = [] then none else some xs) ∧
      ∀ s ∈ d.map Prod.fst, ∃ r ∈ arrays.flatten, s = hklToStr (rowHkl r) := by
  have hf : arrays.flatten.foldl (fun acc r => appendTo acc (hklToStr (rowHkl r)) (r 0, r 1)) [] =
      (arrays.flatten.map fun r => (hklToStr (rowHkl r), (r 0, r 1))).foldl
        (fun acc q => appendTo acc q.1 q.2) [] := by rw [List.foldl_map]
  have hu : ∀ s, under (arrays.flatten.map fun r => (hklToStr (rowHkl r), (r 0, r 1))) s =
      (arrays.flatten.filter fun r => hklToStr (rowHkl r) = s).map fun r => (r 0, r 1) := by
    intro s
    rw [under, List.filter_map, List.map_map]
    rfl
  refine ⟨_, List.mem_map_of_mem (f := fun d : Str × List (List Row) =>
    (d.1, d.2.flatten.foldl (fun acc r => appendTo acc (hklToStr (rowHkl r)) (r 0, r 1)) [])) hm, ?_, ?_, ?_⟩
  · show ((arrays.flatten.foldl _ []).map Prod.fst).Nodup
    rw [hf]; exact append_nodup _ _ (by simp)
  · intro h
    show dictGet (arrays.flatten.foldl _ []) (hklToStr h) = _
    rw [hf]
    have e1 := getD_fold (arrays.flatten.map fun r => (hklToStr (rowHkl r), (r 0, r 1))) [] (hklToStr h)
    have e2 := none_fold (arrays.flatten.map fun r => (hklToStr (rowHkl r), (r 0, r 1))) [] (hklToStr h)
    have e3 : (fun r : Row => decide (hklToStr (rowHkl r) = hklToStr h)) = fun r => decide (rowHkl r = h) := by
      funext r; simp only [hkl_string_injective]
    rw [hu, e3] at e1 e2
    simp only
    split
    · rename_i h0
      exact e2.2 ⟨rfl, h0⟩
    · rename_i h0
      cases hd : dictGet ((arrays.flatten.map fun r => (hklToStr (rowHkl r), (r 0, r 1))).foldl
          (fun acc q => appendTo acc q.1 q.2) []) (hklToStr h) with
      | none => exact absurd (e2.1 hd).2 h0
      | some xs =>
        rw [hd, Option.getD_some, dictGet_nil, Option.getD_none, List.nil_append] at e1
        rw [e1]
  · intro s hs
    replace hs : s ∈ (arrays.flatten.foldl (fun acc r => appendTo acc (hklToStr (rowHkl r)) (r 0, r 1)) []).map
      Prod.fst := hs
    rw [hf] at hs
    have e2 := none_fold (arrays.flatten.map fun r => (hklToStr (rowHkl r), (r 0, r 1))) [] s
    rw [dictGet_none, hu] at e2
    by_contra hn
    refine (e2.2 ⟨rfl, ?_⟩) hs
    rw [List.map_eq_nil_iff, List.filter_eq_nil_iff]
    intro r hr he
    exact hn ⟨r, hr, (of_decide_eq_true he).symm⟩

theorem rowHkl_pickRow (xy : Rat × Rat) (h : Int × Int × Int) : rowHkl (pickRow xy h) = [h.1, h.2.1, h.2.2] := by
  simp only [rowHkl]
  rw [show pickRow xy h 3 = (h.1 : Rat) from rfl, show pickRow xy h 4 = (h.2.1 : Rat) from rfl,
    show pickRow xy h 5 = (h.2.2 : Rat) from rfl, toInt_intCast, toInt_intCast, toInt_intCast]

/-- Picks of rings written as the program writes them. -/
def Canonical (its : List (Str × List (Rat × Rat))) : Prop :=
  (its.map Prod.fst).Nodup ∧ ∀ s ∈ its.map Prod.fst, ∃ h k l, s = hklToStr [h, k, l]

/-- The arrays that the rings become. -/
theorem set_arrays {its : List (Str × List (Rat × Rat))}
    (hk : ∀ s ∈ its.map Prod.fst, ∃ h k l, s = hklToStr [h, k, l]) :
    ∃ arrays, (its.mapM fun p => ((strToHkl p.1).bind threeIndices).map fun h => p.2.map fun xy => pickRow xy h) =
        some arrays ∧
      arrays.flatten.map (fun r => (hklToStr (rowHkl r), (r 0, r 1))) =
        its.flatMap fun p => p.2.map fun xy => (p.1, xy) := by
  induction its with
  | nil => exact ⟨[], rfl, rfl⟩
  | cons p its ih =>
    obtain ⟨arrays, h1, h2⟩ := ih (fun s hs => hk s (by simp [List.mem_map.1 hs]))
    obtain ⟨h, k, l, e⟩ := hk p.1 (by simp)
    refine ⟨(p.2.map fun xy => pickRow xy (h, k, l)) :: arrays, ?_, ?_⟩
    · rw [List.mapM_cons, h1, e, strToHkl_hklToStr]; rfl
    · rw [List.flatten_cons, List.map_append, h2, List.flatMap_cons]
      congr 1
      rw [List.map_map]
      apply List.map_congr_left
      intro xy _
      simp only [Function.comp_apply, rowHkl_pickRow, ← e]
      rfl

/-- C131: picks of rings come back as they were, without the rings that have no picks. -/
theorem powder_round_trip (v : PowderPicks) (hk : ∀ d ∈ v, Canonical d.2) :
    (setPowderPicks v).map getPowderPicks = some (v.map fun d => (d.1, d.2.filter fun p => p.2 ≠ [])) := by
  induction v with
  | nil => rfl
  | cons d v ih =>
    have ih := ih (fun d hd => hk d (by simp [hd]))
    obtain ⟨hn, hc⟩ := hk d (by simp)
    have hsub : ((d.2.filter fun p => p.2 ≠ []).map Prod.fst).Sublist (d.2.map Prod.fst) :=
      List.filter_sublist.map _
    obtain ⟨arrays, h1, h2⟩ := set_arrays (its := d.2.filter fun p => p.2 ≠ []) (fun s hs => hc s (hsub.subset hs))
    rw [setPowderPicks, List.mapM_cons, h1]
    rw [setPowderPicks] at ih
    rw [Option.map_eq_some_iff] at ih
    obtain ⟨data, hd, hg⟩ := ih
    rw [hd]
    simp only [Option.map_some, Option.bind_eq_bind, Option.bind_some, Option.pure_def]
    rw [getPowderPicks, List.map_cons, ← getPowderPicks, hg, List.map_cons]
    congr 2
    refine Prod.ext rfl ?_
    show arrays.flatten.foldl (fun acc r => appendTo acc (hklToStr (rowHkl r)) (r 0, r 1)) [] = _
    have hf : arrays.flatten.foldl (fun acc r => appendTo acc (hklToStr (rowHkl r)) (r 0, r 1)) [] =
        (arrays.flatten.map fun r => (hklToStr (rowHkl r), (r 0, r 1))).foldl
          (fun acc q => appendTo acc q.1 q.2) [] := by rw [List.foldl_map]
    rw [hf, h2, append_groups _ [] (by intro g hg; simpa using (List.mem_filter.1 hg).2)]
    · simp
    · rw [List.nil_append]; exact hsub.nodup hn

/-- What the fit uses of a row: the point and the indices. -/
def used (r : Row) : (Rat × Rat) × List Int := ((r 0, r 1), rowHkl r)

/-- C131: showing the picks of a calibrator and giving them to another leaves the fit with the same points on the same
rings, detector by detector; only the order within a detector may change. -/
theorem powder_transfer (data : PowderData) :
    ∃ data', setPowderPicks (getPowderPicks data) = some data' ∧
      List.Forall₂ (fun a b : Str × List (List Row) =>
        a.1 = b.1 ∧ (a.2.flatten.map used).Perm (b.2.flatten.map used)) data' data := by
  induction data with
  | nil => exact ⟨[], rfl, .nil⟩
  | cons d data ih =>
    obtain ⟨data', h1, h2⟩ := ih
    obtain ⟨k, arrays⟩ := d
    set l := arrays.flatten.map fun r => (hklToStr (rowHkl r), (r 0, r 1)) with hl
    set dd := l.foldl (fun acc q => appendTo acc q.1 q.2) [] with hdd
    have hf : arrays.flatten.foldl (fun acc r => appendTo acc (hklToStr (rowHkl r)) (r 0, r 1)) [] = dd := by
      rw [hdd, hl, List.foldl_map]
    have hne : ∀ g ∈ dd, g.2 ≠ [] := append_nonempty l [] (by simp)
    have hfil : dd.filter (fun p => p.2 ≠ []) = dd := by
      rw [List.filter_eq_self]; intro g hg; simpa using hne g hg
    have hkeys : ∀ s ∈ dd.map Prod.fst, ∃ h k l, s = hklToStr [h, k, l] := by
      intro s hs
      have e2 := none_fold l [] s
      rw [dictGet_none] at e2
      by_contra hn
      refine (e2.2 ⟨rfl, ?_⟩) hs
      rw [under, List.map_eq_nil_iff, List.filter_eq_nil_iff]
      intro q hq he
      rw [hl] at hq
      obtain ⟨r, -, rfl⟩ := List.mem_map.1 hq
      exact hn ⟨_, _, _, (of_decide_eq_true he).symm⟩
    obtain ⟨arrays', h3, h4⟩ := set_arrays hkeys
    refine ⟨(k, arrays') :: data', ?_, ?_⟩
    · rw [getPowderPicks, List.map_cons, ← getPowderPicks, setPowderPicks, List.mapM_cons, ← setPowderPicks, h1]
      simp only [hf, hfil, h3]
      rfl
    · refine .cons ⟨rfl, ?_⟩ h2
      have hp := items_fold_perm l []
      rw [show (items ([] : List (Str × List (Rat × Rat)))) = [] from rfl, List.nil_append] at hp
      rw [← hdd, items, ← h4, hl] at hp
      have hinj : ∀ a : List Row, (a.map fun r => (hklToStr (rowHkl r), (r 0, r 1))).map
          (fun q => (q.2, (strToHkl q.1).getD [])) = a.map used := by
        intro a
        rw [List.map_map]
        apply List.map_congr_left
        intro r _
        simp only [Function.comp_apply, strToHkl_hklToStr, Option.getD_some, used]
      have := hp.map (fun q : Str × (Rat × Rat) => (q.2, (strToHkl q.1).getD []))
      rwa [hinj, hinj] at this

/-- C131: the order does change: rows of two rings that alternate are shown ring by ring. -/
theorem powder_order_fails : ∃ data data' : PowderData, setPowderPicks (getPowderPicks data) = some data' ∧
    (data.map fun d => d.2.flatten.map used) ≠ data'.map fun d => d.2.flatten.map used := by
  refine ⟨[([], [[pickRow (1, 1) (1, 0, 0), pickRow (2, 2) (1, 1, 0), pickRow (3, 3) (1, 0, 0)]])],
    [([], [[pickRow (1, 1) (1, 0, 0), pickRow (3, 3) (1, 0, 0)], [pickRow (2, 2) (1, 1, 0)]])], ?_, by decide +kernel⟩
  have : getPowderPicks [([], [[pickRow (1, 1) (1, 0, 0), pickRow (2, 2) (1, 1, 0), pickRow (3, 3) (1, 0, 0)]])] =
      [([], [(hklToStr [1, 0, 0], [(1, 1), (3, 3)]), (hklToStr [1, 1, 0], [(2, 2)])])] := by decide +kernel
  rw [this, setPowderPicks]
  simp only [List.mapM_cons, List.mapM_nil, List.filter_cons, List.filter_nil, ne_eq, List.cons_ne_self, reduceCtorEq,
    not_false_eq_true, decide_true, if_true, strToHkl_hklToStr, Option.bind_some, threeIndices, Option.map_some,
    Option.bind_eq_bind, Option.pure_def]
  rfl

/-- C131: a key of a single index is read as three equal ones. -/
theorem powder_single_index (xys : List (Rat × Rat)) (hne : xys ≠ []) (i : Int) (k : Str) :
    (setPowderPicks [(k, [(hklToStr [i], xys)])]).map getPowderPicks = some [(k, [(hklToStr [i, i, i], xys)])] := by
  have h := powder_round_trip [(k, [(hklToStr [i, i, i], xys)])] (by
    intro d hd
    rw [List.mem_singleton] at hd
    subst hd
    exact ⟨by simp, fun s hs => ⟨i, i, i, by simpa using hs⟩⟩)
  have e : setPowderPicks [(k, [(hklToStr [i], xys)])] = setPowderPicks [(k, [(hklToStr [i, i, i], xys)])] := by
    simp only [setPowderPicks, List.mapM_cons, List.mapM_nil, List.filter_cons, List.filter_nil, strToHkl_hklToStr,
      hne, ne_eq, not_false_eq_true, decide_true, if_true, Option.bind_some, threeIndices]
  rw [e, h]
  simp [hne]

end Hexrd.Picks
