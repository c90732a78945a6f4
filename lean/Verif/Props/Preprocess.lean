import Verif.Model.Preprocess
import Mathlib.Tactic.Linarith
import Mathlib.Tactic.FieldSimp
import Mathlib.Tactic.Ring

/-! What a preprocessed scan holds. -/

namespace Hexrd.Preprocess

variable {F : Type}

theorem mapM_getElem? {α β : Type} (g : α → Option β) (l : List α) (out : List β) (h : l.mapM g = some out) :
    out.length = l.length ∧ ∀ (i : ℕ), out[i]? = l[i]?.bind g := by
  induction l generalizing out with
  | nil => simp at h; subst h; simp
  | cons x l ih =>
    simp only [List.mapM_cons, Option.pure_def, Option.bind_eq_bind, Option.bind_eq_some_iff, Option.some.injEq] at h
    obtain ⟨y, hy, ys, hys, rfl⟩ := h
    obtain ⟨h1, h2⟩ := ih ys hys
    refine ⟨by simp [h1], ?_⟩
    intro i
    cases i with
    | zero => simp [hy]
    | succ i => simpa using h2 i

theorem isSome_get {α : Type} (l : List α) (i : ℕ) : (l[i]?).isSome = true ↔ i < l.length := by
  simp

theorem mapM_isSome {α β : Type} (g : α → Option β) (l : List α) : (l.mapM g).isSome ↔ ∀ x ∈ l, (g x).isSome := by
  induction l with
  | nil => simp
  | cons x l ih =>
    simp only [List.mapM_cons, Option.pure_def, Option.bind_eq_bind, List.mem_cons, forall_eq_or_imp]
    cases hg : g x with
    | none => simp
    | some y =>
      cases hm : l.mapM g with
      | none => rw [hm] at ih; simpa using ih
      | some ys => rw [hm] at ih; simpa using ih

/-- A frame as it should be stored. -/
noncomputable def shot (sub : List F → F → F) (a : Args) (ops : List (F → F)) (raw : List F) (i : ℕ) (img : F) : Shot F :=
  ⟨ops.foldl (fun x f => f x) (sub (darkFrames a raw) img), omegaLo a i, omegaHi a i⟩

/-- If fewer frames are asked for than the file has, or more, the cache has that many frames and frame `i` is frame `start + i` of the
file, processed, with the angles of step `i`. -/
theorem processed_frames_partial (sub : List F → F → F) (a : Args) (ops : List (F → F)) (raw : List F) (hne : a.frames ≠ raw.length)
    (out : List (Shot F)) (h : processed sub a ops raw = some out) :
    out.length = a.frames ∧ ∀ (i : ℕ), i < a.frames → ∃ img, raw[a.start + i]? = some img ∧ out[i]? = some (shot sub a ops raw i img) := by
  unfold processed at h
  obtain ⟨h1, h2⟩ := mapM_getElem? _ _ _ h
  have hn : numbers a raw = (List.range a.frames).map (a.start + ·) := by unfold numbers; rw [if_pos hne]
  rw [hn] at h1 h2
  have hlen : out.length = a.frames := by simpa using h1
  refine ⟨hlen, ?_⟩
  intro i hi
  have h3 := h2 i
  have hz : ((List.range a.frames).map (a.start + ·)).zipIdx[i]? = some (a.start + i, i) := by
    rw [List.getElem?_zipIdx, List.getElem?_map, List.getElem?_range hi]; simp
  rw [hz] at h3
  simp only [Option.bind_some] at h3
  have : out[i]?.isSome := by rw [List.getElem?_eq_getElem (by omega)]; rfl
  cases hr : raw[a.start + i]? with
  | none => rw [h3, hr] at this; cases this
  | some img => exact ⟨img, rfl, by rw [h3, hr]; rfl⟩

/-- The cache is made exactly if the file has all frames that are asked for. -/
theorem processed_iff_partial (sub : List F → F → F) (a : Args) (ops : List (F → F)) (raw : List F) (hne : a.frames ≠ raw.length)
    (hpos : 0 < a.frames) : (processed sub a ops raw).isSome ↔ a.start + a.frames ≤ raw.length := by
  unfold processed
  rw [mapM_isSome]
  have hn : numbers a raw = (List.range a.frames).map (a.start + ·) := by unfold numbers; rw [if_pos hne]
  rw [hn]
  constructor
  · intro h
    have hm : (a.start + (a.frames - 1), a.frames - 1) ∈ ((List.range a.frames).map (a.start + ·)).zipIdx := by
      rw [List.mk_mem_zipIdx_iff_getElem?, List.getElem?_map, List.getElem?_range (by omega)]; rfl
    have := h _ hm
    simp only [Option.isSome_map, isSome_get] at this
    omega
  · rintro h ⟨k, i⟩ hm
    rw [List.mk_mem_zipIdx_iff_getElem?, List.getElem?_map] at hm
    have hi : i < a.frames := by
      by_contra hi
      rw [List.getElem?_eq_none (by simpa using hi)] at hm
      cases hm
    rw [List.getElem?_range hi] at hm
    simp only [Option.map_some, Option.some.injEq] at hm
    simp only [Option.isSome_map, isSome_get]
    omega

/-- But if as many frames are asked for as the file has, the frames to leave out are not left out: frame `i` is frame `i` of the file,
though the file does not have the frames that were asked for. -/
theorem processed_start_fails (sub : List F → F → F) (a : Args) (ops : List (F → F)) (raw : List F) (heq : a.frames = raw.length) :
    ∃ out, processed sub a ops raw = some out ∧ ∀ (i : ℕ) (img : F), raw[i]? = some img → out[i]? = some (shot sub a ops raw i img) := by
  have hn : numbers a raw = List.range raw.length := by unfold numbers; rw [if_neg (by simpa using heq)]
  have hs : (processed sub a ops raw).isSome := by
    unfold processed
    rw [mapM_isSome, hn]
    rintro ⟨k, i⟩ hm
    rw [List.mk_mem_zipIdx_iff_getElem?] at hm
    have hi : i < raw.length := by
      by_contra hi
      rw [List.getElem?_eq_none (by simpa using hi)] at hm
      cases hm
    rw [List.getElem?_range hi] at hm
    simp only [Option.some.injEq] at hm
    simp only [Option.isSome_map, isSome_get]
    omega
  obtain ⟨out, ho⟩ := Option.isSome_iff_exists.1 hs
  refine ⟨out, ho, ?_⟩
  intro i img hi
  unfold processed at ho
  obtain ⟨-, h2⟩ := mapM_getElem? _ _ _ ho
  rw [hn] at h2
  have hlt : i < raw.length := by
    by_contra h
    rw [List.getElem?_eq_none (by omega)] at hi; cases hi
  rw [h2 i, List.getElem?_zipIdx, List.getElem?_range hlt]
  simp only [Option.map_some, Option.bind_some]
  simp [hi, shot]

/-- The angles cover the range asked for without gaps. -/
theorem omega_covers (a : Args) (h : 0 < a.frames) : omegaLo a 0 = a.omeStart ∧ omegaHi a (a.frames - 1) = a.omeEnd ∧
    (∀ i, omegaHi a i = omegaLo a (i + 1)) ∧ ∀ i, omegaHi a i - omegaLo a i = (a.omeEnd - a.omeStart) / a.frames := by
  have h0 : (a.frames : ℝ) ≠ 0 := by exact_mod_cast h.ne'
  refine ⟨by simp [omegaLo], ?_, fun i => rfl, ?_⟩
  · unfold omegaHi omegaLo
    rw [Nat.sub_add_cancel h]
    field_simp
    ring
  · intro i
    unfold omegaHi omegaLo
    push_cast
    ring

theorem foldl_job (sub : List F → F → F) (a : Args) (samp scan : List Char) (js : List (Raw F × Panel F)) (s : Store F)
    (hok : ∀ j ∈ js, (processed sub a j.2.ops j.1.frames).isSome) :
    ∃ st, js.foldl (job sub a samp scan) (some s) = some st ∧
      (∀ n, (∀ j ∈ js, outName samp scan j.1.path ≠ n) → st n = s n) ∧
      ∀ j ∈ js, (∀ k ∈ js, outName samp scan k.1.path = outName samp scan j.1.path → k = j) →
        st (outName samp scan j.1.path) = processed sub a j.2.ops j.1.frames := by
  induction js generalizing s with
  | nil => exact ⟨s, rfl, fun _ _ => rfl, fun j hj => by cases hj⟩
  | cons j js ih =>
    obtain ⟨shots, hsh⟩ := Option.isSome_iff_exists.1 (hok j (List.mem_cons_self ..))
    obtain ⟨st, h1, h2, h3⟩ := ih (fun n => if n = outName samp scan j.1.path then some shots else s n)
      fun k hk => hok k (List.mem_cons_of_mem _ hk)
    refine ⟨st, ?_, ?_, ?_⟩
    · rw [List.foldl_cons]
      have : job sub a samp scan (some s) j = some (fun n => if n = outName samp scan j.1.path then some shots else s n) := by
        simp [job, hsh]
      rw [this]
      exact h1
    · intro n hn
      rw [h2 n fun k hk => hn k (List.mem_cons_of_mem _ hk)]
      rw [if_neg]
      exact fun h => hn j (List.mem_cons_self ..) h.symm
    · intro k hk hu
      by_cases hmem : k ∈ js
      · exact h3 k hmem fun l hl => hu l (List.mem_cons_of_mem _ hl)
      · have hkj : k = j := by
          rcases List.mem_cons.1 hk with h | h
          · exact h
          · exact absurd h hmem
        subst hkj
        rw [h2, if_pos rfl, hsh]
        intro l hl heq
        exact hmem (hu l (List.mem_cons_of_mem _ hl) heq ▸ hl)

/-- If every file belongs to one panel only, as the test on its path decides, and the names of the caches are distinct, every file is
stored under its own name, processed with the operations of its panel. -/
theorem preprocess_stores_partial (sub : List F → F → F) (a : Args) (samp scan : List Char) (panels : List (Panel F))
    (files : List (Raw F)) (panelOf : Raw F → Panel F)
    (hone : ∀ r ∈ files, panelOf r ∈ panels ∧ ∀ p ∈ panels, hits p r.path = true ↔ p = panelOf r)
    (hname : ∀ r ∈ files, ∀ t ∈ files, stem r.path = stem t.path → r = t)
    (hlen : ∀ r ∈ files, a.start + a.frames ≤ r.frames.length ∧ a.frames ≠ r.frames.length) (hpos : 0 < a.frames) :
    ∃ st, preprocess sub a samp scan panels files = some st ∧
      ∀ r ∈ files, st (outName samp scan r.path) = processed sub a (panelOf r).ops r.frames := by
  have hj : ∀ j, j ∈ jobs panels files ↔ j.1 ∈ files ∧ j.2 = panelOf j.1 := by
    rintro ⟨r, p⟩
    simp only [jobs, List.mem_flatMap, List.mem_map, List.mem_filter, Prod.mk.injEq]
    constructor
    · rintro ⟨r', hr', p', ⟨hp', hh⟩, rfl, rfl⟩
      exact ⟨hr', ((hone r' hr').2 p' hp').1 hh⟩
    · rintro ⟨hr, rfl⟩
      exact ⟨r, hr, panelOf r, ⟨(hone r hr).1, ((hone r hr).2 _ (hone r hr).1).2 rfl⟩, rfl, rfl⟩
  obtain ⟨st, h1, -, h3⟩ := foldl_job sub a samp scan (jobs panels files) (fun _ => none) (by
    rintro ⟨r, p⟩ h
    obtain ⟨hr, hp⟩ := (hj _).1 h
    dsimp only at hr hp ⊢
    subst hp
    exact (processed_iff_partial sub a _ r.frames (hlen r hr).2 hpos).2 (hlen r hr).1)
  refine ⟨st, h1, ?_⟩
  intro r hr
  refine h3 (r, panelOf r) ((hj _).2 ⟨hr, rfl⟩) ?_
  rintro ⟨t, p⟩ hk heq
  obtain ⟨ht, hp⟩ := (hj _).1 hk
  dsimp only at ht hp
  subst hp
  have : t = r := hname t ht r hr (by simpa [outName] using heq)
  rw [this]

/-- The usual names meet the hypotheses. -/
example : let p1 : Panel ℕ := ⟨"FF1".toList, []⟩; let p2 : Panel ℕ := ⟨"FF2".toList, []⟩
    hits p1 "/d/s/7/ff/ff1_3.h5".toList = true ∧ hits p2 "/d/s/7/ff/ff1_3.h5".toList = false ∧
    hits p1 "/d/s/7/ff/ff2_3.h5".toList = false ∧ hits p2 "/d/s/7/ff/ff2_3.h5".toList = true ∧
    stem "/d/s/7/ff/ff1_3.h5".toList = "ff1_3".toList ∧ stem "/d/s/7/ff/ff2_3.h5".toList = "ff2_3".toList := by
  decide

/-- A file that two panels take for theirs is stored with the operations of the second. -/
theorem two_panels (sub : List F → F → F) (a : Args) (samp scan : List Char) (p1 p2 : Panel F) (r : Raw F) (hpos : 0 < a.frames)
    (hlen : a.start + a.frames ≤ r.frames.length ∧ a.frames ≠ r.frames.length) (e1 : hits p1 r.path = true) (e2 : hits p2 r.path = true) :
    ∃ st, preprocess sub a samp scan [p1, p2] [r] = some st ∧ st (outName samp scan r.path) = processed sub a p2.ops r.frames := by
  obtain ⟨s1, h1⟩ := Option.isSome_iff_exists.1 ((processed_iff_partial sub a p1.ops r.frames hlen.2 hpos).2 hlen.1)
  obtain ⟨s2, h2⟩ := Option.isSome_iff_exists.1 ((processed_iff_partial sub a p2.ops r.frames hlen.2 hpos).2 hlen.1)
  refine ⟨fun n => if n = outName samp scan r.path then some s2 else if n = outName samp scan r.path then some s1 else none, ?_, ?_⟩
  · simp only [preprocess, jobs, List.flatMap_cons, List.flatMap_nil, List.append_nil, List.filter_cons, List.filter_nil, e1, e2, if_true,
      List.map_cons, List.map_nil, List.foldl_cons, List.foldl_nil, job, Option.bind_some, h1, h2, Option.map_some]
  · simp [h2]

/-- A sample whose name has the name of a panel in it: the file of the first panel is stored with the operations of the second. -/
theorem preprocess_panel_fails (sub : List F → F → F) (a : Args) (ops1 ops2 : List (F → F)) (raw : List F) (hpos : 0 < a.frames)
    (hlen : a.start + a.frames ≤ raw.length ∧ a.frames ≠ raw.length) :
    ∃ st, preprocess sub a "xff2".toList "7".toList [⟨"FF1".toList, ops1⟩, ⟨"FF2".toList, ops2⟩] [⟨"/d/xff2/7/ff/ff1_3.h5".toList, raw⟩] = some st ∧
      st "xff2_7_ff1_3".toList = processed sub a ops2 raw := by
  have e3 : outName "xff2".toList "7".toList "/d/xff2/7/ff/ff1_3.h5".toList = "xff2_7_ff1_3".toList := by decide
  rw [← e3]
  exact two_panels sub a _ _ ⟨"FF1".toList, ops1⟩ ⟨"FF2".toList, ops2⟩ ⟨"/d/xff2/7/ff/ff1_3.h5".toList, raw⟩ hpos hlen
    (decide_eq_true (by dsimp only; decide)) (decide_eq_true (by dsimp only; decide))

/-- A file that no panel takes for its own is not stored, and nothing is raised. -/
theorem no_panel (sub : List F → F → F) (a : Args) (samp scan : List Char) (p1 p2 : Panel F) (r : Raw F)
    (e1 : hits p1 r.path = false) (e2 : hits p2 r.path = false) : preprocess sub a samp scan [p1, p2] [r] = some fun _ => none := by
  simp [preprocess, jobs, List.filter_cons, e1, e2]

/-- That happens if its name has the name of the panel in capital letters. -/
theorem preprocess_capitals_fails (sub : List F → F → F) (a : Args) (ops1 ops2 : List (F → F)) (raw : List F) :
    preprocess sub a "s".toList "7".toList [⟨"FF1".toList, ops1⟩, ⟨"FF2".toList, ops2⟩] [⟨"/d/s/7/ff/FF1_3.h5".toList, raw⟩] =
      some fun _ => none :=
  no_panel sub a _ _ _ _ _ (decide_eq_false (by dsimp only; decide)) (decide_eq_false (by dsimp only; decide))

end Hexrd.Preprocess
