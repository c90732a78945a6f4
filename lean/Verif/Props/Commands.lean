import Verif.Spec.Commands

/-! The commands fit-grains and find-orientations, and tables of grains. -/

namespace Hexrd.Commands

variable {Q R : Type}

theorem write_other (fs : FS Q R) (p q : Path) (f : File Q R) (h : q ≠ p) : (fs.write p f) q = fs q := by
  simp [FS.write, h]

theorem write_same (fs : FS Q R) (p : Path) (f : File Q R) : (fs.write p f) p = some f := by
  simp [FS.write]

theorem estimate_some (fs : FS Q R) (c : Cfg) (e : Path) : estimate fs c = some e ↔ c.estimate = some e ∧ (fs e).isSome := by
  unfold estimate
  cases h : c.estimate with
  | none => simp
  | some p =>
    simp only [Option.bind_some, Option.some.injEq]
    split
    · next hp =>
      simp only [Option.some.injEq]
      constructor
      · rintro rfl; exact ⟨rfl, hp⟩
      · rintro ⟨rfl, -⟩; rfl
    · next hp =>
      simp only [reduceCtorEq, false_iff, not_and]
      rintro rfl; exact hp

theorem estimate_none (fs : FS Q R) (c : Cfg) : estimate fs c = none ↔ Spec.NoEstimate fs c := by
  constructor
  · intro h e he
    cases hf : fs e with
    | none => rfl
    | some f =>
      have := (estimate_some fs c e).2 ⟨he, by simp [hf]⟩
      rw [h] at this; cases this
  · intro h
    cases he : estimate fs c with
    | none => rfl
    | some e =>
      obtain ⟨h1, h2⟩ := (estimate_some fs c e).1 he
      rw [h e h1] at h2
      cases h2

/-- A section without options changes no file that exists. -/
theorem section_keeps (lib : Lib Q R) (a : Args) (hf : a.force = false) (hc : a.clean = false) (qbar : Option (List Q)) (fs : FS Q R)
    (c : Cfg) (p : Path) (f : File Q R) (hp : fs p = some f) : (section' lib a qbar fs c).1 p = some f := by
  unfold section'
  simp only [hf, hc, Bool.or_self, Bool.not_false, Bool.and_true]
  split
  · exact hp
  · next hg =>
    have hne : p ≠ c.grains := by
      rintro rfl
      rw [hp] at hg
      simp at hg
    split
    · split
      · exact hp
      · split
        · simp only [write_other _ _ _ _ hne]; exact hp
        · simp only [write_other _ _ _ _ hne]; exact hp
    · split
      · split
        · simp only [write_other _ _ _ _ hne]; exact hp
        · exact hp
      · split
        · simp only [write_other _ _ _ _ hne]; exact hp
        · exact hp

theorem sections_keep (lib : Lib Q R) (a : Args) (hf : a.force = false) (hc : a.clean = false) (qbar : Option (List Q)) (cs : List Cfg)
    (fs : FS Q R) (p : Path) (f : File Q R) (hp : fs p = some f) : (sections lib a qbar fs cs).1 p = some f := by
  induction cs generalizing fs with
  | nil => exact hp
  | cons c cs ih =>
    have h1 := section_keeps lib a hf hc qbar fs c p f hp
    simp only [sections]
    generalize section' lib a qbar fs c = r at h1 ⊢
    obtain ⟨fs', o⟩ := r
    cases o
    · exact ih fs' h1
    · exact h1
    · exact h1

/-- Without `--force` and `--clean` fit-grains changes no file that exists, whatever the sections and however it ends. -/
theorem fit_keeps_files (lib : Lib Q R) (a : Args) (hf : a.force = false) (hc : a.clean = false) (fs : FS Q R) (cs : List Cfg)
    (p : Path) (f : File Q R) (hp : fs p = some f) : (fitGrains lib a fs cs).1 p = some f := by
  unfold fitGrains
  cases cs with
  | nil => exact hp
  | cons c cs =>
    simp only
    split
    · exact hp
    · exact sections_keep lib a hf hc _ _ fs p f hp

/-- With any options fit-grains writes only tables of grains of its sections. -/
theorem fit_writes_grains (lib : Lib Q R) (a : Args) (fs : FS Q R) (cs : List Cfg) (p : Path) (hp : ∀ c ∈ cs, p ≠ c.grains) :
    (fitGrains lib a fs cs).1 p = fs p := by
  have hs : ∀ (fs : FS Q R) (qbar : Option (List Q)) (c : Cfg), p ≠ c.grains → (section' lib a qbar fs c).1 p = fs p := by
    intro fs qbar c hne
    unfold section'
    split
    · rfl
    · simp only
      split
      · split
        · rfl
        · split <;> simp [write_other _ _ _ _ hne]
      · split <;> split <;> simp [write_other _ _ _ _ hne]
  have hall : ∀ (cs : List Cfg) (fs : FS Q R) (qbar : Option (List Q)), (∀ c ∈ cs, p ≠ c.grains) →
      (sections lib a qbar fs cs).1 p = fs p := by
    intro cs
    induction cs with
    | nil => intro fs qbar _; rfl
    | cons c cs ih =>
      intro fs qbar h
      have h1 := hs fs qbar c (h c (List.mem_cons_self ..))
      simp only [sections]
      generalize section' lib a qbar fs c = r at h1 ⊢
      obtain ⟨fs', o⟩ := r
      cases o
      · simp only; rw [ih fs' qbar fun c hc => h c (List.mem_cons_of_mem _ hc)]; exact h1
      · exact h1
      · exact h1
  unfold fitGrains
  cases cs with
  | nil => rfl
  | cons c cs =>
    simp only
    split
    · rfl
    · exact hall _ fs _ hp

/-- One section: if the command comes to its end, the table of grains is the refinement of what it has to start from. -/
theorem fit_source (lib : Lib Q R) (a : Args) (fs : FS Q R) (c : Cfg) (hdone : (fitGrains lib a fs [c]).2 = .done) :
    ∃ t, Spec.StartsFrom lib a fs c t ∧ (fitGrains lib a fs [c]).1 c.grains = some (.table (lib.fit c t a.ids)) := by
  unfold fitGrains at hdone ⊢
  simp only at hdone ⊢
  by_cases hn : needed a fs c = true
  · have hno : a.clean = true ∨ Spec.NoEstimate fs c := by
      unfold needed at hn
      simp only [Bool.or_eq_true, Bool.and_eq_true, Option.isNone_iff_eq_none] at hn
      rcases hn with (h | ⟨-, h⟩) | ⟨-, h⟩
      · exact Or.inl h
      · exact Or.inr ((estimate_none fs c).1 h)
      · exact Or.inr ((estimate_none fs c).1 h)
    have hq : ∀ l, orientations lib a fs c = some (some l) → Spec.Orientations lib fs c l := by
      intro l hl
      unfold orientations at hl
      rw [if_pos hn] at hl
      split at hl
      · next h => cases hl; exact Or.inl h
      · cases hl
      · next h => cases hl; exact Or.inr ⟨h, rfl⟩
    cases ho : orientations lib a fs c with
    | none => rw [ho] at hdone; cases hdone
    | some q =>
      rw [ho] at hdone
      cases q with
      | none =>
        unfold orientations at ho
        rw [if_pos hn] at ho
        split at ho <;> cases ho
      | some l =>
        simp only [sections, section', hn, if_true, write_same] at hdone ⊢
        by_cases hex : ((fs c.grains).isSome && !(a.force || a.clean)) = true
        · rw [if_pos hex] at hdone; cases hdone
        · rw [if_neg hex]
          exact ⟨lib.rows l, Or.inl ⟨hno, l, hq l ho, rfl⟩, by simp [write_same]⟩
  · have ho : orientations lib a fs c = some none := by unfold orientations; rw [if_neg hn]
    rw [ho] at hdone ⊢
    have hcl : a.clean = false := by
      unfold needed at hn
      cases h : a.clean
      · rfl
      · rw [h] at hn; simp at hn
    simp only [sections, section', if_neg hn] at hdone ⊢
    by_cases hex : ((fs c.grains).isSome && !(a.force || a.clean)) = true
    · rw [if_pos hex] at hdone; cases hdone
    · rw [if_neg hex] at hdone ⊢
      cases he : estimate fs c with
      | none =>
        exfalso
        apply hn
        unfold needed
        simp only [he, hcl, Option.isNone_none, Bool.and_true, Bool.false_or]
        simp only [hcl, Bool.or_false, Bool.and_eq_true, not_and, Bool.not_eq_true', Bool.not_eq_false] at hex
        cases hf : a.force
        · cases hg : fs c.grains
          · simp
          · have := hex (by simp [hg]); rw [hf] at this; cases this
        · simp
      | some e =>
        rw [he] at hdone
        simp only at hdone ⊢
        obtain ⟨h1, h2⟩ := (estimate_some fs c e).1 he
        cases hfe : fs e with
        | none => rw [hfe] at h2; cases h2
        | some f =>
          rw [hfe] at hdone
          cases f with
          | quats l => cases hdone
          | table t => exact ⟨t, Or.inr ⟨hcl, e, h1, hfe⟩, by simp [write_same]⟩

/-- And it does come to its end if it may write and what it starts from is there. -/
theorem fit_runs (lib : Lib Q R) (a : Args) (fs : FS Q R) (c : Cfg) (t : List R) (hs : Spec.StartsFrom lib a fs c t)
    (hg : fs c.grains = none ∨ a.force = true ∨ a.clean = true) : (fitGrains lib a fs [c]).2 = .done := by
  have hex : ¬ ((fs c.grains).isSome && !(a.force || a.clean)) = true := by
    rcases hg with h | h | h <;> simp [h]
  unfold fitGrains
  simp only
  rcases hs with ⟨hno, l, hl, -⟩ | ⟨hcl, e, h1, h2⟩
  · have hn : needed a fs c = true := by
      unfold needed
      rcases hno with h | h
      · simp [h]
      · rw [(estimate_none fs c).2 h]
        rcases hg with h | h | h <;> simp [h]
    have ho : orientations lib a fs c = some (some l) := by
      unfold orientations
      rw [if_pos hn]
      rcases hl with h | ⟨h, rfl⟩ <;> rw [h]
    rw [ho]
    simp only [sections, section', if_neg hex, hn, if_true, write_same]
  · have he : estimate fs c = some e := (estimate_some fs c e).2 ⟨h1, by simp [h2]⟩
    have hn : ¬ needed a fs c = true := by
      unfold needed; simp [hcl, he]
    have ho : orientations lib a fs c = some none := by unfold orientations; rw [if_neg hn]
    rw [ho]
    simp only [sections, section', if_neg hex, if_neg hn, he, h2]

/-- After find-orientations, fit-grains without options stops without a fit: the table of grains that the search wrote counts as an
existing analysis. -/
theorem fit_after_find_fails (lib : Lib Q R) (a b : Args) (hf : b.force = false) (hc : b.clean = false) (fs : FS Q R) (c : Cfg)
    (cs : List Cfg) (hok : (findOrientations lib a fs (c :: cs)).2 = .done) :
    fitGrains lib b (findOrientations lib a fs (c :: cs)).1 (c :: cs) = ((findOrientations lib a fs (c :: cs)).1, .quit) := by
  have hgr : ((findOrientations lib a fs (c :: cs)).1 c.grains).isSome = true := by
    unfold findOrientations at hok ⊢
    simp only at hok ⊢
    split
    · next h => rw [if_pos h] at hok; cases hok
    · simp [write_same]
  generalize (findOrientations lib a fs (c :: cs)).1 = fs' at hgr ⊢
  have hn : ¬ (fs' c.grains = none ∧ estimate fs' c = none) := fun h => by rw [h.1] at hgr; cases hgr
  simp [fitGrains, orientations, needed, sections, section', hgr, hf, hc, hn]

/-- With `--force` and no estimate it starts from the orientations that were found, if their file is another one. -/
theorem force_after_find (lib : Lib Q R) (a b : Args) (hf : b.force = true) (fs : FS Q R) (c : Cfg) (hne : c.accepted ≠ c.grains)
    (hest : c.estimate = none) (hok : (findOrientations lib a fs [c]).2 = .done) :
    (fitGrains lib b (findOrientations lib a fs [c]).1 [c]).1 c.grains =
      some (.table (lib.fit c (lib.rows (lib.find c)) b.ids)) := by
  have hacc : (findOrientations lib a fs [c]).1 c.accepted = some (.quats (lib.find c)) := by
    unfold findOrientations at hok ⊢
    simp only at hok ⊢
    split
    · next h => rw [if_pos h] at hok; cases hok
    · simp only [write_other _ _ _ _ hne, write_same]
  generalize (findOrientations lib a fs [c]).1 = fs' at hacc ⊢
  have hs : Spec.StartsFrom lib b fs' c (lib.rows (lib.find c)) :=
    Or.inl ⟨Or.inr (fun e he => by rw [hest] at he; cases he), lib.find c, Or.inl hacc, rfl⟩
  obtain ⟨t, ht, hr⟩ := fit_source lib b fs' c (fit_runs lib b fs' c _ hs (Or.inr (Or.inl hf)))
  rcases ht with ⟨-, l, hl, rfl⟩ | ⟨-, e, h1, -⟩
  · rcases hl with h | ⟨h, -⟩
    · rw [hacc] at h; cases h; exact hr
    · rw [hacc] at h; cases h
  · rw [hest] at h1; cases h1

/-- Without options find-orientations keeps the accepted orientations that exist. -/
theorem find_keeps_accepted (lib : Lib Q R) (a : Args) (hf : a.force = false) (hc : a.clean = false) (fs : FS Q R) (c : Cfg)
    (cs : List Cfg) (f : File Q R) (h : fs c.accepted = some f) : findOrientations lib a fs (c :: cs) = (fs, .quit) := by
  simp [findOrientations, h, hf, hc]

/-- find-orientations searches exactly if there are no accepted orientations yet or one of the options is given, and then the results
are in both files. -/
theorem find_runs (lib : Lib Q R) (a : Args) (fs : FS Q R) (c : Cfg) (cs : List Cfg) :
    ((findOrientations lib a fs (c :: cs)).2 = .done ↔ fs c.accepted = none ∨ a.force = true ∨ a.clean = true) ∧
      ((findOrientations lib a fs (c :: cs)).2 = .done →
        (findOrientations lib a fs (c :: cs)).1 c.grains = some (.table (lib.rows (lib.find c))) ∧
        (c.accepted ≠ c.grains → (findOrientations lib a fs (c :: cs)).1 c.accepted = some (.quats (lib.find c)))) := by
  by_cases h : ((fs c.accepted).isSome && !(a.force || a.clean)) = true
  · have e : findOrientations lib a fs (c :: cs) = (fs, .quit) := by
      simp only [findOrientations]
      rw [if_pos h]
    rw [e]
    simp only [Bool.and_eq_true, Bool.not_eq_true', Bool.or_eq_false_iff] at h
    obtain ⟨h1, h2, h3⟩ := h
    simp [h2, h3, Option.isSome_iff_ne_none.1 h1]
  · have e : findOrientations lib a fs (c :: cs) =
        ((fs.write c.accepted (.quats (lib.find c))).write c.grains (.table (lib.rows (lib.find c))), .done) := by
      simp only [findOrientations]
      rw [if_neg h]
    rw [e]
    refine ⟨⟨fun _ => ?_, fun _ => rfl⟩, fun _ => ⟨by simp [write_same], fun hne => ?_⟩⟩
    · cases hf : fs c.accepted with
      | none => exact .inl rfl
      | some x =>
        rw [hf] at h
        right
        cases h1 : a.force <;> cases h2 : a.clean <;> simp [h1, h2] at h ⊢
    · simp [FS.write, hne]

/-- But a table of fitted grains without a file of accepted orientations, as after a fit from an estimate, is overwritten. -/
theorem find_overwrites_fails (lib : Lib Q R) (a : Args) (fs : FS Q R) (c : Cfg) (cs : List Cfg) (h : fs c.accepted = none) :
    (findOrientations lib a fs (c :: cs)).1 c.grains = some (.table (lib.rows (lib.find c))) := by
  simp [findOrientations, h, write_same]

/-- Two sections, the first with an estimate and the second without one: the second raises after the first has been refined. -/
theorem later_section_fails (lib : Lib Q R) (t : List R) :
    ∃ (fs : FS Q R) (c d : Cfg), Spec.HasEstimate fs c 0 t ∧ (fitGrains lib ⟨false, false, none⟩ fs [d]).2 = .done ∧
      (fitGrains lib ⟨false, false, none⟩ fs [c, d]).2 = .raised ∧
      (fitGrains lib ⟨false, false, none⟩ fs [c, d]).1 c.grains = some (.table (lib.fit c t none)) := by
  refine ⟨fun p => if p = 0 then some (.table t) else none, ⟨1, 2, some 0⟩, ⟨3, 4, none⟩, ⟨rfl, rfl⟩, ?_, ?_, ?_⟩
  · simp [fitGrains, orientations, needed, estimate, sections, section', FS.write]
  · simp [fitGrains, orientations, needed, estimate, sections, section', FS.write]
  · simp [fitGrains, orientations, needed, estimate, sections, section', FS.write]

/-- Two sections with orientations of their own: the second is refined from those of the first. -/
theorem own_orientations_fails (lib : Lib Q R) (l m : List Q) :
    ∃ (fs : FS Q R) (c d : Cfg), fs d.accepted = some (.quats m) ∧ (fitGrains lib ⟨false, false, none⟩ fs [c, d]).2 = .done ∧
      (fitGrains lib ⟨false, false, none⟩ fs [c, d]).1 d.grains = some (.table (lib.fit d (lib.rows l) none)) := by
  refine ⟨fun p => if p = 1 then some (.quats l) else if p = 3 then some (.quats m) else none, ⟨1, 2, none⟩, ⟨3, 4, none⟩, rfl, ?_, ?_⟩
  · simp [fitGrains, orientations, needed, estimate, sections, section', FS.write]
  · simp [fitGrains, orientations, needed, estimate, sections, section', FS.write]

/-- The grains that are selected: those with enough completeness and, if asked for, a chi squared that is not too great, in order. -/
theorem select_iff (minComp : ℝ) (maxChi : Option ℝ) (gs : List Grain) :
    List.Sublist (select minComp maxChi gs) gs ∧ ∀ g, g ∈ select minComp maxChi gs ↔
      g ∈ gs ∧ minComp ≤ g.completeness ∧ ∀ m, maxChi = some m → g.chisq ≤ m := by
  refine ⟨List.filter_sublist, ?_⟩
  intro g
  unfold select
  rw [List.mem_filter]
  cases maxChi <;> simp

/-- Two selections are one with the stronger bounds. -/
theorem select_select (a b m n : ℝ) (gs : List Grain) :
    select a (some m) (select b (some n) gs) = select (max a b) (some (min m n)) gs := by
  unfold select
  rw [List.filter_filter]
  apply List.filter_congr
  intro g _
  simp only [Bool.decide_and, ge_iff_le, max_le_iff, le_min_iff]
  rw [Bool.eq_iff_iff]
  simp only [Bool.and_eq_true, decide_eq_true_eq]
  tauto

/-- A table that was written can be read if it has two grains or more: ids, orientations, positions and stretches come back, the
logarithm if it was that of the stretch, completeness and chi squared as printed. -/
theorem written_read_partial (lnOf : List ℝ → List ℝ) (f6 e6 : ℝ → ℝ) (gs : List Grain) (h2 : 2 ≤ gs.length)
    (hln : ∀ g ∈ gs, g.lnV = lnOf (g.params.drop 6)) :
    ∃ out, fromGrainsOut (written lnOf f6 e6 gs) = some out ∧
      out = gs.map fun g => { g with completeness := f6 g.completeness, chisq := e6 g.chisq } := by
  refine ⟨written lnOf f6 e6 gs, ?_, ?_⟩
  · match gs, h2 with
    | _ :: _ :: _, _ => rfl
  · unfold written
    apply List.map_congr_left
    intro g hg
    simp [hln g hg]

/-- A table of one grain can be written but not read. -/
theorem written_read_one_fails (lnOf : List ℝ → List ℝ) (f6 e6 : ℝ → ℝ) (g : Grain) : fromGrainsOut (written lnOf f6 e6 [g]) = none := rfl

end Hexrd.Commands
