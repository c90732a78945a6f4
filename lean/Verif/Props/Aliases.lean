import Verif.Model.Aliases
import Verif.Spec.Aliases
import Mathlib.Tactic.Common
import Mathlib.Data.List.Induction

/-!
# C161: old names of modules
-/
namespace Hexrd.Aliases

section dict
variable {K V : Type} [DecidableEq K]

theorem get_none {d : List (K × V)} {k : K} : get d k = none ↔ ∀ e ∈ d, e.1 ≠ k := by
  simp [get]

theorem get_append (d d' : List (K × V)) (k : K) : get (d ++ d') k = (get d k).or (get d' k) := by
  simp only [get, List.find?_append]
  cases List.find? (fun e => decide (e.1 = k)) d <;> simp

theorem get_cons (e : K × V) (d : List (K × V)) (k : K) : get (e :: d) k = if e.1 = k then some e.2 else get d k := by
  simp only [get, List.find?_cons]
  by_cases h : e.1 = k <;> simp [h]

theorem get_map (d : List (K × V)) (k k' : K) (g : K × V → V) :
    get (d.map fun e => if e.1 = k then (e.1, g e) else e) k'
      = if k = k' then (d.find? fun e => e.1 = k').map g else get d k' := by
  induction d with
  | nil => simp [get]
  | cons e d ih =>
    rw [List.map_cons, get_cons, ih, get_cons, List.find?_cons]
    by_cases h1 : e.1 = k <;> by_cases h2 : k = k' <;> by_cases h3 : e.1 = k' <;> simp_all

theorem get_put (d : List (K × V)) (k k' : K) (v : V) : get (put d k v) k' = if k = k' then some v else get d k' := by
  unfold put
  split
  · rename_i h
    have : (d.map fun e => if e.1 = k then (k, v) else e) = d.map fun e => if e.1 = k then (e.1, (fun _ => v) e) else e := by
      apply List.map_congr_left
      intro e _
      by_cases h : e.1 = k <;> simp [h]
    rw [this, get_map]
    by_cases hk : k = k'
    · subst hk
      simp only [if_true]
      rcases hf : d.find? (fun e => decide (e.1 = k)) with _ | e
      · simp at hf h
        obtain ⟨b, hb⟩ := h
        exact absurd rfl (hf _ _ hb)
      · rw [hf]; rfl
    · simp [hk]
  · rename_i h
    rw [get_append, get_cons]
    simp only [List.any_eq_true, decide_eq_true_eq, not_exists, not_and] at h
    by_cases hk : k = k'
    · subst hk
      rw [get_none.mpr h]; simp
    · simp [hk, get]

end dict

theorem get_addLine (m : List (File × List File)) (l : File × File) (old : File) :
    get (addLine m l) old = if l.1 = old then some ((get m old).getD [] ++ [l.2]) else get m old := by
  unfold addLine
  split
  · rename_i h
    rw [get_map m l.1 old fun e => e.2 ++ [l.2]]
    by_cases hk : l.1 = old
    · subst hk
      simp only [if_true, get]
      rcases hf : m.find? (fun e => decide (e.1 = l.1)) with _ | e
      · simp at hf h
        obtain ⟨b, hb⟩ := h
        exact absurd rfl (hf _ _ hb)
      · rw [hf]; rfl
    · simp [hk]
  · rename_i h
    simp only [List.any_eq_true, decide_eq_true_eq, not_exists, not_and] at h
    rw [get_append, get_cons]
    by_cases hk : l.1 = old
    · subst hk
      rw [get_none.mpr h]; simp
    · simp [hk, get]

/-- The table groups the lines: an old path has exactly the new paths of its lines, in their order. -/
theorem fileMap_get (lines : List (File × File)) (old : File) :
    get (fileMap lines) old = if Spec.newPaths lines old = [] then none else some (Spec.newPaths lines old) := by
  induction lines using List.reverseRecOn with
  | nil => simp [fileMap, Spec.newPaths, get]
  | append_singleton ls l ih =>
    rw [fileMap, List.foldl_append, List.foldl_cons, List.foldl_nil, get_addLine]
    rw [fileMap] at ih
    rw [ih]
    have hp : Spec.newPaths (ls ++ [l]) old = Spec.newPaths ls old ++ if l.1 = old then [l.2] else [] := by
      by_cases hk : l.1 = old <;> simp [Spec.newPaths, List.filter_append, hk]
    rw [hp]
    by_cases hk : l.1 = old
    · by_cases hn : Spec.newPaths ls old = []
      · simp only [hn, hk, if_true]; rfl
      · simp only [hn, hk, if_true, if_false]; simp
    · simp only [hk, if_false, List.append_nil]

theorem addLine_keys (m : List (File × List File)) (l : File × File) (h : (m.map Prod.fst).Nodup) :
    ((addLine m l).map Prod.fst).Nodup := by
  unfold addLine
  split
  · have : (m.map fun e => if e.1 = l.1 then (e.1, e.2 ++ [l.2]) else e).map Prod.fst = m.map Prod.fst := by
      rw [List.map_map]
      apply List.map_congr_left
      intro e _
      by_cases h : e.1 = l.1 <;> simp [h]
    rwa [this]
  · rename_i hn
    simp only [List.any_eq_true, decide_eq_true_eq, not_exists, not_and] at hn
    rw [List.map_append, List.nodup_append]
    refine ⟨h, by simp, ?_⟩
    intro a ha b hb
    simp only [List.map_cons, List.map_nil, List.mem_singleton] at hb
    obtain ⟨e, he, rfl⟩ := List.mem_map.mp ha
    subst hb
    exact hn e he

/-- Every old path has one entry. -/
theorem fileMap_keys (lines : List (File × File)) : ((fileMap lines).map Prod.fst).Nodup := by
  induction lines using List.reverseRecOn with
  | nil => simp [fileMap]
  | append_singleton ls l ih =>
    rw [fileMap, List.foldl_append]
    exact addLine_keys _ _ ih

theorem mem_get {K V : Type} [DecidableEq K] {d : List (K × V)} (h : (d.map Prod.fst).Nodup) (e : K × V) :
    e ∈ d ↔ get d e.1 = some e.2 := by
  induction d with
  | nil => simp [get]
  | cons a d ih =>
    rw [List.map_cons, List.nodup_cons] at h
    rw [get_cons, List.mem_cons]
    by_cases hk : a.1 = e.1
    · simp only [hk, if_true, Option.some.injEq]
      constructor
      · rintro (rfl | he)
        · rfl
        · exact absurd (List.mem_map.mpr ⟨e, he, hk.symm⟩) h.1
      · intro h2
        exact Or.inl (Prod.ext hk.symm h2.symm)
    · simp only [hk, if_false]
      rw [← ih h.2]
      constructor
      · rintro (rfl | he)
        · exact absurd rfl hk
        · exact he
      · exact Or.inr

/-- The entries of the table. -/
theorem fileMap_mem (lines : List (File × File)) (e : File × List File) :
    e ∈ fileMap lines ↔ e.2 = Spec.newPaths lines e.1 ∧ e.2 ≠ [] := by
  rw [mem_get (fileMap_keys lines), fileMap_get]
  by_cases h : Spec.newPaths lines e.1 = []
  · simp only [h, if_true]; grind
  · simp only [h, if_false, Option.some.injEq]; grind

/-- The selection is the right one. -/
theorem selected_iff (l : List File) (f : File) : selected l = some f ↔ Spec.Chosen l f := by
  unfold selected Spec.Chosen
  rcases h : l.find? (fun f => decide ("core" ∈ parts f)) with _ | g
  · simp only [List.find?_eq_none, decide_eq_true_eq] at h
    simp only
    constructor
    · intro hf
      cases l with
      | nil => simp at hf
      | cons a l => simp at hf; subst hf; exact Or.inr ⟨h, l, rfl⟩
    · rintro (⟨pre, post, rfl, hc, -⟩ | ⟨-, post, rfl⟩)
      · exact absurd hc (h f (by simp))
      · simp
  · simp only [Option.some.injEq]
    have h' := h
    rw [List.find?_eq_some_iff_append] at h'
    obtain ⟨hg, pre, post, rfl, hp⟩ := h'
    simp only [decide_eq_true_eq] at hg
    constructor
    · rintro rfl
      exact Or.inl ⟨pre, post, rfl, hg, fun x hx => by simpa [Spec.InCore] using hp x hx⟩
    · rintro (⟨pre', post', he, hc, hp'⟩ | ⟨hn, -⟩)
      · have : (pre' ++ f :: post').find? (fun f => decide ("core" ∈ parts f)) = some f := by
          rw [List.find?_eq_some_iff_append]
          exact ⟨by simpa [Spec.InCore] using hc, pre', post', rfl, fun x hx => by simpa [Spec.InCore] using hp' x hx⟩
        rw [he, this] at h
        exact (Option.some.inj h).symm
      · exact absurd hg (hn g (by simp))

/-- One turn, and all entries so far. -/
theorem map_inv (es : List (File × List File)) : ∀ (m0 m : List (List Name × List Name)), es.foldlM mapStep m0 = some m →
    (∀ e ∈ es, relevant e.1 = true → ∃ o, toModule e.1 = some o ∧ (get m o).isSome) ∧
    (∀ k v, get m k = some v → get m0 k = some v ∨
      ∃ e ∈ es, relevant e.1 = true ∧ toModule e.1 = some k ∧ ∃ f, selected e.2 = some f ∧ toModule f = some v) ∧
    (∀ k, (get m0 k).isSome → (get m k).isSome) := by
  induction es with
  | nil => intro m0 m h; simp at h; subst h; simp
  | cons e es ih =>
    intro m0 m h
    rw [List.foldlM_cons] at h
    rcases h1 : mapStep m0 e with _ | m1
    · rw [h1] at h; simp at h
    · rw [h1] at h
      obtain ⟨a, b, c⟩ := ih m1 m h
      unfold mapStep at h1
      split at h1
      · rename_i hr
        rcases ho : toModule e.1 with _ | o
        · simp [ho] at h1
        rcases hs : selected e.2 with _ | s
        · simp [ho, hs] at h1
        rcases hn : toModule s with _ | n
        · simp [ho, hs, hn] at h1
        simp [ho, hs, hn] at h1
        subst h1
        refine ⟨?_, ?_, ?_⟩
        · intro x hx hxr
          rcases List.mem_cons.mp hx with rfl | hx
          · exact ⟨o, ho, c o (by rw [get_put]; simp)⟩
          · exact a x hx hxr
        · intro k v hk
          rcases b k v hk with h2 | ⟨x, hx, h2⟩
          · rw [get_put] at h2
            by_cases hok : o = k
            · simp only [hok, if_true, Option.some.injEq] at h2
              subst h2; subst hok
              exact Or.inr ⟨e, by simp, hr, ho, s, hs, hn⟩
            · simp only [hok, if_false] at h2; exact Or.inl h2
          · exact Or.inr ⟨x, List.mem_cons_of_mem _ hx, h2⟩
        · intro k hk
          apply c
          rw [get_put]
          split <;> simp_all
      · rename_i hr
        simp at h1; subst h1
        refine ⟨?_, ?_, c⟩
        · intro x hx hxr
          rcases List.mem_cons.mp hx with rfl | hx
          · exact absurd hxr hr
          · exact a x hx hxr
        · intro k v hk
          rcases b k v hk with h2 | ⟨x, hx, h2⟩
          · exact Or.inl h2
          · exact Or.inr ⟨x, List.mem_cons_of_mem _ hx, h2⟩

/-- **C161**: an old name stands for the module of the path chosen among the new paths of an old path of that name. -/
theorem alias_target (lines : List (File × File)) (m : List (List Name × List Name)) (h : moduleMap lines = some m)
    (name new : List Name) (hg : get m name = some new) :
    ∃ old f, (∃ l ∈ lines, l.1 = old) ∧ relevant old = true ∧ toModule old = some name ∧ Spec.Chosen (Spec.newPaths lines old) f ∧
      toModule f = some new := by
  obtain ⟨-, b, -⟩ := map_inv _ _ _ h
  rcases b name new hg with h0 | ⟨e, he, hr, ho, f, hs, hf⟩
  · simp [get] at h0
  · obtain ⟨h1, h2⟩ := (fileMap_mem lines e).mp he
    refine ⟨e.1, f, ?_, hr, ho, ?_, hf⟩
    · rw [h1] at h2
      obtain ⟨x, hx⟩ := List.exists_mem_of_ne_nil _ h2
      simp only [Spec.newPaths, List.mem_map, List.mem_filter, decide_eq_true_eq] at hx
      obtain ⟨l, ⟨hl, hl1⟩, -⟩ := hx
      exact ⟨l, hl, hl1⟩
    · rw [← h1]; exact (selected_iff _ _).mp hs

/-- **C161**: every module of the package in the table can be imported under its old name. -/
theorem alias_total (lines : List (File × File)) (m : List (List Name × List Name)) (h : moduleMap lines = some m)
    (l : File × File) (hl : l ∈ lines) (hr : relevant l.1 = true) : ∃ name new, toModule l.1 = some name ∧ get m name = some new := by
  obtain ⟨a, -, -⟩ := map_inv _ _ _ h
  have hn : Spec.newPaths lines l.1 ≠ [] := by
    apply List.ne_nil_of_mem (a := l.2)
    simp only [Spec.newPaths, List.mem_map, List.mem_filter, decide_eq_true_eq]
    exact ⟨l, ⟨hl, rfl⟩, rfl⟩
  obtain ⟨o, ho, hs⟩ := a (l.1, Spec.newPaths lines l.1) ((fileMap_mem _ _).mpr ⟨rfl, hn⟩) hr
  obtain ⟨v, hv⟩ := Option.isSome_iff_exists.mp hs
  exact ⟨o, v, ho, hv⟩

/-- **C161**: if only one old path has the name, the choice is fixed: the name stands for the module of the chosen path. -/
theorem alias_exact (lines : List (File × File)) (m : List (List Name × List Name)) (h : moduleMap lines = some m)
    (l : File × File) (hl : l ∈ lines) (hr : relevant l.1 = true) (name : List Name) (hn : toModule l.1 = some name)
    (hu : ∀ l' ∈ lines, relevant l'.1 = true → toModule l'.1 = some name → l'.1 = l.1) (f : File)
    (hf : Spec.Chosen (Spec.newPaths lines l.1) f) : get m name = toModule f := by
  obtain ⟨name', new, h1, h2⟩ := alias_total lines m h l hl hr
  rw [hn] at h1
  obtain rfl := Option.some.inj h1
  obtain ⟨old, g, ⟨l', hl', rfl⟩, hr', ho, hc, hg⟩ := alias_target lines m h name new h2
  rw [hu l' hl' hr' ho] at hc
  have := ((selected_iff _ _).mpr hc).symm.trans ((selected_iff _ _).mpr hf)
  rw [h2, ← hg, Option.some.inj this]

/-- The importer takes care of the old names that stand for something else, and of no others: a module that stayed where it was is
left to the usual importers. -/
theorem findSpec_iff (m : List (List Name × List Name)) (name : List Name) :
    findSpec m name = true ↔ ∃ new, get m name = some new ∧ new ≠ name := by
  unfold findSpec
  rcases get m name with _ | new
  · simp
  · constructor
    · intro h; exact ⟨new, rfl, fun h2 => by simp [h2] at h⟩
    · rintro ⟨n, hn, hne⟩
      obtain rfl := Option.some.inj hn
      simpa using fun h => hne h.symm

theorem mapM_mem {α β : Type} (f : α → Option β) (l : List α) (r : List β) (h : l.mapM f = some r) (b : β) :
    b ∈ r ↔ ∃ a ∈ l, f a = some b := by
  induction l generalizing r with
  | nil => simp at h; subst h; simp
  | cons a l ih =>
    rw [List.mapM_cons] at h
    rcases ha : f a with _ | x
    · simp [ha] at h
    · rcases hl : l.mapM f with _ | r'
      · simp [ha, hl] at h
      · simp [ha, hl] at h
        subst h
        grind

theorem firsts_mem {α : Type} [DecidableEq α] (l : List α) (x : α) : x ∈ Spec.firsts l ↔ x ∈ l := by
  induction l with
  | nil => simp [Spec.firsts]
  | cons a l ih => simp only [Spec.firsts, List.mem_cons, List.mem_filter, ih]; grind

theorem firsts_append {α : Type} [DecidableEq α] (l : List α) (a : α) :
    Spec.firsts (l ++ [a]) = if a ∈ l then Spec.firsts l else Spec.firsts l ++ [a] := by
  induction l with
  | nil => simp [Spec.firsts]
  | cons b l ih =>
    rw [List.cons_append, Spec.firsts, ih]
    by_cases hb : a = b
    · subst hb; by_cases hl : a ∈ l <;> simp [hl, Spec.firsts, List.filter_append]
    · by_cases hl : a ∈ l <;> simp [hl, hb, Spec.firsts, List.filter_append]

theorem dedup_firsts {α : Type} [DecidableEq α] (l : List α) : l.reverse.dedup.reverse = Spec.firsts l := by
  induction l using List.reverseRecOn with
  | nil => simp [Spec.firsts]
  | append_singleton l a ih =>
    rw [firsts_append, ← ih, List.reverse_append, List.reverse_singleton, List.singleton_append]
    by_cases hl : a ∈ l
    · rw [List.dedup_cons_of_mem (by simpa using hl)]; simp [hl]
    · rw [List.dedup_cons_of_notMem (by simpa using hl)]; simp [hl]

theorem fileMap_fst (lines : List (File × File)) : (fileMap lines).map Prod.fst = Spec.firsts (lines.map Prod.fst) := by
  induction lines using List.reverseRecOn with
  | nil => simp [fileMap, Spec.firsts]
  | append_singleton ls l ih =>
    rw [List.map_append, List.map_singleton, firsts_append, ← ih]
    rw [show fileMap (ls ++ [l]) = addLine (fileMap ls) l by simp [fileMap]]
    have hm : (l.1 ∈ ls.map Prod.fst) ↔ ((fileMap ls).any fun e => e.1 = l.1) = true := by
      rw [← firsts_mem, ← ih]
      simp [List.mem_map, List.any_eq_true]
    unfold addLine
    by_cases h : ((fileMap ls).any fun e => e.1 = l.1) = true
    · rw [if_pos h, if_pos (hm.mpr h), List.map_map]
      apply List.map_congr_left
      intro e _
      by_cases h : e.1 = l.1 <;> simp [h]
    · rw [if_neg h, if_neg (fun h2 => h (hm.mp h2))]; simp

/-- **C161**: the table keeps the order of its lines: the old paths as they first appear, each with its new paths. -/
theorem fileMap_eq (lines : List (File × File)) :
    fileMap lines = (Spec.firsts (lines.map Prod.fst)).map fun k => (k, Spec.newPaths lines k) := by
  rw [← fileMap_fst, List.map_map]
  symm
  conv_rhs => rw [← List.map_id (fileMap lines)]
  apply List.map_congr_left
  intro e he
  exact Prod.ext rfl ((fileMap_mem _ _).mp he).1.symm

theorem mapM_eq {α β : Type} (f : α → Option β) (l : List α) (r : List β) (h : l.mapM f = some r) : r = l.filterMap f := by
  induction l generalizing r with
  | nil => simp at h; subst h; simp
  | cons a l ih =>
    rw [List.mapM_cons] at h
    rcases ha : f a with _ | x
    · simp [ha] at h
    · rcases hl : l.mapM f with _ | r'
      · simp [ha, hl] at h
      · simp [ha, hl] at h
        subst h
        simp [ha, ih r' hl]

theorem mapM_flat {α β γ : Type} (g : α → List β) (f : β → Option γ) (l : List α) (r : List (List γ))
    (h : l.mapM (fun a => (g a).mapM f) = some r) : r.flatten = (l.flatMap g).filterMap f := by
  induction l generalizing r with
  | nil => simp at h; subst h; simp
  | cons a l ih =>
    rw [List.mapM_cons] at h
    rcases ha : (g a).mapM f with _ | x
    · simp [ha] at h
    · rcases hl : l.mapM (fun a => (g a).mapM f) with _ | r'
      · simp [ha, hl] at h
      · simp [ha, hl] at h
        subst h
        simp [mapM_eq _ _ _ ha, ih r' hl, List.filterMap_append]

/-- **C161**: the order in which names are added: down the table, each module where it first appears. -/
theorem candidates_eq (lines : List (File × File)) (name new : List Name) (cs : List (List Name))
    (h : candidates lines name new = some cs) :
    cs = Spec.firsts ((((Spec.below lines name).flatMap (Spec.newPaths lines)).filterMap toModule).filter (· ≠ new)) := by
  unfold candidates at h
  rcases hf : ((fileMap lines).filter fun e => relevant e.1 && (toModule e.1).any fun o => decide (name <+: o)).mapM
    (fun e => e.2.mapM toModule) with _ | found
  · rw [hf] at h; simp at h
  · rw [hf] at h
    obtain rfl := Option.some.inj h
    rw [dedup_firsts, mapM_flat _ _ _ _ hf, fileMap_eq, List.filter_map]
    simp only [Spec.below, List.flatMap_map]
    rfl

/-- **C161**: the modules whose names are added are the other new modules of all old modules at or below the name, each once. -/
theorem candidates_mem (lines : List (File × File)) (name new : List Name) (cs : List (List Name))
    (h : candidates lines name new = some cs) :
    cs.Nodup ∧ ∀ c, c ∈ cs ↔ c ≠ new ∧
      ∃ l ∈ lines, relevant l.1 = true ∧ (∃ o, toModule l.1 = some o ∧ name <+: o) ∧ toModule l.2 = some c := by
  unfold candidates at h
  rcases hf : ((fileMap lines).filter fun e => relevant e.1 && (toModule e.1).any fun o => decide (name <+: o)).mapM
    (fun e => e.2.mapM toModule) with _ | found
  · rw [hf] at h; simp at h
  · rw [hf] at h
    obtain rfl := Option.some.inj h
    refine ⟨List.nodup_reverse.mpr (List.nodup_dedup _), fun c => ?_⟩
    have hm := mapM_mem _ _ _ hf
    simp only [List.mem_reverse, List.mem_dedup, List.mem_filter, List.mem_flatten, decide_not, Bool.not_eq_eq_eq_not, Bool.not_true,
      decide_eq_false_iff_not]
    constructor
    · rintro ⟨⟨r, hr, hc⟩, hne⟩
      refine ⟨hne, ?_⟩
      obtain ⟨e, he, her⟩ := (hm r).mp hr
      simp only [List.mem_filter, Bool.and_eq_true, Option.any_eq_true, decide_eq_true_eq] at he
      obtain ⟨he, hrel, o, ho, hpre⟩ := he
      obtain ⟨f, hfe, hfc⟩ := (mapM_mem _ _ _ her c).mp hc
      rw [((fileMap_mem _ _).mp he).1] at hfe
      simp only [Spec.newPaths, List.mem_map, List.mem_filter, decide_eq_true_eq] at hfe
      obtain ⟨l, ⟨hl, hl1⟩, rfl⟩ := hfe
      exact ⟨l, hl, hl1 ▸ hrel, ⟨o, hl1 ▸ ho, hpre⟩, hfc⟩
    · rintro ⟨hne, l, hl, hrel, ⟨o, ho, hpre⟩, hc⟩
      refine ⟨?_, hne⟩
      have hmem : l.2 ∈ Spec.newPaths lines l.1 := by
        simp only [Spec.newPaths, List.mem_map, List.mem_filter, decide_eq_true_eq]
        exact ⟨l, ⟨hl, rfl⟩, rfl⟩
      have he : (l.1, Spec.newPaths lines l.1) ∈ (fileMap lines).filter fun e => relevant e.1 && (toModule e.1).any fun o => decide (name <+: o) := by
        simp only [List.mem_filter, Bool.and_eq_true, Option.any_eq_true, decide_eq_true_eq]
        exact ⟨(fileMap_mem _ _).mpr ⟨rfl, List.ne_nil_of_mem hmem⟩, hrel, o, ho, hpre⟩
      rcases hr : (Spec.newPaths lines l.1).mapM toModule with _ | r
      · exfalso
        have : ∀ (es : List (File × List File)) (e : File × List File), e ∈ es → e.2.mapM toModule = none →
            es.mapM (fun e => e.2.mapM toModule) = none := by
          intro es e
          induction es with
          | nil => simp
          | cons a es ih =>
            intro hm hn
            rw [List.mapM_cons]
            rcases List.mem_cons.mp hm with rfl | hm
            · simp [hn]
            · rw [ih hm hn]
              cases a.2.mapM toModule <;> simp
        rw [this _ _ he hr] at hf
        exact absurd hf (by simp)
      · exact ⟨r, (hm r).mpr ⟨_, he, hr⟩, (mapM_mem _ _ _ hr c).mpr ⟨l.2, hmem, hc⟩⟩

theorem visible_eq {V : Type} (ns : List (Name × V)) : Spec.visible ns = ns.filter fun e => e.1 ∉ reserved := by
  unfold Spec.visible reserved
  congr 1
  funext e
  simp

theorem get_addNames {V : Type} (cand : List (Name × V)) : ∀ (base : List (Name × V)) (k : Name),
    get (addNames base cand) k = (get base k).or (get (Spec.visible cand) k) := by
  induction cand with
  | nil => intro base k; simp [addNames, Spec.visible, get]
  | cons e cand ih =>
    intro base k
    have hstep : addNames base (e :: cand)
        = addNames (if e.1 ∈ reserved then base else if base.any (fun x => x.1 = e.1) then base else base ++ [e]) cand := rfl
    rw [hstep, ih]
    by_cases hr : e.1 ∈ reserved
    · simp [hr, visible_eq]
    · have hv : Spec.visible (e :: cand) = e :: Spec.visible cand := by simp [visible_eq, hr]
      rw [hv, get_cons]
      simp only [hr, if_false]
      split
      · rename_i hb
        by_cases hk : e.1 = k
        · subst hk
          rcases hg : get base e.1 with _ | v
          · simp only [List.any_eq_true, decide_eq_true_eq] at hb
            obtain ⟨x, hx, hxe⟩ := hb
            exact absurd hxe (get_none.mp hg x hx)
          · simp
        · simp [hk]
      · rw [get_append, get_cons]
        by_cases hk : e.1 = k
        · simp only [hk, if_true]
          cases get base k <;> simp
        · simp [hk, get]

/-- **C161**: in the module that is imported, a name means what it means in the module it stands for; a name that is not there
means what it means in the first of the added modules that can be imported and has it. -/
theorem load_get {V : Type} (imp : List Name → Option (List (Name × V))) (base : List (Name × V)) (cands : List (List Name))
    (k : Name) : get (load imp base cands) k = Spec.firstOf (base :: (cands.filterMap imp).map Spec.visible) k := by
  unfold load
  induction cands generalizing base with
  | nil => simp [Spec.firstOf]
  | cons c cands ih =>
    rw [List.foldl_cons]
    rcases hc : imp c with _ | ns
    · rw [ih]; simp [hc]
    · rw [ih]
      simp only [Spec.firstOf, List.findSome?_cons, List.filterMap_cons, hc, List.map_cons, get_addNames]
      cases get base k <;> simp

/-- A name of the module itself is never replaced. -/
theorem load_keeps {V : Type} (imp : List Name → Option (List (Name × V))) (base : List (Name × V)) (cands : List (List Name))
    (k : Name) (v : V) (h : get base k = some v) : get (load imp base cands) k = some v := by
  rw [load_get]; simp [Spec.firstOf, h]

/-- **C161**: importing under the old name again changes nothing. -/
theorem load_again {V : Type} (imp : List Name → Option (List (Name × V))) (base : List (Name × V)) (cands : List (List Name))
    (k : Name) : get (load imp (load imp base cands) cands) k = get (load imp base cands) k := by
  rw [load_get imp (load imp base cands)]
  simp only [Spec.firstOf, List.findSome?_cons]
  rw [load_get]
  simp only [Spec.firstOf, List.findSome?_cons]
  cases get base k with
  | some v => simp
  | none => cases List.findSome? (fun ns => get ns k) ((cands.filterMap imp).map Spec.visible) <;> simp

/-- Files of the examples. -/
def exFile (dirs : List Name) (stem : Name) : File := ⟨dirs, stem, some "py"⟩

/-- A table: a package split in two, a module in it, and a module that stayed. -/
def exLines : List (File × File) :=
  [(exFile ["hexrd", "fit"] "__init__", exFile ["hexrd", "hedm", "fit"] "__init__"),
   (exFile ["hexrd", "fit"] "__init__", exFile ["hexrd", "core", "fit"] "__init__"),
   (exFile ["hexrd", "fit"] "peaks", exFile ["hexrd", "core", "fit"] "peaks"),
   (exFile ["hexrd"] "version", exFile ["hexrd"] "version")]

/-- The hypotheses are met: the table is read, the package in `core` is preferred. -/
theorem exLines_map : moduleMap exLines = some
    [(["hexrd", "fit"], ["hexrd", "core", "fit"]), (["hexrd", "fit", "peaks"], ["hexrd", "core", "fit", "peaks"]),
     (["hexrd", "version"], ["hexrd", "version"])] := by decide

/-- The modules whose names are added to the package: the other half, but also the module below it. -/
theorem exLines_candidates : candidates exLines ["hexrd", "fit"] ["hexrd", "core", "fit"]
    = some [["hexrd", "hedm", "fit"], ["hexrd", "core", "fit", "peaks"]] := by decide

/-- **C161**, against the claim that importing an old name leaves the new modules alone: after the import the new module has a name
it did not have, from a module below it. -/
theorem load_leaves_new_fails : ∃ (imp : List Name → Option (List (Name × ℕ))) (base : List (Name × ℕ)) (cs : List (List Name)),
    candidates exLines ["hexrd", "fit"] ["hexrd", "core", "fit"] = some cs ∧ imp ["hexrd", "core", "fit"] = some base ∧
      get base "gaussian" = none ∧ get (load imp base cs) "gaussian" = some 1 :=
  ⟨fun c => if c = ["hexrd", "core", "fit", "peaks"] then some [("gaussian", 1)] else some [("fit", 0)], [("fit", 0)], _,
    exLines_candidates, by decide, by decide, by decide⟩

/-- **C161**, against the claim that the first line for a name counts: a module and a package of one name are one old name, and the
later in the table wins, even when the earlier one went to `core`. -/
theorem alias_two_paths_fails : moduleMap
    [(exFile ["hexrd"] "fit", exFile ["hexrd", "core"] "fit"), (exFile ["hexrd", "fit"] "__init__", exFile ["hexrd", "hedm"] "fit")]
      = some [(["hexrd", "fit"], ["hexrd", "hedm", "fit"])] := by decide

end Hexrd.Aliases
