import Verif.Spec.OutFiles

/-! # C181: names of the files of the search for orientations -/
namespace Hexrd.OutFiles

theorem mem_strip (s : Name) (x : Char) (h : x ∈ strip s) : x ∈ s := by
  unfold strip at h
  have h1 := (List.dropWhile_suffix _).subset (List.mem_reverse.1 h)
  exact (List.dropWhile_suffix _).subset (List.mem_reverse.1 h1)

/-- Cleaning a name brings in no other character than the hyphen. -/
theorem mem_clean (s : Name) (x : Char) (h : x ∈ clean s) : x = '-' ∨ x ∈ s := by
  obtain ⟨y, hy, e⟩ := List.mem_map.1 h
  split at e
  · exact Or.inl e.symm
  · exact Or.inr (e ▸ mem_strip s y hy)

/-- A list is cut at the last occurrence of a character in one way. -/
theorem cut_last {a b f g : Name} {x : Char} (h : a ++ x :: f = b ++ x :: g) (hf : x ∉ f) (hg : x ∉ g) : a = b ∧ f = g := by
  rcases List.append_eq_append_iff.1 h with ⟨c, rfl, e⟩ | ⟨c, rfl, e⟩
  · cases c with
    | nil => simp at e; simp [e]
    | cons y c =>
      simp only [List.cons_append, List.cons.injEq] at e
      exact absurd (by rw [e.2]; simp) hf
  · cases c with
    | nil => simp at e; simp [e]
    | cons y c =>
      simp only [List.cons_append, List.cons.injEq] at e
      exact absurd (by rw [e.2]; simp) hg

/-- Different ends, if one has no `x` and the other no `y`. -/
theorem cut_differ {a b f g : Name} {x y : Char} (hxy : x ≠ y) (hf : y ∉ f) (hg : x ∉ g) : a ++ x :: f ≠ b ++ y :: g := by
  intro h
  rcases List.append_eq_append_iff.1 h with ⟨c, rfl, e⟩ | ⟨c, rfl, e⟩
  · have : y ∈ x :: f := by rw [e]; simp
    rcases List.mem_cons.1 this with h | h
    · exact hxy h.symm
    · exact hf h
  · have : x ∈ y :: g := by rw [e]; simp
    rcases List.mem_cons.1 this with h | h
    · exact hxy h
    · exact hg h

theorem last_differ {a b : Name} {x y : Char} (hxy : x ≠ y) : a ++ [x] ≠ b ++ [y] := by
  intro h
  have := congrArg List.getLast? h
  simp at this
  exact hxy this

/-- The name of a file in the new placement, without its directory. -/
def newName (m : Name) : Kind → Name
  | .log => "find-orientations-".toList ++ clean m ++ ".log".toList
  | .accepted => "accepted-orientations-".toList ++ clean m ++ ".dat".toList
  | .maps => "eta-ome-maps-".toList ++ clean m ++ ".npz".toList
  | .scored => "scored-orientations-".toList ++ clean m ++ ".npz".toList
  | .grains => "grains.out".toList

theorem path_new (c : Cfg) (hn : c.newPlacement = true) (k : Kind) : path c k = slash (analysisDir c) (newName c.material k) := by
  cases k with
  | grains => rfl
  | log => unfold path logFile newName; rw [if_pos hn]
  | accepted => unfold path acceptedFile newName; rw [if_pos hn]
  | maps => unfold path mapsFile newName; rw [if_pos hn]
  | scored => unfold path scoredFile newName; rw [if_pos hn]

/-- The first letter of a name tells its kind. -/
def letter : Kind → Char
  | .log => 'f'
  | .accepted => 'a'
  | .maps => 'e'
  | .scored => 's'
  | .grains => 'g'

theorem newName_letter (m : Name) (k : Kind) : (newName m k).head? = some (letter k) := by
  have h : ∀ (s t : Name) (x : Char), s.head? = some x → (s ++ t).head? = some x := by
    intro s t x h
    cases s with
    | nil => simp at h
    | cons y s => simpa using h
  cases k with
  | grains => exact (by decide : ("grains.out".toList).head? = some 'g')
  | _ => exact h _ _ _ (h _ _ _ (by decide))

theorem newName_kind (m m' : Name) (k k' : Kind) (h : newName m k = newName m' k') : k = k' := by
  have e := congrArg List.head? h
  rw [newName_letter, newName_letter] at e
  simp only [Option.some.injEq] at e
  cases k <;> cases k' <;> first | rfl | exact absurd e (by decide)

theorem newName_material (m m' : Name) (k : Kind) (hk : k ≠ .grains) (h : newName m k = newName m' k) : clean m = clean m' := by
  cases k with
  | grains => exact absurd rfl hk
  | _ => exact List.append_cancel_left (List.append_cancel_right h)

theorem newName_slash (m : Name) (hm : '/' ∉ m) (k : Kind) : '/' ∉ newName m k := by
  have hc : '/' ∉ clean m := fun h => by
    rcases mem_clean m _ h with h | h
    · exact absurd h (by decide)
    · exact hm h
  have h : ∀ s t : Name, '/' ∉ s → '/' ∉ t → '/' ∉ s ++ clean m ++ t := by
    intro s t hs ht h
    rcases List.mem_append.1 h with h | h
    · rcases List.mem_append.1 h with h | h
      · exact hs h
      · exact hc h
    · exact ht h
  cases k with
  | grains => exact (by decide : '/' ∉ "grains.out".toList)
  | _ => exact h _ _ (by decide) (by decide)

/-- **C181** in the new placement two files are the same only if they are of one kind, of one analysis and, but for the grains, of one
material, up to spaces. -/
theorem new_injective (c d : Cfg) (ht : Spec.Together c d) (hn : c.newPlacement = true) (hc : '/' ∉ c.material) (hd : '/' ∉ d.material) (k k' : Kind)
    (h : path c k = path d k') : k = k' ∧ c.analysis = d.analysis ∧ (k ≠ .grains → clean c.material = clean d.material) := by
  rw [path_new c hn, path_new d (ht.2 ▸ hn)] at h
  obtain ⟨h1, h2⟩ := cut_last h (newName_slash _ hc k) (newName_slash _ hd k')
  have hk := newName_kind _ _ _ _ h2
  subst hk
  refine ⟨rfl, ?_, fun hg => newName_material _ _ k hg h2⟩
  unfold analysisDir slash at h1
  rw [ht.1] at h1
  simpa using h1

/-- **C181** the files of one configuration are different, in both placements. -/
theorem kinds_distinct (c : Cfg) (hm : '/' ∉ c.material) (k k' : Kind) (h : path c k = path c k') : k = k' := by
  cases hn : c.newPlacement with
  | true => exact (new_injective c c ⟨rfl, rfl⟩ hn hm hm k k' h).1
  | false =>
    have hs : '/' ∉ clean c.material := fun h => by
      rcases mem_clean _ _ h with h | h
      · exact absurd h (by decide)
      · exact hm h
    have e1 : path c .log = c.working ++ '/' :: ("find-orientations_".toList ++ analysisId c ++ ".log".toList) := by simp [path, logFile, slash, hn]
    have e2 : path c .accepted = c.working ++ '/' :: ("accepted_orientations_".toList ++ analysisId c ++ ".dat".toList) := by
      simp [path, acceptedFile, slash, hn]
    have e3 : path c .maps = c.working ++ '/' :: (analysisId c ++ '_' :: "eta-ome_maps.npz".toList) := by simp [path, mapsFile, slash, hn]
    have e4 : path c .scored = c.working ++ '/' :: ("scored_orientations".toList ++ '_' :: analysisId c) := by simp [path, scoredFile, slash, hn]
    have e5 : path c .grains = c.working ++ '/' :: (c.analysis ++ '/' :: "grains.out".toList) := by simp [path, grainsFile, slash, analysisDir]
    have ne12 : path c .log ≠ path c .accepted := by rw [e1, e2]; simp
    have ne13 : path c .log ≠ path c .maps := by
      rw [e1, e3]; intro h
      have := congrArg List.getLast? h
      simp [List.getLast?_append, List.getLast?_cons] at this
    have ne14 : path c .log ≠ path c .scored := by rw [e1, e4]; simp
    have ne15 : path c .log ≠ path c .grains := by
      rw [e1, e5]; intro h
      have := congrArg List.getLast? h
      simp [List.getLast?_append, List.getLast?_cons] at this
    have ne23 : path c .accepted ≠ path c .maps := by
      rw [e2, e3]; intro h
      have := congrArg List.getLast? h
      simp [List.getLast?_append, List.getLast?_cons] at this
    have ne24 : path c .accepted ≠ path c .scored := by rw [e2, e4]; simp
    have ne25 : path c .accepted ≠ path c .grains := by
      rw [e2, e5]; intro h
      have := congrArg (fun l : Name => l.dropLast.getLast?) h
      have d1 : ∀ (l : Name), (l ++ ".dat".toList).dropLast.getLast? = some 'a' := by
        intro l
        rw [show l ++ ".dat".toList = (l ++ ['.', 'd', 'a']) ++ ['t'] by simp, List.dropLast_concat]
        simp [List.getLast?_append]
      have d2 : ∀ (l : Name), (l ++ "grains.out".toList).dropLast.getLast? = some 'u' := by
        intro l
        rw [show l ++ "grains.out".toList = (l ++ "grains.ou".toList) ++ ['t'] by simp, List.dropLast_concat]
        simp [List.getLast?_append]
      have a1 := d1 (c.working ++ '/' :: ("accepted_orientations_".toList ++ analysisId c))
      have a2 := d2 (c.working ++ '/' :: (c.analysis ++ ['/']))
      simp only [List.append_assoc, List.cons_append, List.nil_append] at a1 a2 this
      rw [a1, a2] at this
      exact absurd this (by decide)
    have ne34 : path c .maps ≠ path c .scored := by
      rw [e3, e4]; intro h
      have := congrArg List.length h
      simp at this
    have ne35 : path c .maps ≠ path c .grains := by
      rw [e3, e5]; intro h
      have := congrArg List.getLast? h
      simp [List.getLast?_append, List.getLast?_cons] at this
    have ne45 : path c .scored ≠ path c .grains := by
      rw [e4, e5]
      intro h
      have h := List.append_cancel_left h
      simp only [List.cons.injEq, true_and] at h
      have h' : ("scored_orientations".toList ++ '_' :: clean c.analysis) ++ '_' :: clean c.material = c.analysis ++ '/' :: "grains.out".toList := by
        rw [← h]; simp [analysisId]
      exact cut_differ (by decide) hs (by decide) h'
    clear e1 e2 e3 e4 e5
    generalize path c = f at h ne12 ne13 ne14 ne15 ne23 ne24 ne25 ne34 ne35 ne45
    cases k <;> cases k' <;> first | rfl | exact absurd h ‹_› | exact absurd h.symm ‹_›

/-- **C181** in the old placement two files of a kind are the same only for one analysis and one material, up to spaces, if the names of the
materials have no underscore. -/
theorem old_injective_partial (c d : Cfg) (ht : Spec.Together c d) (hn : c.newPlacement = false) (hc : '_' ∉ c.material) (hd : '_' ∉ d.material) (k : Kind)
    (hk : k ≠ .grains) (h : path c k = path d k) : clean c.analysis = clean d.analysis ∧ clean c.material = clean d.material := by
  have hn' : d.newPlacement = false := ht.2 ▸ hn
  have free : ∀ m : Name, '_' ∉ m → '_' ∉ clean m := by
    intro m hm h
    rcases mem_clean m _ h with h | h
    · exact absurd h (by decide)
    · exact hm h
  have hid : analysisId c = analysisId d := by
    cases k with
    | grains => exact absurd rfl hk
    | log =>
      simp only [path, logFile, slash, hn, hn', ht.1, Bool.false_eq_true, if_false] at h
      exact List.append_cancel_left (List.append_cancel_right (List.cons.inj (List.append_cancel_left h)).2)
    | accepted =>
      simp only [path, acceptedFile, slash, hn, hn', ht.1, Bool.false_eq_true, if_false] at h
      exact List.append_cancel_left (List.append_cancel_right (List.cons.inj (List.append_cancel_left h)).2)
    | maps =>
      simp only [path, mapsFile, slash, hn, hn', ht.1, Bool.false_eq_true, if_false] at h
      exact List.append_cancel_right (List.cons.inj (List.append_cancel_left h)).2
    | scored =>
      simp only [path, scoredFile, slash, hn, hn', ht.1, Bool.false_eq_true, if_false] at h
      exact (List.cons.inj (List.append_cancel_left (List.cons.inj (List.append_cancel_left h)).2)).2
  exact cut_last hid (free _ hc) (free _ hd)

/-- **C181 is false** in the old placement with underscores: two analyses have the same files, and the maps of the one are read by the other. -/
theorem underscore_fails (w : Name) (k : Kind) (hk : k ≠ .grains) :
    path ⟨w, "a_b".toList, "c".toList, false⟩ k = path ⟨w, "a".toList, "b_c".toList, false⟩ k := by
  have h0 : clean "a_b".toList ++ '_' :: clean "c".toList = clean "a".toList ++ '_' :: clean "b_c".toList := by decide
  have : analysisId ⟨w, "a_b".toList, "c".toList, false⟩ = analysisId ⟨w, "a".toList, "b_c".toList, false⟩ := h0
  cases k with
  | grains => exact absurd rfl hk
  | _ => simp only [path, logFile, acceptedFile, mapsFile, scoredFile, this, Bool.false_eq_true, if_false]

/-- **C181 is false** for materials that differ in a space and a hyphen. -/
theorem space_fails (w a : Name) (b : Bool) (k : Kind) : path ⟨w, a, "x y".toList, b⟩ k = path ⟨w, a, "x-y".toList, b⟩ k := by
  have : clean "x y".toList = clean "x-y".toList := by decide
  cases k <;> simp only [path, logFile, acceptedFile, mapsFile, scoredFile, grainsFile, analysisDir, analysisId, this]

/-- **C181** the grains of one analysis are in one file for all materials, so that the last one stays. -/
theorem grains_shared_fails (c : Cfg) (m : Name) : path { c with material := m } .grains = path c .grains := rfl

theorem dropWhile_spaces (n : ℕ) (s : Name) : (List.replicate n ' ' ++ s).dropWhile Char.isWhitespace = s.dropWhile Char.isWhitespace := by
  have h : Char.isWhitespace ' ' = true := by decide
  induction n with
  | zero => rfl
  | succ n ih => rw [List.replicate_succ, List.cons_append, List.dropWhile_cons, if_pos h, ih]

/-- **C181** spaces at the ends of a name of a material change no file. -/
theorem spaces_ends (c : Cfg) (i j : ℕ) (x : Char) (hx : Char.isWhitespace x = false) (s : Name) (k : Kind) :
    path { c with material := List.replicate i ' ' ++ (x :: s) ++ List.replicate j ' ' } k = path { c with material := x :: s } k := by
  have h : clean (List.replicate i ' ' ++ (x :: s) ++ List.replicate j ' ') = clean (x :: s) := by
    unfold clean strip
    congr 2
    rw [List.append_assoc, dropWhile_spaces, List.cons_append, List.dropWhile_cons, List.dropWhile_cons]
    simp only [hx, Bool.false_eq_true, if_false]
    rw [← List.cons_append, List.reverse_append, List.reverse_replicate, dropWhile_spaces]
  cases k <;> simp only [path, logFile, acceptedFile, mapsFile, scoredFile, grainsFile, analysisDir, analysisId, h]

/-- **C181** a file of maps that is named is used for every analysis and material: as it is if absolute, else in the working directory. -/
theorem maps_named (c d : Cfg) (h : c.working = d.working) (t : Name) : mapsPath c (some t) = mapsPath d (some t) ∧
    (t.head? = some '/' → mapsPath c (some t) = t) ∧ (t ≠ [] → t.head? ≠ some '/' → mapsPath c (some t) = c.working ++ '/' :: t) ∧
    mapsPath c none = path c .maps := by
  refine ⟨?_, ?_, ?_, rfl⟩
  · unfold mapsPath
    split <;> simp_all
  · intro ht
    cases t with
    | nil => simp at ht
    | cons x t => simp at ht; subst ht; rfl
  · intro h0 ht
    unfold mapsPath
    split <;> simp_all [slash]

/-- A case that meets the hypotheses. -/
example : path ⟨"/w".toList, "run 1".toList, "ti 7".toList, true⟩ .maps = "/w/run 1/eta-ome-maps-ti-7.npz".toList ∧
    path ⟨"/w".toList, " run 1".toList, "ti 7 ".toList, false⟩ .maps = "/w/run-1_ti-7_eta-ome_maps.npz".toList := by decide

end Hexrd.OutFiles
