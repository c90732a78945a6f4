import Verif.Spec.Adapters
import Mathlib.Tactic
/-!
# C155: frames of a series, options of a stream, metadata
-/
namespace Hexrd.Adapters
open Spec

/-! ## Iterating -/

theorem drain_ok {F : Type} (get : Nat → Res F) (frame : Nat → F) (l : List Nat) (h : ∀ i ∈ l, get i = .ok (frame i)) :
    drain get l = some (l.map frame) := by
  induction l with
  | nil => rfl
  | cons i l ih => simp [drain, h i (by simp), ih (fun j hj => h j (by simp [hj]))]

/-- **C155.** Iterating over a series gives all its frames, each once and in order. -/
theorem iterate_all {F : Type} (n : Nat) (get : Nat → Res F) (frame : Nat → F) (h : ∀ i < n, get i = .ok (frame i)) :
    iterate n get = some ((List.range n).map frame) := drain_ok _ _ _ (by simpa using h)

/-- **C155.** If a frame cannot be had for another reason than its index, iterating raises. -/
theorem iterate_raises {F : Type} (n k : Nat) (get : Nat → Res F) (hk : k < n) (h : get k = .other)
    (hi : ∀ i < k, get i ≠ .index) : iterate n get = none := by
  have key : ∀ l : List Nat, k ∈ l → l.Pairwise (· < ·) → drain get l = none := by
    intro l
    induction l with
    | nil => simp
    | cons i l ih =>
      intro hm hp
      rw [List.pairwise_cons] at hp
      unfold drain
      rcases List.mem_cons.1 hm with e | hm
      · rw [← e, h]
      · cases e : get i with
        | ok f => simp [ih hm hp.2]
        | index => exact absurd e (hi i (hp.1 k hm))
        | other => rfl
  exact key _ (by simpa using hk) (List.pairwise_lt_range)

/-- **C155.** It is false that iterating gives all frames or raises: where a frame raises an `IndexError`, for whatever
reason, the iteration ends there without one. -/
theorem iterate_fails {F : Type} (n k : Nat) (hk : k < n) (get : Nat → Res F) (frame : Nat → F)
    (h : ∀ i < k, get i = .ok (frame i)) (he : get k = .index) :
    iterate n get = some ((List.range k).map frame) := by
  have hr : List.range n = List.range k ++ k :: (List.range (n - k - 1)).map (k + 1 + ·) := by
    have e1 : List.range n = List.range (k + (n - k)) := by congr 1; omega
    rw [e1, List.range_add]
    congr 1
    have : n - k = (n - k - 1) + 1 := by omega
    rw [this, List.range_succ_eq_map]
    simp only [List.map_cons, Nat.add_zero, List.map_map, Nat.add_sub_cancel]
    congr 1
    apply List.map_congr_left
    intro i _
    simp only [Function.comp]; omega
  unfold iterate
  rw [hr]
  have key : ∀ l : List Nat, (∀ i ∈ l, get i = .ok (frame i)) → ∀ r, drain get (l ++ k :: r) = some (l.map frame) := by
    intro l
    induction l with
    | nil => intro _ r; simp [drain, he]
    | cons i l ih => intro hl r; simp [drain, hl i (by simp), ih (fun j hj => hl j (by simp [hj])) r]
  exact key _ (by simpa using h) _

/-! ## Opening -/

/-- **C155.** A series that was opened has frames and is of the class registered last for the format. -/
theorem open_registered {C S : Type} (reg : List (Option String × C)) (c : C) (fmt : Option String) (make : C → Option S)
    (len : S → Nat) (s : S) : openSeries (register reg false fmt c) make len fmt = some s ↔ make c = some s ∧ 0 < len s := by
  cases h : make c with
  | none => simp [openSeries, register, h]
  | some t =>
    by_cases e : len t = 0
    · simp only [openSeries, register, h, Bool.false_eq_true, if_false]
      simp [h, e]
      rintro rfl; exact e
    · simp [openSeries, register, h, e]
      rintro rfl; omega

/-- **C155.** Registering a class does not change what other formats open. -/
theorem open_other {C S : Type} (reg : List (Option String × C)) (base : Bool) (c : C) (fmt fmt' : Option String)
    (hne : fmt' ≠ fmt) (make : C → Option S) (len : S → Nat) :
    openSeries (register reg base fmt c) make len fmt' = openSeries reg make len fmt' := by
  cases base with
  | true => rfl
  | false =>
    have : (register reg false fmt c).find? (·.1 = fmt') = reg.find? (·.1 = fmt') := by
      simp only [register, Bool.false_eq_true, if_false]
      rw [List.find?_cons_of_neg (by simpa using fun e => hne e.symm)]
      rw [List.find?_filter]
      congr 1
      funext x
      by_cases e : x.1 = fmt' <;> simp [e, hne]
    unfold openSeries
    rw [this]

/-- **C155.** The trivial adapter, which is registered without a format, never opens. -/
theorem open_no_format {C S : Type} (reg : List (Option String × C)) (trivial : C) (make : C → Option S) (len : S → Nat)
    (h : ∀ s, make trivial = some s → len s = 0) : openSeries (register reg false none trivial) make len none = none := by
  cases e : openSeries (register reg false none trivial) make len none with
  | none => rfl
  | some s =>
    obtain ⟨h1, h2⟩ := (open_registered _ _ _ _ _ _).1 e
    have := h s h1; omega

/-! ## Streams -/

theorem parse_name (x : Setting) : parseSetting x.name = some x := by cases x <;> decide

/-- **C155.** A frame of a stream is the image of the threshold that is set, or the image of the first minus the multiplier
times the one of the second. -/
theorem frame_setting {M : Type} (s : Stream M) (i : Nat) (a b : Frame)
    (h : s.file.frames.find? (·.1 = toString (i : Int)) = some (toString (i : Int), a, b)) :
    (s.setting = .one → getFrame s i = .ok a) ∧ (s.setting = .two → getFrame s i = .ok b) ∧
    (s.setting = .diff → ∃ f, getFrame s i = .ok f ∧ ∀ (r c : Nat) (rowa rowb : List ℚ) (x y : ℚ),
      a[r]? = some rowa → b[r]? = some rowb → rowa[c]? = some x → rowb[c]? = some y →
      ∃ row, f[r]? = some row ∧ row[c]? = some (x - s.multiplier * y)) := by
  refine ⟨fun e => by simp only [getFrame, h, e], fun e => by simp only [getFrame, h, e], fun e => ?_⟩
  refine ⟨minus s.multiplier a b, by simp only [getFrame, h, e], ?_⟩
  intro r c rowa rowb x y h1 h2 h3 h4
  refine ⟨List.zipWith (fun x y => x - s.multiplier * y) rowa rowb, ?_, ?_⟩
  · simp [minus, List.getElem?_zipWith, h1, h2]
  · simp [List.getElem?_zipWith, h3, h4]

theorem parse_cases (t : String) (x : Setting) (h : parseSetting t = some x) : t = x.name := by
  unfold parseSetting at h
  split_ifs at h with h1 h2 h3 <;> simp at h <;> subst h <;> simp [Setting.name, *]

/-- **C155.** After any history of options, whether they were accepted or not, the setting is the last of the three names
that was given, the multiplier the last number, and the file is the same. -/
theorem options_last {M : Type} (opts : List (String × OptVal)) (s : Stream M) :
    setAll s opts = { s with setting := lastSetting s.setting opts, multiplier := lastMultiplier s.multiplier opts } := by
  induction opts generalizing s with
  | nil => rfl
  | cons o opts ih =>
    obtain ⟨k, v⟩ := o
    have e : setAll s ((k, v) :: opts) = setAll ((setOption s k v).getD s) opts := rfl
    rw [e, ih]
    by_cases hk : k = "threshold_setting"
    · subst hk
      cases v with
      | num x => simp [setOption, lastSetting, lastMultiplier]
      | text t =>
        by_cases h1 : t = "threshold_1"
        · subst h1; simp [setOption, parseSetting, lastSetting, lastMultiplier]
        · by_cases h2 : t = "threshold_2"
          · subst h2; simp [setOption, parseSetting, lastSetting, lastMultiplier]
          · by_cases h3 : t = "man_diff"
            · subst h3; simp [setOption, parseSetting, lastSetting, lastMultiplier]
            · simp [setOption, parseSetting, lastSetting, lastMultiplier, h1, h2, h3]
    · by_cases hm : k = "multiplier"
      · subst hm
        cases v with
        | num x => simp [setOption, lastSetting, lastMultiplier]
        | text t => simp [setOption, lastSetting, lastMultiplier]
      · simp [setOption, lastSetting, lastMultiplier, hk, hm]

/-- **C155.** The options read from one stream, set on another of the same file, give the same frames there. -/
theorem options_copy {M : Type} (s t : Stream M) (h : s.file = t.file) (i : Int) :
    getFrame (setAll t (optionValues s)) i = getFrame s i := by
  have e : setAll t (optionValues s) = { t with setting := s.setting, multiplier := s.multiplier } := by
    simp [setAll, optionValues, setOption, parse_name]
  rw [e]
  simp [getFrame, h]

/-- **C155.** A stream sent to another process has the same frames and options. -/
theorem pickle_frames {M : Type} (s : Stream M) (i : Int) :
    getFrame (pickle s) i = getFrame s i ∧ optionValues (pickle s) = optionValues s ∧ (pickle s).len = s.len :=
  ⟨rfl, rfl, rfl⟩

/-- **C155.** It does not keep changes to its metadata, although they are allowed: the metadata are those of the file. -/
theorem pickle_metadata_fails {M : Type} (s : Stream M) (h : s.metadata ≠ s.file.metadata) :
    (pickle s).metadata ≠ s.metadata := fun e => h e.symm

/-- **C155.** All frames of a stream whose frames have the numbers from zero as names are had by iterating. -/
theorem stream_iterate {M : Type} (s : Stream M) (img : Nat → Frame × Frame)
    (h : ∀ i < s.len, s.file.frames.find? (·.1 = toString (i : Int)) = some (toString (i : Int), img i))
    (hs : s.setting = .one) : iterate s.len (fun i => getFrame s i) = some ((List.range s.len).map fun i => (img i).1) :=
  iterate_all _ _ _ fun i hi => by simp only [getFrame, h i hi, hs]

/-- **C155.** A series given by a function documents the argument `metadata`, but what is given there is dropped. -/
theorem func_metadata_fails {F M : Type} (f : Int → F) (n : Nat) (m : M) :
    funcMetadata ⟨f, n, none, some m⟩ = none := rfl

/-! ## Metadata -/

theorem words_noblank (f cur : Text) (h : ∀ c ∈ f, c.isWhitespace = false) (hne : cur ++ f ≠ []) :
    wordsFrom cur f = [cur ++ f] := by
  induction f generalizing cur with
  | nil => simp at hne; simp [wordsFrom, hne]
  | cons c f ih =>
    unfold wordsFrom
    rw [h c (by simp)]
    simp only [Bool.false_eq_true, if_false]
    rw [ih (cur ++ [c]) (fun x hx => h x (by simp [hx])) (by simp)]
    simp

theorem words_blank (a b cur : Text) (c : Char) (h : ∀ c ∈ a, c.isWhitespace = false) (hc : c.isWhitespace = true)
    (hne : cur ++ a ≠ []) : ∃ ws, wordsFrom cur (a ++ c :: b) = (cur ++ a) :: ws := by
  induction a generalizing cur with
  | nil => simp at hne; simp [wordsFrom, hne, hc]
  | cons x a ih =>
    simp only [List.cons_append]
    unfold wordsFrom
    rw [h x (by simp)]
    simp only [Bool.false_eq_true, if_false]
    obtain ⟨ws, e⟩ := ih (cur ++ [x]) (fun y hy => h y (by simp [hy])) (by simp)
    exact ⟨ws, by rw [e]; simp⟩

theorem words_marker : words "++np.array".toList = ["++np.array".toList] := by decide

theorem not_marker (t w : Text) (ws : List Text) (h : words t = w :: ws) (hw : w = "!".toList) :
    t ≠ "++np.array".toList := by
  rintro rfl
  rw [words_marker, hw] at h
  have := (List.cons.inj h).1
  revert this; decide

theorem words_trigger (f : Text) : words (trigger f) = "!".toList :: "load-numpy-array".toList :: words f := rfl

/-- **C155.** The text that is written for an array saved in the file `f` is a trigger for that file, if its name has no
blank in it. -/
theorem trigger_read {α : Type} (f : Text) (hne : f ≠ []) (h : ∀ c ∈ f, c.isWhitespace = false)
    (files : Text → Option α) (a : α) (ha : files f = some a) : Becomes files (.text (trigger f)) (.arr a) :=
  .loaded _ f a (by rw [words_trigger]; unfold words; rw [words_noblank f [] h (by simpa using hne)]; rfl) ha

/-- **C155.** It is false for a name with a blank: the file looked for has the name up to the blank. -/
theorem trigger_blank_fails {α : Type} (a b : Text) (c : Char) (hne : a ≠ []) (h : ∀ c ∈ a, c.isWhitespace = false)
    (hc : c.isWhitespace = true) (files : Text → Option α) (hf : files a = none) (toArr : Val α → α) (k : Text) :
    yamlmeta files toArr [(k, .text (trigger (a ++ c :: b)))] = none := by
  obtain ⟨ws, e⟩ := words_blank a b [] c h hc (by simpa using hne)
  have e1 : words (trigger (a ++ c :: b)) = "!".toList :: "load-numpy-array".toList :: a :: ws := by
    rw [words_trigger]; unfold words; rw [e]; rfl
  have e2 : trigger (a ++ c :: b) ≠ "++np.array".toList := not_marker _ _ _ e1 rfl
  simp only [yamlmeta, metaLoop, metaStep, e1, if_neg e2, if_true, hf]
  rfl

theorem put_fresh {α : Type} (d : Dict α) (k : Text) (v : Val α) (h : k ∉ d.map (·.1)) : put d k v = d ++ [(k, v)] := by
  have : d.any (·.1 = k) = false := by
    simp only [List.any_eq_false, decide_eq_true_eq]
    intro x hx e
    exact h (List.mem_map.2 ⟨x, hx, e⟩)
  simp only [put, this]
  rfl

theorem step_becomes {α : Type} (files : Text → Option α) (toArr : Val α → α) (k : Text) (v v' : Val α) (d acc : Dict α)
    (h : Becomes files v v') : metaStep files toArr k v d acc = some (d, put acc k v') := by
  cases h with
  | value n => rfl
  | arr a => rfl
  | plain t w ws e hw hm =>
    simp only [metaStep, e, if_neg hm]
    rcases hw with hw | hw
    · simp only [if_neg hw]
    · subst hw
      by_cases hw : w = "!".toList
      · simp only [if_pos hw]
      · simp only [if_neg hw]
  | loaded t f a e hf =>
    have hm : t ≠ "++np.array".toList := not_marker _ _ _ e rfl
    simp only [metaStep, e, if_neg hm, if_true, hf]
    rfl

/-- **C155.** Metadata whose strings are not empty come back as documented: under the same keys, with triggers replaced by
the arrays in the files and all else as it was. -/
theorem metadata_read {α : Type} (files : Text → Option α) (toArr : Val α → α) (m r : Dict α)
    (hk : (m.map (·.1)).Nodup) (h : List.Forall₂ (fun e e' => e.1 = e'.1 ∧ Becomes files e.2 e'.2) m r) :
    yamlmeta files toArr m = some r := by
  have key : ∀ (l r acc d : Dict α), List.Forall₂ (fun e e' => e.1 = e'.1 ∧ Becomes files e.2 e'.2) l r →
      (acc.map (·.1) ++ l.map (·.1)).Nodup → metaLoop files toArr l d acc = some (acc ++ r) := by
    intro l r acc d hl
    induction hl generalizing acc d with
    | nil => intro _; simp [metaLoop]
    | @cons e e' l r hb _ ih =>
      intro hn
      obtain ⟨k, v⟩ := e
      obtain ⟨k', v'⟩ := e'
      obtain ⟨rfl, hb⟩ := hb
      simp only at hb
      have hfresh : k ∉ acc.map (·.1) := by
        intro hm
        exact (List.nodup_append.1 hn).2.2 k hm k (by simp) rfl
      unfold metaLoop
      rw [step_becomes files toArr k v v' d acc hb, put_fresh _ _ _ hfresh]
      simp only [Option.bind_eq_bind, Option.bind_some]
      rw [ih _ _ (by simpa using hn)]
      simp
  have := key m r [] m h (by simpa using hk)
  simpa [yamlmeta] using this

/-- **C155.** It is false of an empty string in the metadata: they cannot be read at all. -/
theorem metadata_empty_fails {α : Type} (files : Text → Option α) (toArr : Val α → α) (m : Dict α) (k t : Text)
    (hm : (k, .text t) ∈ m) (ht : words t = []) : yamlmeta files toArr m = none := by
  have key : ∀ (l d acc : Dict α), (k, .text t) ∈ l → metaLoop files toArr l d acc = none := by
    intro l
    induction l with
    | nil => intro _ _ h; simp at h
    | cons e l ih =>
      intro d acc h
      obtain ⟨k', v⟩ := e
      unfold metaLoop
      rcases List.mem_cons.1 h with e | h
      · obtain ⟨rfl, rfl⟩ := Prod.mk.inj e
        simp [metaStep, ht]
      · cases e : metaStep files toArr k' v d acc with
        | none => rfl
        | some p => simp [ih _ _ h]
  exact key _ _ _ hm

/-- **C155.** An unknown trigger loses the value: its key is not in what is read. -/
theorem metadata_unknown_fails {α : Type} (files : Text → Option α) (toArr : Val α → α) (k t cmd : Text)
    (args : List Text) (hw : words t = "!".toList :: cmd :: args) (hc : cmd ≠ "load-numpy-array".toList) :
    yamlmeta files toArr [(k, .text t)] = some [] := by
  have hm : t ≠ "++np.array".toList := not_marker _ _ _ hw rfl
  simp only [yamlmeta, metaLoop, metaStep, hw, if_neg hm, if_true, if_neg hc]
  rfl

/-- **C155.** The old way of giving an array, under the key with `-array` added, depends on the order of the keys: the array
is also left under that key if it comes after, as it does in a file written in the order of the keys, and not if it comes
before. -/
theorem metadata_marker_order {α : Type} (files : Text → Option α) (toArr : Val α → α) (k : Text) (n : Nat) :
    yamlmeta files toArr [(k, .text "++np.array".toList), (k ++ "-array".toList, .value n)] =
      some [(k, .arr (toArr (.value n))), (k ++ "-array".toList, .value n)] ∧
    yamlmeta files toArr [(k ++ "-array".toList, .value n), (k, .text "++np.array".toList)] =
      some [(k, .arr (toArr (.value n)))] := by
  have hne : k ++ "-array".toList ≠ k := by
    intro e
    have := congrArg List.length e
    simp at this
  have hne' : k ≠ k ++ "-array".toList := fun e => hne e.symm
  have hw : words "++np.array".toList = ["++np.array".toList] := by decide
  constructor
  · simp only [yamlmeta, metaLoop, metaStep, hw, if_true]
    simp only [lookup, erase, put, npArray, List.find?, List.filter, hne, hne', List.any]
    simp [hne, hne']
  · simp only [yamlmeta, metaLoop, metaStep, hw, if_true]
    simp only [lookup, erase, put, npArray, List.find?, List.filter, hne, hne', List.any]
    simp [hne, hne']

/-- A concrete case of `metadata_read`: a name, a trigger and a number. -/
theorem metadata_case (files : Text → Option Nat) (h : files "omega.npy".toList = some 5) (toArr : Val Nat → Nat) :
    yamlmeta files toArr [("panel".toList, .text "ge 1".toList), ("omega".toList, .text (trigger "omega.npy".toList)),
      ("n".toList, .value 3)] =
    some [("panel".toList, .text "ge 1".toList), ("omega".toList, .arr 5), ("n".toList, .value 3)] := by
  apply metadata_read _ _ _ _ (by decide)
  refine .cons ⟨rfl, .plain _ "ge".toList ["1".toList] (by decide) (Or.inl (by decide)) (by decide)⟩
    (.cons ⟨rfl, trigger_read _ (by decide) (by decide) files 5 h⟩ (.cons ⟨rfl, .value 3⟩ .nil))

/-- A concrete stream whose frames are found by their numbers, with the difference of its two images. -/
theorem stream_case : getFrame (⟨⟨[("0", [[5, 7]], [[1, 2]]), ("1", [[3, 3]], [[1, 0]])], ()⟩, .diff, 2, ()⟩ : Stream Unit) 1 =
    .ok [[1, 3]] := by decide +kernel

/-! ### Words -/

theorem wordsFrom_each (t : Text) : ∀ cur : Text, (∀ c ∈ cur, c.isWhitespace = false) →
    (∀ w ∈ wordsFrom cur t, w ≠ [] ∧ ∀ c ∈ w, c.isWhitespace = false) ∧
      (wordsFrom cur t).flatten = cur ++ t.filter fun c => !c.isWhitespace := by
  induction t with
  | nil =>
    intro cur h
    by_cases hc : cur = [] <;> simp [wordsFrom, hc]
    exact h
  | cons c t ih =>
    intro cur h
    have hn := ih [] (by simp)
    by_cases hw : c.isWhitespace = true
    · by_cases hc : cur = []
      · simpa [wordsFrom, hw, hc] using hn
      · refine ⟨?_, by simp [wordsFrom, hw, hc, hn.2]⟩
        intro w hm
        simp only [wordsFrom, hw, hc, if_true, if_false, List.mem_cons] at hm
        rcases hm with rfl | hm
        · exact ⟨hc, h⟩
        · exact hn.1 w hm
    · have hw' : c.isWhitespace = false := by simpa using hw
      have hs := ih (cur ++ [c]) (by
        intro d hd
        rw [List.mem_append, List.mem_singleton] at hd
        rcases hd with hd | rfl
        · exact h d hd
        · exact hw')
      simpa [wordsFrom, hw'] using hs

/-- The words of a text are not empty and have no blanks, and together they are the text without its blanks. -/
theorem words_each (t : Text) : (∀ w ∈ words t, w ≠ [] ∧ ∀ c ∈ w, c.isWhitespace = false) ∧
    (words t).flatten = t.filter fun c => !c.isWhitespace := by
  simpa [words] using wordsFrom_each t [] (by simp)

example : words " ! load  x ".toList = ["!".toList, "load".toList, "x".toList] := by decide

end Hexrd.Adapters
