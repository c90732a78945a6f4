import Verif.Spec.Include
import Mathlib.Tactic
/-!
# C154: documents with arrays are kept
-/
namespace Hexrd.Include
open Spec

variable {α : Type}

theorem stem_plain (k : Key) (h : '.' ∉ k) : stem k = k := by
  have key : ∀ l : List Char, '.' ∉ l → l.dropWhile (· ≠ '.') = [] := by
    intro l
    induction l with
    | nil => simp
    | cons c l ih =>
      intro hl
      simp only [List.mem_cons, not_or] at hl
      have hc : c ≠ '.' := fun e => hl.1 e.symm
      rw [List.dropWhile_cons_of_pos (by simpa using hc)]
      exact ih hl.2
  have := key k.reverse (by simpa using h)
  unfold stem
  simp only [this]
  simp

theorem find_has (d : Items Nat) (i : Nat) (p : List Key) (h : findPath i d = some p) : HasAt d p i := by
  induction d generalizing p with
  | nil => simp [findPath] at h
  | leaf k v rest ih => exact .afterLeaf _ _ _ _ _ (ih p h)
  | arr k a rest ih =>
    unfold findPath at h
    by_cases e : a = i
    · subst e; simp at h; subst h; exact .here _ _ _
    · simp only [if_neg e] at h; exact .afterArr _ _ _ _ _ (ih p h)
  | sub k l d rest ihd ih =>
    unfold findPath at h
    cases hd : findPath i d with
    | some q => rw [hd] at h; simp at h; subst h; exact .inside _ _ _ _ _ _ (ihd q hd)
    | none => rw [hd] at h; exact .afterSub _ _ _ _ _ _ (ih p h)

theorem find_some (d : Items Nat) (i : Nat) (h : i ∈ d.arrays) : ∃ p, findPath i d = some p := by
  induction d with
  | nil => simp [Items.arrays] at h
  | leaf k v rest ih => exact ih h
  | arr k a rest ih =>
    unfold findPath
    by_cases e : a = i
    · exact ⟨_, if_pos e⟩
    · simp only [if_neg e]
      simp only [Items.arrays, List.mem_cons] at h
      exact ih (h.resolve_left (fun x => e x.symm))
  | sub k l d rest ihd ih =>
    unfold findPath
    cases hd : findPath i d with
    | some q => exact ⟨_, rfl⟩
    | none =>
      simp only [Items.arrays, List.mem_append] at h
      rcases h with h | h
      · obtain ⟨p, hp⟩ := ihd h; rw [hp] at hd; simp at hd
      · exact ih h

theorem has_key {A : Type} (d : Items A) (p : List Key) (a : A) (h : HasAt d p a) : ∃ k q, p = k :: q ∧ k ∈ keys d := by
  induction h with
  | here k a rest => exact ⟨k, [], rfl, by simp [keys]⟩
  | afterLeaf k v rest p a _ ih => obtain ⟨k', q, e, m⟩ := ih; exact ⟨k', q, e, by simp [keys, m]⟩
  | afterArr k v rest p a _ ih => obtain ⟨k', q, e, m⟩ := ih; exact ⟨k', q, e, by simp [keys, m]⟩
  | inside k l d rest p a _ ih => exact ⟨k, p, rfl, by simp [keys]⟩
  | afterSub k l d rest p a _ ih => obtain ⟨k', q, e, m⟩ := ih; exact ⟨k', q, e, by simp [keys, m]⟩

theorem has_unique {A : Type} (d : Items A) (hu : Distinct d) (p : List Key) (a b : A) (h : HasAt d p a)
    (h' : HasAt d p b) : a = b := by
  induction h with
  | here k a rest =>
    cases h' with
    | here => rfl
    | afterArr _ _ _ _ _ h' =>
      obtain ⟨k', q, e, m⟩ := has_key _ _ _ h'
      simp at e; exact absurd (e.1 ▸ m) hu.1
  | afterLeaf k v rest p a _ ih => cases h' with | afterLeaf _ _ _ _ _ h' => exact ih hu.2 h'
  | afterArr k v rest p a h ih =>
    cases h' with
    | here =>
      obtain ⟨k', q, e, m⟩ := has_key _ _ _ h
      simp at e; exact absurd (e.1 ▸ m) hu.1
    | afterArr _ _ _ _ _ h' => exact ih hu.2 h'
  | inside k l d rest p a h ih =>
    cases h' with
    | inside _ _ _ _ _ _ h' => exact ih hu.2.1 h'
    | afterSub _ _ _ _ _ _ h' =>
      obtain ⟨k', q, e, m⟩ := has_key _ _ _ h'
      simp at e; exact absurd (e.1 ▸ m) hu.1
  | afterSub k l d rest p a h ih =>
    cases h' with
    | inside _ _ _ _ _ _ h' =>
      obtain ⟨k', q, e, m⟩ := has_key _ _ _ h
      simp at e; exact absurd (e.1 ▸ m) hu.1
    | afterSub _ _ _ _ _ _ h' => exact ih hu.2.2 h'

theorem has_plain {A : Type} (d : Items A) (hp : Plain d) (p : List Key) (a : A) (h : HasAt d p a) :
    p ≠ [] ∧ ∀ k ∈ p, k ≠ [] ∧ '.' ∉ k := by
  induction h with
  | here k a rest => exact ⟨by simp, by simpa using hp.1⟩
  | afterLeaf k v rest p a _ ih => exact ih hp.2
  | afterArr k v rest p a _ ih => exact ih hp.2
  | inside k l d rest p a _ ih =>
    refine ⟨by simp, ?_⟩
    intro k' hk'
    rcases List.mem_cons.1 hk' with rfl | h
    · exact hp.1
    · exact (ih hp.2.1).2 k' h
  | afterSub k l d rest p a _ ih => exact ih hp.2.2

theorem has_mem {A : Type} (d : Items A) (p : List Key) (a : A) (h : HasAt d p a) : a ∈ d.arrays := by
  induction h with
  | here k a rest => simp [Items.arrays]
  | afterLeaf k v rest p a _ ih => exact ih
  | afterArr k v rest p a _ ih => simp [Items.arrays, ih]
  | inside k l d rest p a _ ih => simp [Items.arrays, ih]
  | afterSub k l d rest p a _ ih => simp [Items.arrays, ih]

theorem file_plain (dirs : List Key) (k : Key) (h : ∀ x ∈ dirs ++ [k], x ≠ [] ∧ '.' ∉ x) :
    fileOf (dirs ++ [k]) = some (dirs ++ [k ++ ".npy".toList]) := by
  have : (dirs ++ [k]).filter (fun k => k ≠ [] ∧ k ≠ ['.']) = dirs ++ [k] := by
    rw [List.filter_eq_self]
    intro x hx
    obtain ⟨h1, h2⟩ := h x hx
    simp only [ne_eq, decide_eq_true_eq]
    exact ⟨h1, by rintro rfl; simp at h2⟩
  unfold fileOf
  rw [this]
  simp [stem_plain k (h k (by simp)).2]

/-- **C154.** In a document whose keys are plain, an array is saved in the file named by where it is: the keys that lead to
the container it is in are the directories, and its own key with `.npy` is the file. -/
theorem array_file (d : Items Nat) (hp : Plain d) (i : Nat) (h : i ∈ d.arrays) :
    ∃ dirs k, HasAt d (dirs ++ [k]) i ∧ arrayFile d i = some (dirs ++ [k ++ ".npy".toList]) := by
  obtain ⟨p, e⟩ := find_some d i h
  have hh := find_has d i p e
  obtain ⟨hne, hpl⟩ := has_plain d hp p i hh
  obtain ⟨dirs, k, rfl⟩ : ∃ dirs k, p = dirs ++ [k] := ⟨p.dropLast, p.getLast hne, (List.dropLast_append_getLast hne).symm⟩
  exact ⟨dirs, k, hh, by simp [arrayFile, e, file_plain dirs k hpl]⟩

theorem mapM_same {A B : Type} (f : A → Option B) (g : A → B) (d : Items A) (h : ∀ a ∈ d.arrays, f a = some (g a)) :
    ∃ y, d.mapM f = some y ∧ Same g d y := by
  induction d with
  | nil => exact ⟨_, rfl, .nil⟩
  | leaf k v rest ih =>
    obtain ⟨y, e, s⟩ := ih h
    exact ⟨.leaf k v y, by simp [Items.mapM, e], .leaf _ _ _ _ s⟩
  | arr k a rest ih =>
    obtain ⟨y, e, s⟩ := ih (fun b hb => h b (by simp [Items.arrays, hb]))
    exact ⟨.arr k (g a) y, by simp [Items.mapM, e, h a (by simp [Items.arrays])], .arr _ _ _ _ s⟩
  | sub k l d rest ihd ih =>
    obtain ⟨y, e, s⟩ := ih (fun b hb => h b (by simp [Items.arrays, hb]))
    obtain ⟨z, e', s'⟩ := ihd (fun b hb => h b (by simp [Items.arrays, hb]))
    exact ⟨.sub k l z y, by simp [Items.mapM, e, e'], .sub _ _ _ _ _ _ s' s⟩

theorem mapM_mapM {A B C : Type} (f : A → Option B) (g : B → Option C) (d : Items A) (y : Items B)
    (h : d.mapM f = some y) : y.mapM g = d.mapM (fun a => (f a).bind g) := by
  induction d generalizing y with
  | nil => simp [Items.mapM] at h; subst h; rfl
  | leaf k v rest ih =>
    cases e : rest.mapM f with
    | none => simp [Items.mapM, e] at h
    | some r => simp [Items.mapM, e] at h; subst h; simp [Items.mapM, ih r e]
  | arr k a rest ih =>
    cases e : rest.mapM f with
    | none => simp [Items.mapM, e] at h
    | some r =>
      cases e' : f a with
      | none => simp [Items.mapM, e'] at h
      | some b => simp [Items.mapM, e, e'] at h; subst h; simp [Items.mapM, ih r e, e']
  | sub k l d rest ihd ih =>
    cases e : rest.mapM f with
    | none => simp [Items.mapM, e] at h
    | some r =>
      cases e' : d.mapM f with
      | none => simp [Items.mapM, e'] at h
      | some b => simp [Items.mapM, e, e'] at h; subst h; simp [Items.mapM, ih r e, ihd b e']

theorem mapM_some {A B : Type} (f : A → Option B) (d : Items A) (y : Items B) (h : d.mapM f = some y) :
    ∀ a ∈ d.arrays, ∃ b, f a = some b := by
  induction d generalizing y with
  | nil => simp [Items.arrays]
  | leaf k v rest ih =>
    cases e : rest.mapM f with
    | none => simp [Items.mapM, e] at h
    | some r => exact ih r e
  | arr k a rest ih =>
    cases e : rest.mapM f with
    | none => cases e' : f a <;> simp [Items.mapM, e, e'] at h
    | some r =>
      cases e' : f a with
      | none => simp [Items.mapM, e'] at h
      | some b =>
        intro x hx
        rcases List.mem_cons.1 hx with rfl | hx
        · exact ⟨b, e'⟩
        · exact ih r e x hx
  | sub k l d rest ihd ih =>
    cases e : rest.mapM f with
    | none => cases e' : d.mapM f <;> simp [Items.mapM, e, e'] at h
    | some r =>
      cases e' : d.mapM f with
      | none => simp [Items.mapM, e'] at h
      | some b =>
        intro x hx
        rcases List.mem_append.1 hx with hx | hx
        · exact ihd b e' x hx
        · exact ih r e x hx

theorem mapM_inj {A B : Type} (f : A → Option B) (g : A → B) (d : Items A) (y : Items B) (h : d.mapM f = some y)
    (hs : Same g d y) : ∀ a ∈ d.arrays, f a = some (g a) := by
  induction d generalizing y with
  | nil => simp [Items.arrays]
  | leaf k v rest ih =>
    cases hs with
    | leaf _ _ _ r s =>
      cases e : rest.mapM f with
      | none => simp [Items.mapM, e] at h
      | some r' => simp [Items.mapM, e] at h; subst h; exact ih _ e s
  | arr k a rest ih =>
    cases hs with
    | arr _ _ _ r s =>
      cases e : rest.mapM f with
      | none => cases e' : f a <;> simp [Items.mapM, e, e'] at h
      | some r' =>
        cases e' : f a with
        | none => simp [Items.mapM, e'] at h
        | some b =>
          simp [Items.mapM, e, e'] at h
          obtain ⟨rfl, rfl⟩ := h
          intro x hx
          rcases List.mem_cons.1 hx with rfl | hx
          · exact e'
          · exact ih _ e s x hx
  | sub k l d rest ihd ih =>
    cases hs with
    | sub _ _ _ _ d2 r s2 s =>
      cases e : rest.mapM f with
      | none => cases e' : d.mapM f <;> simp [Items.mapM, e, e'] at h
      | some r' =>
        cases e' : d.mapM f with
        | none => simp [Items.mapM, e'] at h
        | some b =>
          simp [Items.mapM, e, e'] at h
          obtain ⟨rfl, rfl⟩ := h
          intro x hx
          rcases List.mem_append.1 hx with hx | hx
          · exact ihd _ e' s2 x hx
          · exact ih _ e s x hx

theorem same_eq {A B : Type} (g : A → B) (d : Items A) (y z : Items B) (h : Same g d y) (h' : Same g d z) : y = z := by
  induction h generalizing z with
  | nil => cases h'; rfl
  | leaf k v r r' _ ih => cases h' with | leaf _ _ _ _ s => rw [ih _ s]
  | arr k v r r' _ ih => cases h' with | arr _ _ _ _ s => rw [ih _ s]
  | sub k l d r d' r' _ _ ihd ih => cases h' with | sub _ _ _ _ _ _ s s' => rw [ih _ s', ihd _ s]

theorem readFile_mem (fs : List (List Key × α)) (p : List Key) (x : α) (h : readFile fs p = some x) : (p, x) ∈ fs := by
  unfold readFile at h
  cases e : fs.reverse.find? (·.1 = p) with
  | none => rw [e] at h; simp at h
  | some q =>
    rw [e] at h; simp at h
    have h1 := List.find?_some e
    have h2 := List.mem_of_find?_eq_some e
    simp at h1 h2
    rw [← h1, ← h]; exact h2

theorem readFile_some (fs : List (List Key × α)) (p : List Key) (x : α) (h : (p, x) ∈ fs) : ∃ y, readFile fs p = some y := by
  unfold readFile
  cases e : fs.reverse.find? (·.1 = p) with
  | none =>
    rw [List.find?_eq_none] at e
    have := e (p, x) (by simpa using h)
    simp at this
  | some q => exact ⟨q.2, rfl⟩

/-- **C154.** A document that could be written is read back with all its values and its arrays, whatever the order
in which the files were saved, exactly if arrays saved under the same name are equal. -/
theorem round_trip_iff (d : Items Nat) (contents : Nat → α) (y : Items (List Key)) (h : dump d = some y)
    (fs : List (List Key × α)) (hfs : ∀ x, x ∈ fs ↔ ∃ i ∈ d.arrays, saved d contents i = some x) :
    (∃ z, load fs y = some z ∧ Same contents d z) ↔
      ∀ i ∈ d.arrays, ∀ j ∈ d.arrays, arrayFile d i = arrayFile d j → contents i = contents j := by
  have hl : load fs y = d.mapM (fun i => (arrayFile d i).bind (readFile fs)) := mapM_mapM _ _ _ _ h
  have hf := mapM_some _ _ _ h
  constructor
  · rintro ⟨z, hz, hs⟩ i hi j hj e
    rw [hl] at hz
    have := mapM_inj _ _ _ _ hz hs
    have h1 := this i hi
    have h2 := this j hj
    simp only [e] at h1
    rw [h2] at h1
    exact (Option.some.inj h1).symm
  · intro hc
    rw [hl]
    apply mapM_same
    intro i hi
    obtain ⟨p, hp⟩ := hf i hi
    rw [hp]
    obtain ⟨x, hx⟩ := readFile_some fs p (contents i) ((hfs _).2 ⟨i, hi, by simp [saved, hp]⟩)
    have hm := readFile_mem fs p x hx
    obtain ⟨j, hj, e⟩ := (hfs _).1 hm
    cases e' : arrayFile d j with
    | none => simp [saved, e'] at e
    | some q =>
      simp [saved, e'] at e
      obtain ⟨rfl, rfl⟩ := e
      simp only [Option.bind_some, hx]
      rw [hc i hi j hj (by rw [hp, e'])]

/-- **C154.** A document whose keys are plain and occur once in each container can be written, and is read back with
all its values and its arrays, whatever the order in which the files were saved. -/
theorem round_trip (d : Items Nat) (hu : Distinct d) (hp : Plain d) (contents : Nat → α) :
    ∃ y, dump d = some y ∧ ∀ fs : List (List Key × α),
      (∀ x, x ∈ fs ↔ ∃ i ∈ d.arrays, saved d contents i = some x) → ∃ z, load fs y = some z ∧ Same contents d z := by
  have hf : ∀ i ∈ d.arrays, arrayFile d i = some ((arrayFile d i).getD []) := by
    intro i hi
    obtain ⟨dirs, k, _, e⟩ := array_file d hp i hi
    rw [e]; rfl
  obtain ⟨y, hy, _⟩ := mapM_same (arrayFile d) _ d hf
  refine ⟨y, hy, fun fs hfs => (round_trip_iff d contents y hy fs hfs).2 ?_⟩
  intro i hi j hj e
  obtain ⟨dirs, k, h1, e1⟩ := array_file d hp i hi
  obtain ⟨dirs', k', h2, e2⟩ := array_file d hp j hj
  rw [e1, e2] at e
  have e3 := Option.some.inj e
  have e4 := List.append_inj' e3 rfl
  have e5 : k = k' := by simpa using e4.2
  rw [e4.1, e5] at h1
  rw [has_unique d hu _ i j h1 h2]

/-- **C154.** The same is false of keys with dots: two arrays whose keys differ only after the last dot are saved in one
file, and are not both read back, whatever the order. -/
theorem round_trip_fails (contents : Nat → α) (hc : contents 0 ≠ contents 1) (fs : List (List Key × α)) :
    let d : Items Nat := .arr "dark.0".toList 0 (.arr "dark.1".toList 1 .nil)
    Distinct d ∧ ∃ y, dump d = some y ∧ ((∀ x, x ∈ fs ↔ ∃ i ∈ d.arrays, saved d contents i = some x) →
      ¬ ∃ z, load fs y = some z ∧ Same contents d z) := by
  intro d
  refine ⟨?_, _, rfl, ?_⟩
  · simp only [d, Distinct, keys]; decide
  · intro hfs h
    exact hc ((round_trip_iff d contents _ rfl fs hfs).1 h 0 (by simp [d, Items.arrays]) 1
      (by simp [d, Items.arrays]) (by decide))

/-- The hypotheses of `round_trip` are met: a list inside a dictionary, one array held twice. -/
theorem round_trip_case :
    let d : Items Nat := .sub "a".toList true (.arr "0".toList 7 (.arr "1".toList 8 .nil))
      (.leaf "n".toList 3 (.arr "b".toList 7 .nil))
    Distinct d ∧ Plain d ∧ arrayFile d 8 = some ["a".toList, "1.npy".toList] ∧
      arrayFile d 7 = some ["a".toList, "0.npy".toList] := by
  intro d
  refine ⟨?_, ?_, by decide, by decide⟩
  · simp only [d, Distinct, keys]; decide
  · simp only [d, Plain]; decide

/-! ### The names of the files -/

/-- **C154** what a file is called: the part of the key before its last dot, if there is something on both sides of that dot. -/
theorem stem_dotted (a b : Key) (ha : a ≠ []) (hb : b ≠ []) (h : '.' ∉ b) : stem (a ++ '.' :: b) = a := by
  have h1 : ∀ c ∈ b.reverse, (decide (c ≠ '.')) = true := fun c hc => by
    rw [List.mem_reverse] at hc
    simp only [decide_eq_true_eq]
    rintro rfl
    exact h hc
  have e1 : (b.reverse ++ '.' :: a.reverse).takeWhile (fun c => decide (c ≠ '.')) = b.reverse := by
    rw [List.takeWhile_append_of_pos h1]; simp
  have e2 : (b.reverse ++ '.' :: a.reverse).dropWhile (fun c => decide (c ≠ '.')) = '.' :: a.reverse := by
    rw [List.dropWhile_append_of_pos h1]; simp
  have ha' : 0 < a.length := List.length_pos_of_ne_nil ha
  unfold stem
  rw [show (a ++ '.' :: b).reverse = b.reverse ++ '.' :: a.reverse by simp]
  simp only [e1, e2]
  rw [if_neg (by simp [hb]; omega)]
  simp

/-- **C154** a dot that comes first or last is part of the name. -/
theorem stem_outer (b : Key) (h : '.' ∉ b) : stem ('.' :: b) = '.' :: b ∧ ∀ a : Key, stem (a ++ ['.']) = a ++ ['.'] := by
  have h1 : ∀ c ∈ b.reverse, (decide (c ≠ '.')) = true := fun c hc => by
    rw [List.mem_reverse] at hc
    simp only [decide_eq_true_eq]
    rintro rfl
    exact h hc
  have e2 : (b.reverse ++ ['.']).dropWhile (fun c => decide (c ≠ '.')) = ['.'] := by
    rw [List.dropWhile_append_of_pos h1]; simp
  constructor
  · unfold stem
    rw [show ('.' :: b).reverse = b.reverse ++ ['.'] by simp]
    simp only [e2]
    rw [if_pos (by simp)]
  · intro a
    unfold stem
    simp

example : stem "mask.old".toList = "mask".toList ∧ stem ".mask".toList = ".mask".toList := by decide

end Hexrd.Include
