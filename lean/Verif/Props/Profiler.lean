import Verif.Spec.Profiler
import Mathlib.Data.List.Basic

/-! # C168: the functions that are profiled -/
namespace Hexrd.Profiler

variable {O : Type}

theorem follow_iff (w : World O) (l : List String) : ∀ m o, follow w m l = some o ↔ Spec.Reaches w m l o := by
  induction l with
  | nil =>
    intro m o
    constructor
    · intro h; simp only [follow, Option.some.injEq] at h; subst h; exact .here m
    · intro h; cases h; rfl
  | cons a l ih =>
    intro m o
    simp only [follow, Option.bind_eq_some_iff]
    constructor
    · rintro ⟨m', h1, h2⟩; exact .step h1 ((ih m' o).1 h2)
    · intro h; cases h with | step h1 r => exact ⟨_, h1, (ih _ o).2 r⟩

theorem imports_spec (w : World O) (parts : List String) (left : ℕ) : ∀ (i : ℕ) (acc : Option (O × ℕ)),
    ((left = 0 ∨ w.imp (parts.take i) = none) ∧ imports w parts left i acc = acc) ∨
    ∃ m k, imports w parts left i acc = some (m, k) ∧ i ≤ k ∧ k < i + left ∧ (∀ j, i ≤ j → j ≤ k → (w.imp (parts.take j)).isSome) ∧
      w.imp (parts.take k) = some m ∧ (k + 1 < i + left → w.imp (parts.take (k + 1)) = none) := by
  induction left with
  | zero => intro i acc; exact .inl ⟨.inl rfl, rfl⟩
  | succ left ih =>
    intro i acc
    cases h : w.imp (parts.take i) with
    | none => exact .inl ⟨.inr rfl, by simp [imports, h]⟩
    | some m =>
      right
      rcases ih (i + 1) (some (m, i)) with ⟨h1, h2⟩ | ⟨m', k, h1, h2, h3, h4, h5, h6⟩
      · refine ⟨m, i, by simp [imports, h, h2], Nat.le_refl _, by omega, ?_, h, ?_⟩
        · intro j hj hk
          obtain rfl : i = j := by omega
          simp [h]
        · intro hlt
          rcases h1 with h1 | h1
          · omega
          · exact h1
      · refine ⟨m', k, by simp [imports, h, h1], by omega, by omega, ?_, h5, fun hlt => h6 (by omega)⟩
        intro j hj hk
        by_cases e : i = j
        · subst e; simp [h]
        · exact h4 j (by omega) hk

theorem take_append_last (path : List String) (fn : String) (j : ℕ) (h : j ≤ path.length) : (path ++ [fn]).take j = path.take j :=
  List.take_append_of_le_length h

theorem longest_unique (w : World O) (path : List String) (k k' : ℕ) (m m' : O) (h : Spec.Longest w path k m) (h' : Spec.Longest w path k' m') :
    k = k' ∧ m = m' := by
  obtain ⟨a1, a2, a3, a4, a5⟩ := h
  obtain ⟨b1, b2, b3, b4, b5⟩ := h'
  have e : k = k' := by
    rcases Nat.lt_trichotomy k k' with hlt | he | hlt
    · have := b3 (k + 1) (by omega) (by omega)
      rw [a5 (by omega)] at this; simp at this
    · exact he
    · have := a3 (k' + 1) (by omega) (by omega)
      rw [b5 (by omega)] at this; simp at this
  subst e
  exact ⟨rfl, Option.some.inj (a4.symm.trans b4)⟩

/-- The imports find the longest prefix that is a module, or nothing at all. -/
theorem imports_longest (w : World O) (path : List String) (fn : String) :
    ((path = [] ∨ w.imp (path.take 1) = none) ∧ imports w (path ++ [fn]) path.length 1 none = none) ∨
    ∃ m k, imports w (path ++ [fn]) path.length 1 none = some (m, k) ∧ Spec.Longest w path k m := by
  have key := imports_spec w (path ++ [fn]) path.length 1 none
  rcases key with ⟨h1, h2⟩ | ⟨m, k, h1, h2, h3, h4, h5, h6⟩
  · left
    refine ⟨?_, h2⟩
    by_cases e : path = []
    · exact .inl e
    · have hl : 1 ≤ path.length := List.length_pos_of_ne_nil e
      rcases h1 with h1 | h1
      · omega
      · right; rwa [take_append_last path fn 1 hl] at h1
  · right
    refine ⟨m, k, h1, h2, by omega, fun j hj hk => ?_, ?_, fun hlt => ?_⟩
    · have := h4 j hj hk; rwa [take_append_last path fn j (by omega)] at this
    · rwa [take_append_last path fn k (by omega)] at h5
    · have := h6 (by omega); rwa [take_append_last path fn (k + 1) (by omega)] at this

/-- **C168** the function that is replaced is the one the dotted name refers to, and it is replaced whenever there is one. -/
theorem replaced_iff (w : World O) (path : List String) (fn : String) (o : O) (n : String) :
    instrument w (path ++ [fn]) = .replaced o n ↔ n = fn ∧ Spec.Names w path fn o := by
  unfold instrument
  simp only [List.dropLast_concat, List.getLastD_concat]
  rcases imports_longest w path fn with ⟨h1, h2⟩ | ⟨m, k, h1, h2⟩
  · simp only [h2]
    constructor
    · intro h; simp at h
    · rintro ⟨-, k, m, ⟨a1, a2, a3, -⟩, -⟩
      have := a3 1 (Nat.le_refl _) a1
      rcases h1 with rfl | h1
      · simp only [List.length_nil] at a2; omega
      · rw [h1] at this; simp at this
  · simp only [h1]
    constructor
    · intro h
      cases hf : follow w m (path.drop k) with
      | none => simp [hf] at h
      | some o' =>
        cases ha : w.attr o' fn with
        | none => simp [hf, ha] at h
        | some f =>
          simp only [hf, ha, Outcome.replaced.injEq] at h
          obtain ⟨rfl, rfl⟩ := h
          exact ⟨rfl, k, m, h2, (follow_iff w _ _ _).1 hf, by simp [ha]⟩
    · rintro ⟨rfl, k', m', hl, hr, ha⟩
      obtain ⟨rfl, rfl⟩ := longest_unique w path k k' m m' h2 hl
      rw [(follow_iff w _ _ _).2 hr]
      obtain ⟨f, hf⟩ := Option.isSome_iff_exists.1 ha
      simp [hf]

/-- **C168** an exception is raised exactly if there is no path or its first part cannot be imported. -/
theorem raised_iff (w : World O) (path : List String) (fn : String) :
    instrument w (path ++ [fn]) = .raised ↔ path = [] ∨ w.imp (path.take 1) = none := by
  unfold instrument
  simp only [List.dropLast_concat, List.getLastD_concat]
  rcases imports_longest w path fn with ⟨h1, h2⟩ | ⟨m, k, h1, a1, a2, a3, -⟩
  · simp [h2, h1]
  · simp only [h1]
    constructor
    · intro h
      cases hf : follow w m (path.drop k) with
      | none => simp [hf] at h
      | some o' => cases ha : w.attr o' fn <;> simp [hf, ha] at h
    · intro h
      exfalso
      have := a3 1 (Nat.le_refl _) a1
      rcases h with rfl | h
      · simp only [List.length_nil] at a2; omega
      · rw [h] at this; simp at this

/-- **C168** as long as the first part of every name can be imported, every entry of a file is dealt with on its own. -/
theorem parse_each_partial (w : World O) (es : List (List String)) (h : ∀ e ∈ es, instrument w e ≠ .raised) :
    parseFile w es = es.map (instrument w) := by
  induction es with
  | nil => rfl
  | cons e es ih =>
    have h1 := h e (by simp)
    have h2 := ih fun x hx => h x (by simp [hx])
    unfold parseFile
    cases hi : instrument w e with
    | raised => exact absurd hi h1
    | warned => simp [hi, h2]
    | replaced o n => simp [hi, h2]

/-- **C168 is false** in general: an entry whose first part cannot be imported ends the file, whatever follows it. -/
theorem parse_stops_fails (w : World O) (pre post : List (List String)) (path : List String) (fn : String)
    (hp : ∀ e ∈ pre, instrument w e ≠ .raised) (h : w.imp (path.take 1) = none) :
    parseFile w (pre ++ (path ++ [fn]) :: post) = pre.map (instrument w) ++ [.raised] := by
  induction pre with
  | nil => simp [parseFile, (raised_iff w path fn).2 (.inr h)]
  | cons e pre ih =>
    have h1 := hp e (by simp)
    have h2 := ih fun x hx => hp x (by simp [hx])
    rw [List.cons_append, parseFile]
    cases hi : instrument w e with
    | raised => exact absurd hi h1
    | warned => simp [hi, h2]
    | replaced o n => simp [hi, h2]

/-- One package with a module in it that has a class with a method. -/
def aWorld : World ℕ where
  imp l := if l = ["p"] then some 1 else if l = ["p", "q"] then some 2 else none
  attr o a := if o = 2 ∧ a = "C" then some 3 else if o = 3 ∧ a = "f" then some 4 else none

/-- The method is found; a name that is not there is reported, and one in a package that is not there hides what follows. -/
example : parseFile aWorld [["p", "q", "C", "f"], ["p", "q", "C", "g"], ["x", "f"], ["p", "q", "C", "f"]] =
    [.replaced 3 "f", .warned, .raised] := by decide

end Hexrd.Profiler
