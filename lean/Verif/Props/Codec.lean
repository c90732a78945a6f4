import Verif.Model.Codec
import Mathlib.Tactic.Linarith
import Mathlib.Data.List.Basic

/-!
# Arrays in JSON (C44) and dictionaries in HDF5 (C43)
-/
namespace Hexrd.Codec

/-! ## C44 -/

namespace Spec

/-- The bytes contain no active escape: every backslash is followed by a byte other than `u` and `U`, and that byte
belongs to it; the last byte may be a backslash. -/
inductive NoEscape : List Nat → Prop
  | nil : NoEscape []
  | last (c : Nat) : NoEscape [c]
  | plain (c : Nat) (l : List Nat) (h : c ≠ 92) (hl : NoEscape l) : NoEscape (c :: l)
  | pair (d : Nat) (l : List Nat) (h1 : d ≠ 117) (h2 : d ≠ 85) (hl : NoEscape l) : NoEscape (92 :: d :: l)

/-- Bytes are below 256. -/
def IsBytes (l : List Nat) : Prop := ∀ b ∈ l, b < 256

end Spec

open Spec

theorem decode_plain {l : List Nat} (h : NoEscape l) : decodeRaw l = some l := by
  induction h with
  | nil => simp [decodeRaw]
  | last c => simp [decodeRaw]
  | plain c l hc hl ih =>
    cases l with
    | nil => simp [decodeRaw]
    | cons d l => rw [decodeRaw, if_pos hc, ih]; rfl
  | pair d l h1 h2 hl ih => rw [decodeRaw, if_neg (by simp), if_neg h1, if_neg h2, ih]; rfl

theorem encode_bytes {l : List Nat} (h : IsBytes l) : encodeRaw l = l := by
  induction l with
  | nil => rfl
  | cons a l ih =>
    rw [encodeRaw, List.flatMap_cons, encodeChar, if_pos (h a (by simp))]
    have := ih fun b hb => h b (by simp [hb])
    rw [encodeRaw] at this
    rw [this]; rfl

/-- C44: data without active escapes comes back unchanged, whatever other bytes it contains. -/
theorem json_roundtrip_partial {l : List Nat} (hb : IsBytes l) (h : NoEscape l) : jsonBytes l = some l := by
  rw [jsonBytes, decode_plain h, Option.map_some, encode_bytes hb]

/-- C44, in particular: data without the byte 92. -/
theorem json_no_backslash {l : List Nat} (hb : IsBytes l) (h : 92 ∉ l) : jsonBytes l = some l := by
  apply json_roundtrip_partial hb
  clear hb
  induction l with
  | nil => exact .nil
  | cons a l ih => exact .plain a l (fun e => h (by simp [e])) (ih fun hm => h (by simp [hm]))

/-- C44 fails: the bytes `\\u0041` come back as the single byte `A`, and `\\u01AB` with lower-case digits. -/
theorem json_escape_lost : jsonBytes [92, 117, 48, 48, 52, 49] = some [65] ∧
    jsonBytes [92, 117, 48, 49, 65, 66] = some [92, 117, 48, 49, 97, 98] := by
  constructor <;> simp [jsonBytes, decodeRaw, hexNum, hexVal, encodeRaw, encodeChar, hexDigits, hexDigit]

/-- C44 fails: the bytes `\\u` without digits after them cannot be encoded at all. -/
theorem json_escape_fails : jsonBytes [92, 117] = none ∧ jsonBytes [92, 117, 1, 2, 3, 4] = none := by
  constructor <;> simp [jsonBytes, decodeRaw, hexNum, hexVal]

/-- Where the round trip fails there was an active escape: data that is not `NoEscape` has a position at which the
decoder met a backslash and `u` or `U`. -/
theorem escape_inside {l : List Nat} (h : ¬ NoEscape l) :
    ∃ pre d post, l = pre ++ 92 :: d :: post ∧ (d = 117 ∨ d = 85) ∧ NoEscape pre := by
  induction hn : l.length using Nat.strong_induction_on generalizing l with
  | _ n ih =>
    match l, h with
    | [], h => exact absurd .nil h
    | [c], h => exact absurd (.last c) h
    | c :: d :: l, h =>
      by_cases hc : c = 92
      · subst hc
        by_cases h1 : d = 117
        · exact ⟨[], d, l, rfl, Or.inl h1, .nil⟩
        by_cases h2 : d = 85
        · exact ⟨[], d, l, rfl, Or.inr h2, .nil⟩
        obtain ⟨pre, e, post, h3, h4, h5⟩ := ih l.length (by rw [← hn]; simp; omega)
          (l := l) (fun hl => h (.pair d l h1 h2 hl)) rfl
        exact ⟨92 :: d :: pre, e, post, by rw [h3]; rfl, h4, .pair d pre h1 h2 h5⟩
      · obtain ⟨pre, e, post, h3, h4, h5⟩ := ih (d :: l).length (by rw [← hn]; simp)
          (l := d :: l) (fun hl => h (.plain c _ hc hl)) rfl
        exact ⟨c :: pre, e, post, by rw [h3]; rfl, h4, .plain c pre hc h5⟩

/-- Non-vacuity: the start of an `.npy` file. -/
example : NoEscape [147, 78, 85, 77, 80, 89, 92, 92, 117] :=
  .plain _ _ (by decide) <| .plain _ _ (by decide) <| .plain _ _ (by decide) <| .plain _ _ (by decide) <|
    .plain _ _ (by decide) <| .plain _ _ (by decide) <| .pair _ _ (by decide) (by decide) <| .last _

/-! ## C43 -/

variable {K : Type}

/-- A value that HDF5 storage keeps: a number, a string, or an array with a shape other than `()` and `(1,)` and as many
entries as the shape says. -/
def Kept : Val → Prop
  | .none => False
  | .num _ => True
  | .str _ => True
  | .arr sh data => sh ≠ [] ∧ sh ≠ [1] ∧ data.length = sh.foldl (· * ·) 1
  | .strArr _ => False

def AllKept : Dict K Val → Prop
  | .nil => True
  | .leaf _ v rest => Kept v ∧ AllKept rest
  | .sub _ d rest => AllKept d ∧ AllKept rest

theorem load_store {v : Val} (h : Kept v) : ∃ x, store v = some x ∧ load x = v := by
  cases v with
  | none => exact absurd h id
  | num x => exact ⟨_, rfl, rfl⟩
  | str s => exact ⟨_, rfl, rfl⟩
  | strArr s => exact absurd h id
  | arr sh data =>
    obtain ⟨h1, h2, _⟩ := h
    cases sh with
    | nil => exact absurd rfl h1
    | cons a sh =>
      refine ⟨.arr (a :: sh) data, rfl, ?_⟩
      unfold load
      split
      · rename_i h; cases h
      · rename_i h; cases h; exact absurd rfl h2
      · rename_i h; cases h; rfl

/-- C43: a nested dictionary of numbers, strings and arrays of other shapes than `()` and `(1,)` is read back as
written, at any nesting. -/
theorem h5_roundtrip_partial {d : Dict K Val} (h : AllKept d) : unwrapToDict (unwrapToH5 d) = d := by
  induction d with
  | nil => rfl
  | leaf k v rest ih =>
    obtain ⟨x, hx, hl⟩ := load_store h.1
    rw [unwrapToH5, hx]
    simp only [unwrapToDict, hl, ih h.2]
  | sub k d rest ih1 ih2 => rw [unwrapToH5, unwrapToDict, ih1 h.1, ih2 h.2]

/-- C43 fails for an array with one element: it is read as a number. -/
theorem h5_single_element (k : K) (x : Int) :
    unwrapToDict (unwrapToH5 (.leaf k (.arr [1] [x]) .nil)) = .leaf k (.num x) .nil := rfl

/-- C43 fails for an array without dimensions: it is read as a number. -/
theorem h5_zero_dim (k : K) (x : Int) :
    unwrapToDict (unwrapToH5 (.leaf k (.arr [] [x]) .nil)) = .leaf k (.num x) .nil := rfl

/-- C43 fails for `None`: the key is gone. -/
theorem h5_none_dropped (k : K) : unwrapToDict (unwrapToH5 (.leaf k .none .nil)) = .nil := rfl

/-- C43 fails for arrays of strings: they are read as one string. -/
theorem h5_string_array (k : K) (s : List Nat) :
    ∃ t, unwrapToDict (unwrapToH5 (.leaf k (.strArr s) .nil)) = .leaf k (.str t) .nil := ⟨_, rfl⟩

theorem set_self (h : Heap K) (o : Nat) (l : List (K × Item)) : h.set o l o = l := by simp [Heap.set]

theorem set_ne (h : Heap K) {o o' : Nat} (l : List (K × Item)) (hne : o' ≠ o) : h.set o l o' = h o' := by
  simp [Heap.set, hne]

theorem set_prefix (h : Heap K) (o x : Nat) : h.set o (h o).dropLast x <+: h x := by
  by_cases hx : x = o
  · subst hx; rw [set_self]; exact List.dropLast_prefix _
  · rw [set_ne _ _ hx]; exact List.prefix_rfl

/-- Writing only removes entries from the end of dictionaries, and leaves the one passed empty. -/
theorem popAll_spec (fuel : Nat) : ∀ (h h' : Heap K) (o : Nat) (g : Dict K Data), popAll fuel h o = some (h', g) →
    (∀ x, h' x <+: h x) ∧ h' o = [] := by
  induction fuel with
  | zero => intro h h' o g hp; cases hp
  | succ fuel ih =>
    intro h h' o g hp
    rw [popAll] at hp
    split at hp
    · rename_i hl
      cases hp
      exact ⟨fun _ => List.prefix_rfl, List.getLast?_eq_none_iff.1 hl⟩
    · rename_i k v hl
      rcases hr : popAll fuel (h.set o (h o).dropLast) o with _ | ⟨h1, g1⟩
      · rw [hr] at hp; cases hp
      · rw [hr] at hp
        obtain ⟨h2, h3⟩ := ih _ _ _ _ hr
        simp only [Option.bind_eq_bind, Option.bind_some] at hp
        split at hp <;> cases hp <;> exact ⟨fun x => (h2 x).trans (set_prefix h o x), h3⟩
    · rename_i k j hl
      rcases hr : popAll fuel (h.set o (h o).dropLast) j with _ | ⟨h1, g1⟩
      · rw [hr] at hp; cases hp
      · rcases hr2 : popAll fuel h1 o with _ | ⟨h2, g2⟩
        · rw [hr] at hp; simp only [Option.bind_eq_bind, Option.bind_some, hr2] at hp; cases hp
        · rw [hr] at hp; simp only [Option.bind_eq_bind, Option.bind_some, hr2] at hp; cases hp
          obtain ⟨a1, a2⟩ := ih _ _ _ _ hr
          obtain ⟨b1, b2⟩ := ih _ _ _ _ hr2
          exact ⟨fun x => (b1 x).trans ((a1 x).trans (set_prefix h o x)), b2⟩

theorem mem_dropLast_or {α : Type} {l : List α} {a b : α} (h : l.getLast? = some b) (hm : a ∈ l) :
    a ∈ l.dropLast ∨ a = b := by
  rw [List.getLast?_eq_some_iff] at h
  obtain ⟨ys, rfl⟩ := h
  simpa using hm

theorem mem_set {h : Heap K} {o x : Nat} {a b : K × Item} (hl : (h o).getLast? = some b) (hm : a ∈ h x) :
    a ∈ h.set o (h o).dropLast x ∨ a = b := by
  by_cases hx : x = o
  · subst hx
    rw [set_self]
    exact mem_dropLast_or hl hm
  · rw [set_ne _ _ hx]; exact Or.inl hm

/-- A reference that is removed from any dictionary leads to an emptied one. -/
theorem removed_emptied (fuel : Nat) : ∀ (h h' : Heap K) (o : Nat) (g : Dict K Data), popAll fuel h o = some (h', g) →
    ∀ x k j, (k, Item.ref j) ∈ h x → (k, Item.ref j) ∈ h' x ∨ h' j = [] := by
  induction fuel with
  | zero => intro h h' o g hp; cases hp
  | succ fuel ih =>
    intro h h' o g hp x k' j' hm
    rw [popAll] at hp
    split at hp
    · cases hp; exact Or.inl hm
    · rename_i k v hl
      rcases hr : popAll fuel (h.set o (h o).dropLast) o with _ | ⟨h1, g1⟩
      · rw [hr] at hp; cases hp
      · rw [hr] at hp
        have hh : h1 = h' := by
          simp only [Option.bind_eq_bind, Option.bind_some] at hp
          split at hp <;> cases hp <;> rfl
        subst hh
        rcases mem_set hl hm with hm | hm
        · exact ih _ _ _ _ hr x k' j' hm
        · cases hm
    · rename_i k j hl
      rcases hr : popAll fuel (h.set o (h o).dropLast) j with _ | ⟨h1, g1⟩
      · rw [hr] at hp; cases hp
      · rcases hr2 : popAll fuel h1 o with _ | ⟨h2, g2⟩
        · rw [hr] at hp; simp only [Option.bind_eq_bind, Option.bind_some, hr2] at hp; cases hp
        · rw [hr] at hp; simp only [Option.bind_eq_bind, Option.bind_some, hr2] at hp; cases hp
          have hpre := (popAll_spec _ _ _ _ _ hr2).1
          have hempty : ∀ x, h1 x = [] → h' x = [] := fun x hx => List.prefix_nil.1 (hx ▸ hpre x)
          rcases mem_set hl hm with hm | hm
          · rcases ih _ _ _ _ hr x k' j' hm with hm | hm
            · exact ih _ _ _ _ hr2 x k' j' hm
            · exact Or.inr (hempty _ hm)
          · cases hm
            exact Or.inr (hempty _ (popAll_spec _ _ _ _ _ hr).2)

/-- C43 fails: writing empties the dictionary passed and every dictionary nested in it. -/
theorem h5_emptied {fuel : Nat} {h h' : Heap K} {o : Nat} {g : Dict K Data} (hp : popAll fuel h o = some (h', g)) :
    h' o = [] ∧ ∀ k j, (k, Item.ref j) ∈ h o → h' j = [] := by
  have h0 := (popAll_spec _ _ _ _ _ hp).2
  refine ⟨h0, fun k j hm => ?_⟩
  rcases removed_emptied _ _ _ _ _ hp o k j hm with h1 | h1
  · rw [h0] at h1; cases h1
  · exact h1

/-- C43 fails for the frame-cache writer (imageseries/save.py:434), which passes a shallow copy: the metadata's nested
dictionaries are emptied all the same. -/
theorem h5_copy_emptied {fuel : Nat} {h h' : Heap K} {o c : Nat} {g : Dict K Data}
    (hp : popAll fuel (h.copy o c) c = some (h', g)) {k : K} {j : Nat} (hm : (k, Item.ref j) ∈ h o) : h' j = [] :=
  (h5_emptied hp).2 k j (by rw [Heap.copy, set_self]; exact hm)

/-- Non-vacuity: metadata 0 with the nested dictionary 1, copied to 2; afterwards 0 still refers to 1, which is empty. -/
example : let h : Heap Nat := fun o => if o = 0 then [(7, .ref 1)] else if o = 1 then [(8, .val (.num 3))] else []
    ∃ h' g, popAll 4 (h.copy 0 2) 2 = some (h', g) ∧ h' 0 = [(7, .ref 1)] ∧ h' 1 = [] := ⟨_, _, rfl, rfl, rfl⟩

/-- Non-vacuity: a number and an array in a nested dictionary. -/
example : AllKept (Dict.leaf 0 (.num 3) (.sub 1 (.leaf 2 (.arr [2, 2] [1, 2, 3, 4]) .nil) .nil)) := by
  simp [AllKept, Kept]

end Hexrd.Codec
