import Verif.Model.Picks
import Batteries.Data.List.Perm
import Mathlib.Data.List.Basic
import Mathlib.Data.List.Nodup
import Mathlib.Data.List.Induction
import Mathlib.Data.Rat.Defs

namespace Hexrd.Picks

/-! ### Numbers as strings -/

theorem numeral_append (acc : Nat) (s t : Str) : numeral acc (s ++ t) = (numeral acc s).bind fun a => numeral a t := by
  induction s generalizing acc with
  | nil => rfl
  | cons c s ih =>
    simp only [List.cons_append, numeral]
    split
    · exact ih _
    · rfl

theorem digitChar_toNat {n : Nat} (h : n < 10) : (digitChar n).toNat = 48 + n := by
  match n, h with
  | 0, _ | 1, _ | 2, _ | 3, _ | 4, _ | 5, _ | 6, _ | 7, _ | 8, _ | 9, _ => rfl

theorem decimal_digits (n : Nat) : ∀ c ∈ decimal n, 48 ≤ c.toNat ∧ c.toNat ≤ 57 := by
  induction n using Nat.strong_induction_on with
  | _ n ih =>
    intro c hc
    unfold decimal at hc
    split at hc
    · rename_i h
      rw [List.mem_singleton] at hc
      subst hc
      rw [digitChar_toNat h]; omega
    · rename_i h
      rw [List.mem_append, List.mem_singleton] at hc
      rcases hc with hc | hc
      · exact ih _ (by omega) c hc
      · subst hc
        rw [digitChar_toNat (by omega)]; omega

theorem decimal_ne_nil (n : Nat) : decimal n ≠ [] := by
  unfold decimal
  split <;> simp

theorem numeral_digit (acc : Nat) {n : Nat} (h : n < 10) : numeral acc [digitChar n] = some (10 * acc + n) := by
  have := digitChar_toNat h
  simp [numeral, this, h]
  omega

theorem numeral_decimal (n : Nat) : numeral 0 (decimal n) = some n := by
  induction n using Nat.strong_induction_on with
  | _ n ih =>
    unfold decimal
    split
    · rename_i h
      rw [numeral_digit _ h]; simp
    · rename_i h
      rw [numeral_append, ih _ (by omega), Option.bind_some, numeral_digit _ (by omega)]
      simp only [Option.some.injEq]; omega

theorem digits_decimal (n : Nat) : digits (decimal n) = some n := by
  rw [digits, if_neg (decimal_ne_nil n), numeral_decimal]

theorem parseInt_decimal (n : Nat) : parseInt (decimal n) = some (n : Int) := by
  have hd := digits_decimal n
  have hc := decimal_digits n
  match h : decimal n with
  | [] => exact absurd h (decimal_ne_nil n)
  | c :: s =>
    rw [h] at hd hc
    have := hc c (by simp)
    have h1 : c ≠ '-' := by rintro rfl; simp at this
    have h2 : c ≠ '+' := by rintro rfl; simp at this
    unfold parseInt
    split
    · rename_i h3; simp only [List.cons.injEq] at h3; exact absurd h3.1 h1
    · rename_i h3; simp only [List.cons.injEq] at h3; exact absurd h3.1 h2
    · rw [hd]; rfl

theorem parseInt_intStr (i : Int) : parseInt (intStr i) = some i := by
  unfold intStr
  split
  · rename_i h
    rw [parseInt, digits_decimal, Option.map_some, Option.some.injEq]
    omega
  · rw [parseInt_decimal]; simp only [Option.some.injEq]; omega

/-- A word: not empty, and without white space and brackets. -/
def IsWord (w : Str) : Prop := w ≠ [] ∧ ∀ c ∈ w, isSpace c = false ∧ isBracket c = false

theorem digit_plain {c : Char} (h : 48 ≤ c.toNat ∧ c.toNat ≤ 57) : isSpace c = false ∧ isBracket c = false := by
  have aux : ∀ d : Char, (d.toNat < 48 ∨ 57 < d.toNat) → c ≠ d := by
    rintro d hd rfl; omega
  constructor
  · simp only [isSpace, Bool.or_eq_false_iff, decide_eq_false_iff_not, Bool.and_eq_false_iff]
    refine ⟨⟨⟨⟨⟨⟨?_, ?_⟩, ?_⟩, ?_⟩, ?_⟩, ?_⟩, ?_⟩
    · exact aux _ (by decide)
    · exact aux _ (by decide)
    · exact aux _ (by decide)
    · exact aux _ (by decide)
    · omega
    · omega
    · right; omega
  · simp only [isBracket, Bool.or_eq_false_iff, decide_eq_false_iff_not]
    refine ⟨⟨⟨⟨⟨⟨?_, ?_⟩, ?_⟩, ?_⟩, ?_⟩, ?_⟩, ?_⟩ <;> exact aux _ (by decide)

theorem intStr_word (i : Int) : IsWord (intStr i) := by
  unfold intStr
  split
  · refine ⟨by simp, ?_⟩
    intro c hc
    rw [List.mem_cons] at hc
    rcases hc with rfl | hc
    · decide
    · exact digit_plain (decimal_digits _ c hc)
  · exact ⟨decimal_ne_nil _, fun c hc => digit_plain (decimal_digits _ c hc)⟩

/-! ### Words -/

theorem splitFrom_word (w : Str) (h : ∀ c ∈ w, isSpace c = false) (cur rest : Str) :
    splitFrom cur (w ++ rest) = splitFrom (w.reverse ++ cur) rest := by
  induction w generalizing cur with
  | nil => rfl
  | cons c w ih =>
    rw [List.cons_append, splitFrom, if_neg (by rw [h c (by simp)]; simp),
      ih (fun c hc => h c (by simp [hc]))]
    simp

/-- The words with a single blank between them. -/
def joinSpace : List Str → Str
  | [] => []
  | [x] => x
  | x :: xs => x ++ [' '] ++ joinSpace xs

theorem split_joinSpace (ws : List Str) (h : ∀ w ∈ ws, IsWord w) : split (joinSpace ws) = ws := by
  induction ws with
  | nil => rfl
  | cons w ws ih =>
    have hw := h w (by simp)
    have hs : ∀ c ∈ w, isSpace c = false := fun c hc => (hw.2 c hc).1
    have hr : w.reverse ++ ([] : Str) ≠ [] := by simp [hw.1]
    cases ws with
    | nil =>
      rw [joinSpace, split]
      have := splitFrom_word w hs [] []
      rw [List.append_nil] at this
      rw [this, splitFrom, if_neg hr]
      simp
    | cons v ws =>
      have ih := ih (fun x hx => h x (by simp [List.mem_cons.1 hx]))
      rw [joinSpace, split, List.append_assoc, splitFrom_word w hs, List.singleton_append, splitFrom,
        if_pos (by decide), if_neg hr]
      · rw [← split, ih]; simp
      · simp

theorem filter_word {w : Str} (h : IsWord w) : w.filter (fun c => !isBracket c) = w := by
  rw [List.filter_eq_self]
  intro c hc
  simp [(h.2 c hc).2]

theorem filter_joinComma (ws : List Str) (h : ∀ w ∈ ws, IsWord w) :
    (joinComma ws).filter (fun c => !isBracket c) = joinSpace ws := by
  induction ws with
  | nil => rfl
  | cons w ws ih =>
    cases ws with
    | nil => rw [joinComma, joinSpace]; exact filter_word (h w (by simp))
    | cons v ws =>
      rw [joinComma, joinSpace, List.filter_append, List.filter_append, filter_word (h w (by simp)),
        ih (fun x hx => h x (by simp [List.mem_cons.1 hx]))]
      · rfl
      · simp
      · simp

theorem hklToStr_eq (l : List Int) : hklToStr l = joinSpace (l.map intStr) := by
  unfold hklToStr listStr
  rw [List.filter_cons, if_neg (by decide), List.filter_append,
    filter_joinComma _ (by intro w hw; obtain ⟨i, -, rfl⟩ := List.mem_map.1 hw; exact intStr_word i)]
  rw [show ([']'] : Str).filter (fun c => !isBracket c) = [] by decide, List.append_nil]

theorem mapM_of_forall {α β : Type} (f : α → Option β) (g : α → β) (l : List α) (h : ∀ a ∈ l, f a = some (g a)) :
    l.mapM f = some (l.map g) := by
  induction l with
  | nil => rfl
  | cons a l ih =>
    rw [List.mapM_cons, h a (by simp), ih (fun x hx => h x (by simp [hx]))]
    rfl

theorem mapM_cons_some {α β : Type} {f : α → Option β} {a : α} {l : List α} {out : List β}
    (h : (a :: l).mapM f = some out) : ∃ b bs, f a = some b ∧ l.mapM f = some bs ∧ out = b :: bs := by
  rw [List.mapM_cons] at h
  simp only [Option.bind_eq_bind, Option.bind_eq_some_iff, Option.pure_def, Option.some.injEq] at h
  obtain ⟨b, hb, bs, hbs, rfl⟩ := h
  exact ⟨b, bs, hb, hbs, rfl⟩

theorem strToHkl_hklToStr (l : List Int) : strToHkl (hklToStr l) = some l := by
  unfold strToHkl
  rw [hklToStr_eq, split_joinSpace _ (by intro w hw; obtain ⟨i, -, rfl⟩ := List.mem_map.1 hw; exact intStr_word i)]
  induction l with
  | nil => rfl
  | cons i l ih => rw [List.map_cons, List.mapM_cons, parseInt_intStr, ih]; rfl

theorem hklToStr_inj {a b : List Int} (h : hklToStr a = hklToStr b) : a = b := by
  have := congrArg strToHkl h
  rwa [strToHkl_hklToStr, strToHkl_hklToStr, Option.some.injEq] at this

/-! ### Dictionaries -/

section
variable {β : Type}

theorem dictGet_nil (k : Str) : dictGet ([] : List (Str × β)) k = none := rfl

theorem dictGet_cons (p : Str × β) (d : List (Str × β)) (k : Str) :
    dictGet (p :: d) k = if p.1 = k then some p.2 else dictGet d k := by
  unfold dictGet
  rw [List.find?_cons]
  by_cases h : p.1 = k <;> simp [h]

theorem dictGet_dictSet (d : List (Str × β)) (k : Str) (v : β) (q : Str) :
    dictGet (dictSet d k v) q = if k = q then some v else dictGet d q := by
  induction d with
  | nil => rw [dictSet, dictGet_cons]
  | cons p d ih =>
    obtain ⟨a, b⟩ := p
    rw [dictSet]
    split
    · rename_i h
      subst h
      rw [dictGet_cons, dictGet_cons]
      split <;> rfl
    · rename_i h
      rw [dictGet_cons, dictGet_cons, ih]
      by_cases h1 : a = q
      · subst h1; simp [Ne.symm h]
      · simp [h1]

theorem dictSet_keys (d : List (Str × β)) (k : Str) (v : β) :
    (dictSet d k v).map Prod.fst = if k ∈ d.map Prod.fst then d.map Prod.fst else d.map Prod.fst ++ [k] := by
  induction d with
  | nil => rfl
  | cons p d ih =>
    obtain ⟨a, b⟩ := p
    rw [dictSet]
    by_cases h : a = k
    · subst h; simp
    · rw [if_neg h, List.map_cons, ih]
      by_cases h2 : k ∈ d.map Prod.fst
      · rw [if_pos h2, if_pos (by simp [h2])]; rfl
      · rw [if_neg h2, if_neg]
        · rfl
        · simp only [List.map_cons, List.mem_cons, not_or]
          exact ⟨fun e => h e.symm, h2⟩

theorem dictSet_new {d : List (Str × β)} {k : Str} (h : k ∉ d.map Prod.fst) (v : β) :
    dictSet d k v = d ++ [(k, v)] := by
  induction d with
  | nil => rfl
  | cons p d ih =>
    obtain ⟨a, b⟩ := p
    simp only [List.map_cons, List.mem_cons, not_or] at h
    rw [dictSet, if_neg (fun e => h.1 e.symm), ih h.2]; rfl

theorem dictSet_nodup {d : List (Str × β)} (h : (d.map Prod.fst).Nodup) (k : Str) (v : β) :
    ((dictSet d k v).map Prod.fst).Nodup := by
  rw [dictSet_keys]
  split
  · exact h
  · rename_i h2
    rw [List.nodup_append]
    refine ⟨h, by simp, ?_⟩
    intro a ha b hb
    rw [List.mem_singleton] at hb
    subst hb
    rintro rfl
    exact h2 ha

theorem dictGet_of_mem {d : List (Str × β)} (h : (d.map Prod.fst).Nodup) {k : Str} {v : β} (hm : (k, v) ∈ d) :
    dictGet d k = some v := by
  induction d with
  | nil => simp at hm
  | cons p d ih =>
    rw [List.map_cons, List.nodup_cons] at h
    rw [dictGet_cons]
    rcases List.mem_cons.1 hm with rfl | hm
    · simp
    · rw [if_neg, ih h.2 hm]
      intro e
      exact h.1 (e ▸ List.mem_map_of_mem (f := Prod.fst) hm)

theorem dictGet_none {d : List (Str × β)} {k : Str} : dictGet d k = none ↔ k ∉ d.map Prod.fst := by
  induction d with
  | nil => simp [dictGet]
  | cons p d ih =>
    rw [dictGet_cons]
    by_cases h : p.1 = k
    · simp [h]
    · rw [if_neg h, ih, List.map_cons, List.mem_cons, not_or]
      exact ⟨fun e => ⟨fun e2 => h e2.symm, e⟩, fun e => e.2⟩

theorem mem_of_dictGet {d : List (Str × β)} {k : Str} {v : β} (h : dictGet d k = some v) : (k, v) ∈ d := by
  induction d with
  | nil => simp [dictGet] at h
  | cons p d ih =>
    rw [dictGet_cons] at h
    by_cases h1 : p.1 = k
    · rw [if_pos h1, Option.some.injEq] at h
      subst h; subst h1; simp
    · rw [if_neg h1] at h
      exact List.mem_cons_of_mem _ (ih h)

/-- Filling a dictionary from left to right: the last value of a key counts. -/
theorem dictGet_fold (l : List (Str × β)) (d : List (Str × β)) (k : Str) :
    dictGet (l.foldl (fun acc q => dictSet acc q.1 q.2) d) k =
      (((l.filter fun q => q.1 = k).map Prod.snd).getLast?).or (dictGet d k) := by
  induction l generalizing d with
  | nil => simp
  | cons q l ih =>
    rw [List.foldl_cons, ih, dictGet_dictSet, List.filter_cons]
    by_cases h : q.1 = k
    · simp only [h, decide_true, if_true, List.map_cons]
      cases hl : ((l.filter fun q => decide (q.1 = k)).map Prod.snd) with
      | nil => simp
      | cons a t => rw [List.getLast?_cons_cons, List.getLast?_cons]; rfl
    · simp [h]

theorem fold_new (l : List (Str × β)) (d : List (Str × β)) (h : ((d ++ l).map Prod.fst).Nodup) :
    l.foldl (fun acc q => dictSet acc q.1 q.2) d = d ++ l := by
  induction l generalizing d with
  | nil => simp
  | cons q l ih =>
    rw [List.foldl_cons, dictSet_new, ih]
    · simp
    · simpa using h
    · intro hm
      rw [List.map_append, List.map_cons, List.nodup_append] at h
      exact h.2.2 _ hm q.1 (by simp) rfl

theorem fold_keys (l : List (Str × β)) (d : List (Str × β)) (k : Str) :
    k ∈ (l.foldl (fun acc q => dictSet acc q.1 q.2) d).map Prod.fst ↔
      k ∈ d.map Prod.fst ∨ k ∈ l.map Prod.fst := by
  induction l generalizing d with
  | nil => simp
  | cons q l ih =>
    rw [List.foldl_cons, ih, dictSet_keys]
    split
    · rename_i h
      simp only [List.map_cons, List.mem_cons]
      constructor
      · rintro (h1 | h1)
        · exact Or.inl h1
        · exact Or.inr (Or.inr h1)
      · rintro (h1 | rfl | h1)
        · exact Or.inl h1
        · exact Or.inl h
        · exact Or.inr h1
    · simp only [List.map_cons, List.mem_append, List.mem_cons, List.not_mem_nil, or_false]
      tauto

/-! ### Lists under keys -/

/-- The values under a key, in order. -/
def under (l : List (Str × β)) (k : Str) : List β := (l.filter fun q => q.1 = k).map Prod.snd

theorem getD_fold (l : List (Str × β)) (d : List (Str × List β)) (k : Str) :
    (dictGet (l.foldl (fun acc q => appendTo acc q.1 q.2) d) k).getD [] = (dictGet d k).getD [] ++ under l k := by
  induction l generalizing d with
  | nil => simp [under]
  | cons q l ih =>
    rw [List.foldl_cons, ih, appendTo, dictGet_dictSet]
    by_cases h : q.1 = k
    · simp [h, under]
    · simp [h, under]

theorem none_fold (l : List (Str × β)) (d : List (Str × List β)) (k : Str) :
    dictGet (l.foldl (fun acc q => appendTo acc q.1 q.2) d) k = none ↔ dictGet d k = none ∧ under l k = [] := by
  induction l generalizing d with
  | nil => simp [under]
  | cons q l ih =>
    rw [List.foldl_cons, ih, appendTo, dictGet_dictSet]
    by_cases h : q.1 = k
    · simp [h, under]
    · simp [h, under]

theorem append_nodup (l : List (Str × β)) (d : List (Str × List β)) (h : (d.map Prod.fst).Nodup) :
    ((l.foldl (fun acc q => appendTo acc q.1 q.2) d).map Prod.fst).Nodup := by
  induction l generalizing d with
  | nil => exact h
  | cons q l ih => exact ih _ (dictSet_nodup h _ _)

/-- A run of values under one new key. -/
theorem append_run (k : Str) (xs : List β) (d : List (Str × List β)) (h : k ∉ d.map Prod.fst) (ys : List β) :
    (xs.map fun x => (k, x)).foldl (fun acc q => appendTo acc q.1 q.2) (d ++ [(k, ys)]) = d ++ [(k, ys ++ xs)] := by
  induction xs generalizing ys with
  | nil => simp
  | cons x xs ih =>
    have e : appendTo (d ++ [(k, ys)]) k x = d ++ [(k, ys ++ [x])] := by
      have h1 : ∀ d : List (Str × List β), k ∉ d.map Prod.fst → dictGet (d ++ [(k, ys)]) k = some ys := by
        intro d
        induction d with
        | nil => intro _; simp [dictGet]
        | cons p d ih =>
          intro hk
          simp only [List.map_cons, List.mem_cons, not_or] at hk
          rw [List.cons_append, dictGet_cons, if_neg (fun e => hk.1 e.symm), ih hk.2]
      have h2 : ∀ (d : List (Str × List β)) (v : List β), k ∉ d.map Prod.fst →
          dictSet (d ++ [(k, ys)]) k v = d ++ [(k, v)] := by
        intro d v
        induction d with
        | nil => intro _; simp [dictSet]
        | cons p d ih =>
          intro hk
          simp only [List.map_cons, List.mem_cons, not_or] at hk
          obtain ⟨a, b⟩ := p
          rw [List.cons_append, dictSet, if_neg (fun e => hk.1 e.symm), ih hk.2]; rfl
      rw [appendTo, h1 d h, h2 d _ h]; rfl
    rw [List.map_cons, List.foldl_cons, e, ih]
    simp

theorem append_groups (gs : List (Str × List β)) (d : List (Str × List β)) (hne : ∀ g ∈ gs, g.2 ≠ [])
    (h : ((d ++ gs).map Prod.fst).Nodup) :
    (gs.flatMap fun g => g.2.map fun x => (g.1, x)).foldl (fun acc q => appendTo acc q.1 q.2) d = d ++ gs := by
  induction gs generalizing d with
  | nil => simp
  | cons g gs ih =>
    obtain ⟨k, xs⟩ := g
    have hk : k ∉ d.map Prod.fst := by
      intro hm
      rw [List.map_append, List.map_cons, List.nodup_append] at h
      exact h.2.2 _ hm k (by simp) rfl
    cases xs with
    | nil => exact absurd rfl (hne (k, []) (by simp))
    | cons x xs =>
      rw [List.flatMap_cons, List.foldl_append, List.map_cons, List.foldl_cons]
      have e : appendTo d k x = d ++ [(k, [x])] := by
        rw [appendTo, dictGet_none.2 hk, dictSet_new hk]; rfl
      rw [e, append_run k xs d hk, ih]
      · simp
      · exact fun g hg => hne g (by simp [hg])
      · simpa using h

/-- All values with their keys. -/
def items (d : List (Str × List β)) : List (Str × β) := d.flatMap fun g => g.2.map fun x => (g.1, x)

theorem items_set_perm (d : List (Str × List β)) (k : Str) (x : β) :
    (items (appendTo d k x)).Perm (items d ++ [(k, x)]) := by
  induction d with
  | nil => simp [items, appendTo, dictSet, dictGet]
  | cons p d ih =>
    obtain ⟨a, ys⟩ := p
    unfold appendTo at ih ⊢
    rw [dictSet, dictGet_cons]
    by_cases h : a = k
    · subst h
      simp only [if_true, Option.getD_some, items, List.flatMap_cons, List.map_append, List.map_cons, List.map_nil,
        List.append_assoc]
      exact List.Perm.append_left _ List.perm_append_comm
    · simp only [if_neg h, items, List.flatMap_cons, List.append_assoc]
      exact List.Perm.append_left _ ih

theorem items_fold_perm (l : List (Str × β)) (d : List (Str × List β)) :
    (items (l.foldl (fun acc q => appendTo acc q.1 q.2) d)).Perm (items d ++ l) := by
  induction l generalizing d with
  | nil => simp
  | cons q l ih =>
    rw [List.foldl_cons]
    refine (ih _).trans ?_
    refine (List.Perm.append_right _ (items_set_perm d q.1 q.2)).trans ?_
    simp

theorem append_nonempty (l : List (Str × β)) (d : List (Str × List β)) (h : ∀ g ∈ d, g.2 ≠ []) :
    ∀ g ∈ l.foldl (fun acc q => appendTo acc q.1 q.2) d, g.2 ≠ [] := by
  induction l generalizing d with
  | nil => exact h
  | cons q l ih =>
    refine ih _ ?_
    have : ∀ (d : List (Str × List β)) (k : Str) (v : List β), v ≠ [] → (∀ g ∈ d, g.2 ≠ []) →
        ∀ g ∈ dictSet d k v, g.2 ≠ [] := by
      intro d k v hv
      induction d with
      | nil => intro _ g hg; simp [dictSet] at hg; subst hg; exact hv
      | cons p d ih =>
        intro hd g hg
        obtain ⟨a, b⟩ := p
        rw [dictSet] at hg
        split at hg
        · rcases List.mem_cons.1 hg with rfl | hg
          · exact hv
          · exact hd g (by simp [hg])
        · rcases List.mem_cons.1 hg with rfl | hg
          · exact hd _ (by simp)
          · exact ih (fun g hg => hd g (by simp [hg])) g hg
    exact this d _ _ (by simp) h
end

theorem toInt_intCast (i : Int) : toInt (i : Rat) = i := by
  simp [toInt]

end Hexrd.Picks
