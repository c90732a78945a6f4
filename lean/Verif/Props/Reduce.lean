import Verif.Spec.Ipf
import Mathlib.Data.List.Nodup
import Mathlib.Data.List.Perm.Basic
import Mathlib.Tactic.Linarith
import Mathlib.Tactic.Push

/-!
C137: the loop that reduces directions to a sector keeps the rows in order.
-/
namespace Hexrd.Ipf

open Matrix Hexrd.UnitCell Spec

/-! ### The bookkeeping of the loop -/

theorem select_pairs {α β : Type} (f : α → β) (p : α → Bool) (l : List α) :
    select (l.map p) (l.map f) = (l.filter p).map f := by
  unfold select
  induction l with
  | nil => rfl
  | cons a t ih =>
    simp only [List.map_cons, List.zip_cons_cons, List.filter_cons]
    cases p a <;> simp [ih]

/-- The variables of the loop as lists of numbered rows: those left and those done. -/
def pack (left done : List (Nat × Option V3)) : State := ⟨left.map (·.2), left.map (·.1), done.map (·.2), done.map (·.1)⟩

def image (S : M3) (r : Option V3) : Option V3 := r.map fun v => S *ᵥ v

noncomputable def hits (s : Sector) (S : M3) (p : Nat × Option V3) : Bool := inside s (image S p.2)

theorem round_pack (s : Sector) (S : M3) (left done : List (Nat × Option V3)) :
    round s S (pack left done)
      = pack (left.filter fun p => !hits s S p) (done ++ (left.filter (hits s S)).map fun p => (p.1, image S p.2)) := by
  unfold round
  by_cases h : left = []
  · subst h; simp [pack]
  · have he : (pack left done).copy.isEmpty = false := by
      simp [pack, h]
    rw [he]
    simp only [Bool.false_eq_true, if_false]
    have hsym : (pack left done).copy.map (fun r => r.map fun v => S *ᵥ v) = left.map fun p => image S p.2 := by
      simp only [pack, List.map_map]; rfl
    rw [hsym]
    have hmask : (left.map fun p => image S p.2).map (inside s) = left.map (hits s S) := by
      simp only [List.map_map]; rfl
    rw [hmask]
    have hnot : (left.map (hits s S)).map not = left.map fun p => !hits s S p := by
      simp only [List.map_map]; rfl
    rw [hnot]
    simp only [pack]
    rw [select_pairs, select_pairs, select_pairs (fun p : Nat × Option V3 => image S p.2), select_pairs]
    simp [List.map_map, Function.comp_def]

/-- What holds after the operators `before` for the rows `all`. -/
structure Inv (s : Sector) (all : List (Nat × Option V3)) (before : List M3) (left done : List (Nat × Option V3)) : Prop where
  perm : (left.map (·.1) ++ done.map (·.1)).Perm (all.map (·.1))
  left_mem : ∀ p ∈ left, p ∈ all ∧ ∀ T ∈ before, hits s T p = false
  done_mem : ∀ p ∈ done, ∃ r, (p.1, r) ∈ all ∧ FirstInside before s r p.2

theorem first_append {syms more : List M3} {s : Sector} {r r' : Option V3} (h : FirstInside syms s r r') :
    FirstInside (syms ++ more) s r r' := by
  obtain ⟨b, S, a, e, h1, h2, h3⟩ := h
  exact ⟨b, S, a ++ more, by rw [e]; simp, h1, h2, h3⟩

theorem inv_round {s : Sector} {all : List (Nat × Option V3)} {before : List M3} {left done : List (Nat × Option V3)}
    (h : Inv s all before left done) (S : M3) :
    Inv s all (before ++ [S]) (left.filter fun p => !hits s S p)
      (done ++ (left.filter (hits s S)).map fun p => (p.1, image S p.2)) := by
  constructor
  · refine List.Perm.trans ?_ h.perm
    rw [List.map_append, List.map_map]
    have h1 : ((left.filter fun p => !hits s S p).map (·.1) ++ (left.filter (hits s S)).map (·.1)).Perm (left.map (·.1)) := by
      rw [← List.map_append]
      refine List.Perm.map _ ?_
      exact List.perm_append_comm.trans (List.filter_append_perm (hits s S) left)
    have h2 : (fun p : Nat × Option V3 => p.1) ∘ (fun p : Nat × Option V3 => (p.1, image S p.2)) = (·.1) := rfl
    rw [h2]
    refine List.Perm.trans ?_ (h1.append_right _)
    rw [List.append_assoc]
    exact List.Perm.append_left _ List.perm_append_comm
  · intro p hp
    rw [List.mem_filter] at hp
    obtain ⟨a, b⟩ := h.left_mem p hp.1
    refine ⟨a, fun T hT => ?_⟩
    rcases List.mem_append.1 hT with hT | hT
    · exact b T hT
    · rw [List.mem_singleton] at hT; subst hT
      simpa using hp.2
  · intro p hp
    rcases List.mem_append.1 hp with hp | hp
    · obtain ⟨r, a, b⟩ := h.done_mem p hp
      exact ⟨r, a, first_append b⟩
    · rw [List.mem_map] at hp
      obtain ⟨q, hq, rfl⟩ := hp
      rw [List.mem_filter] at hq
      obtain ⟨a, b⟩ := h.left_mem q hq.1
      exact ⟨q.2, a, before, S, [], rfl, rfl, hq.2, fun T hT => b T hT⟩

theorem inv_fold {s : Sector} {all : List (Nat × Option V3)} (syms : List M3) :
    ∀ {before : List M3} {left done : List (Nat × Option V3)}, Inv s all before left done →
      ∃ left' done', syms.foldl (fun st sop => round s sop st) (pack left done) = pack left' done' ∧
        Inv s all (before ++ syms) left' done' := by
  induction syms with
  | nil => intro before left done h; exact ⟨left, done, rfl, by simpa using h⟩
  | cons S syms ih =>
    intro before left done h
    rw [List.foldl_cons, round_pack]
    obtain ⟨l, d, e, hi⟩ := ih (inv_round h S)
    exact ⟨l, d, e, by simpa using hi⟩

theorem zip_self_map (d : List (Nat × Option V3)) : (d.map (·.1)).zip (d.map (·.2)) = d := by
  induction d with
  | nil => rfl
  | cons a t ih => simp [ih]

theorem scatter_spec {α : Type} : ∀ (ps : List (Nat × α)) (l : List α), (∀ p ∈ ps, p.1 < l.length) →
    (ps.map (·.1)).Nodup → ∃ out, scatter ps l = some out ∧ out.length = l.length ∧
      (∀ p ∈ ps, out[p.1]? = some p.2) ∧ ∀ i, i ∉ ps.map (·.1) → out[i]? = l[i]? := by
  intro ps
  induction ps with
  | nil => intro l _ _; exact ⟨l, rfl, rfl, by simp, fun i _ => rfl⟩
  | cons p ps ih =>
    intro l hl hn
    rw [List.map_cons, List.nodup_cons] at hn
    have hp : p.1 < l.length := hl p (by simp)
    obtain ⟨out, e, hlen, h1, h2⟩ := ih (l.set p.1 p.2) (fun q hq => by rw [List.length_set]; exact hl q (by simp [hq])) hn.2
    refine ⟨out, ?_, by rw [hlen, List.length_set], ?_, ?_⟩
    · unfold scatter; rw [if_pos hp, e]
    · intro q hq
      rcases List.mem_cons.1 hq with rfl | hq
      · rw [h2 _ hn.1, List.getElem?_set_self hp]
      · exact h1 q hq
    · intro i hi
      rw [List.map_cons, List.mem_cons, not_or] at hi
      rw [h2 i hi.2, List.getElem?_set_ne (Ne.symm hi.1)]

theorem scatter_length {α : Type} : ∀ (ps : List (Nat × α)) (l out : List α), scatter ps l = some out → out.length = l.length := by
  intro ps
  induction ps with
  | nil => intro l out h; cases h; rfl
  | cons p ps ih =>
    intro l out h
    unfold scatter at h
    split at h
    · rw [ih _ _ h, List.length_set]
    · cases h

/-- The state after all operators. -/
theorem reduce_state (syms : List M3) (s : Sector) (rows : List V3) {ns : List (Option V3)} (hn : normalize rows = some ns) :
    ns.length = rows.length ∧ ∃ left done, Inv s ((List.range rows.length).zip ns) syms left done ∧
      reduce syms s rows = if done = [] then none else scatter done (List.replicate done.length (some 0)) := by
  have hlen : ns.length = rows.length := by
    unfold normalize at hn
    split at hn
    · cases hn; simp
    · split at hn
      · cases hn; simp
      · cases hn
  refine ⟨hlen, ?_⟩
  have hinit : (⟨ns, List.range rows.length, [], []⟩ : State) = pack ((List.range rows.length).zip ns) [] := by
    unfold pack
    rw [show (List.map (·.2) ((List.range rows.length).zip ns)) = ns from
        List.map_snd_zip (by simp [hlen]),
      show (List.map (·.1) ((List.range rows.length).zip ns)) = List.range rows.length from
        List.map_fst_zip (by simp [hlen])]
    rfl
  have h0 : Inv s ((List.range rows.length).zip ns) [] ((List.range rows.length).zip ns) [] :=
    ⟨by simp, fun p hp => ⟨hp, by simp⟩, by simp⟩
  obtain ⟨left, done, e, hi⟩ := inv_fold syms h0
  refine ⟨left, done, by simpa using hi, ?_⟩
  unfold reduce
  rw [hn]
  simp only [bind, Option.bind, hinit, e]
  simp only [pack, zip_self_map, List.length_map, List.isEmpty_iff, List.map_eq_nil_iff]

theorem mem_numbered {α : Type} {l : List α} {n i : Nat} {r : α} (hn : l.length = n) :
    (i, r) ∈ (List.range n).zip l ↔ l[i]? = some r := by
  rw [List.mem_iff_getElem?]
  constructor
  · rintro ⟨k, hk⟩
    rw [List.getElem?_zip_eq_some] at hk
    obtain ⟨h1, h2⟩ := hk
    rw [List.getElem?_eq_some_iff] at h1
    obtain ⟨h, e⟩ := h1
    simp only [List.getElem_range] at e
    subst e; exact h2
  · intro h
    refine ⟨i, ?_⟩
    rw [List.getElem?_zip_eq_some]
    have hi : i < l.length := by
      rw [List.getElem?_eq_some_iff] at h; exact h.1
    exact ⟨by rw [List.getElem?_range (by omega)], h⟩

theorem numbered_fst (n : Nat) (ns : List (Option V3)) (h : ns.length = n) : ((List.range n).zip ns).map (·.1) = List.range n :=
  List.map_fst_zip (by simp [h])

/-- C137: if every direction has an image in the sector, the result has the rows in the order of the directions, and each is
the first image of its direction that lies in the sector. -/
theorem reduce_first (syms : List M3) (s : Sector) (rows : List V3) {ns : List (Option V3)} (hn : normalize rows = some ns)
    (hne : rows ≠ []) (hr : ∀ r ∈ ns, Reducible syms s r) :
    ∃ out, reduce syms s rows = some out ∧ out.length = rows.length ∧
      ∀ (i : Nat) (r r' : Option V3), ns[i]? = some r → out[i]? = some r' → FirstInside syms s r r' := by
  obtain ⟨hlen, left, done, hi, e⟩ := reduce_state syms s rows hn
  have hleft : left = [] := by
    rw [List.eq_nil_iff_forall_not_mem]
    intro p hp
    obtain ⟨a, b⟩ := hi.left_mem p hp
    have hm := (mem_numbered hlen).1 a
    obtain ⟨S, hS, h⟩ := hr p.2 (List.mem_of_getElem? hm)
    have := b S hS
    unfold hits image at this
    rw [h] at this
    cases this
  have hperm := hi.perm
  rw [hleft, numbered_fst _ _ hlen] at hperm
  simp only [List.map_nil, List.nil_append] at hperm
  have hdl : done.length = rows.length := by simpa using hperm.length_eq
  have hd : done ≠ [] := by
    intro h; rw [h] at hdl; simp only [List.length_nil] at hdl
    exact hne (List.length_eq_zero_iff.1 hdl.symm)
  obtain ⟨out, ho, hol, h1, -⟩ := scatter_spec done (List.replicate done.length (some 0))
    (fun p hp => by
      have : p.1 ∈ done.map (·.1) := List.mem_map_of_mem hp
      rw [hperm.mem_iff, List.mem_range] at this
      simpa [hdl] using this)
    (hperm.nodup_iff.2 List.nodup_range)
  refine ⟨out, by rw [e, if_neg hd, ho], by rw [hol]; simpa using hdl, ?_⟩
  intro i r r' hr1 hr2
  have hi' : i ∈ done.map (·.1) := by
    rw [hperm.mem_iff, List.mem_range, ← hlen]
    exact (List.getElem?_eq_some_iff.1 hr1).1
  rw [List.mem_map] at hi'
  obtain ⟨p, hp, rfl⟩ := hi'
  rw [h1 p hp] at hr2
  cases hr2
  obtain ⟨r0, h3, h4⟩ := hi.done_mem p hp
  have := (mem_numbered hlen).1 h3
  rw [hr1] at this
  cases this
  exact h4

/-- C137: if a direction has no image in the sector, the reduction fails or loses rows. -/
theorem reduce_lost (syms : List M3) (s : Sector) (rows : List V3) {ns : List (Option V3)} (hn : normalize rows = some ns)
    {r : Option V3} (hr : r ∈ ns) (hr' : ¬ Reducible syms s r) {out : List (Option V3)} (h : reduce syms s rows = some out) :
    out.length < rows.length := by
  obtain ⟨hlen, left, done, hi, e⟩ := reduce_state syms s rows hn
  rw [e] at h
  split at h
  · cases h
  · have hol := scatter_length _ _ _ h
    rw [List.length_replicate] at hol
    have hperm := hi.perm
    rw [numbered_fst _ _ hlen] at hperm
    have hl := hperm.length_eq
    simp only [List.length_append, List.length_map, List.length_range] at hl
    have : left ≠ [] := by
      intro h0
      obtain ⟨i, hi1⟩ := List.mem_iff_getElem?.1 hr
      have hmem : i ∈ left.map (·.1) ++ done.map (·.1) := by
        rw [hperm.mem_iff, List.mem_range, ← hlen]
        exact (List.getElem?_eq_some_iff.1 hi1).1
      rw [h0, List.map_nil, List.nil_append, List.mem_map] at hmem
      obtain ⟨p, hp, rfl⟩ := hmem
      obtain ⟨r0, h3, h4⟩ := hi.done_mem p hp
      have := (mem_numbered hlen).1 h3
      rw [hi1] at this
      cases this
      obtain ⟨b, S, a, e1, e2, e3, -⟩ := h4
      exact hr' ⟨S, by rw [e1]; simp, by rw [← e2]; exact e3⟩
    have : 0 < left.length := List.length_pos_iff.2 this
    omega

/-- C137: no directions are refused. -/
theorem reduce_empty (syms : List M3) (s : Sector) : reduce syms s [] = none := by
  have hn : normalize [] = some [] := by unfold normalize; simp
  obtain ⟨hlen, left, done, hi, e⟩ := reduce_state syms s [] hn
  have hperm := hi.perm.length_eq
  simp at hperm
  rw [e, if_pos hperm.2]

end Hexrd.Ipf
