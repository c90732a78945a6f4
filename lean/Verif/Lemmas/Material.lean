import Verif.Model.Material
import Verif.Lemmas.PlaneData

/-! Lemmas on the mapping of exclusions to a new reflection list. -/
namespace Hexrd.PlaneData
variable {K : Type} [LinearOrder K]

theorem assign_none {A B : Type} [DecidableEq B] (val : A → Bool) (l : List (A × B)) (e : B → Bool) (k : B)
    (h : ∀ p ∈ l, p.2 ≠ k) : l.foldl (fun e p => fun k => if k = p.2 then val p.1 else e k) e k = e k := by
  induction l generalizing e with
  | nil => rfl
  | cons p l ih =>
    rw [List.foldl_cons, ih _ fun q hq => h q (List.mem_cons_of_mem _ hq)]
    exact if_neg fun e => h p List.mem_cons_self e.symm

theorem assign_some {A B : Type} [DecidableEq B] (val : A → Bool) (l : List (A × B)) (e : B → Bool) (k : B)
    (v : Bool) (hex : ∃ p ∈ l, p.2 = k) (hall : ∀ p ∈ l, p.2 = k → val p.1 = v) :
    l.foldl (fun e p => fun k => if k = p.2 then val p.1 else e k) e k = v := by
  induction l generalizing e with
  | nil => obtain ⟨p, hp, _⟩ := hex; cases hp
  | cons p l ih =>
    rw [List.foldl_cons]
    by_cases h : ∃ q ∈ l, q.2 = k
    · exact ih _ h fun q hq => hall q (List.mem_cons_of_mem _ hq)
    · rw [assign_none val l _ k fun q hq e => h ⟨q, hq, e⟩]
      obtain ⟨q, hq, e⟩ := hex
      rcases List.mem_cons.1 hq with rfl | hq
      · rw [if_pos e.symm]; exact hall _ List.mem_cons_self e
      · exact absurd ⟨q, hq, e⟩ h

theorem isFirst_of_inj {n : Nat} {H : Type} [DecidableEq H] (a : Fin n → H) (ha : Function.Injective a) (i : Fin n) :
    isFirst a i = true := by
  unfold isFirst
  rw [List.all_eq_true]
  intro k _
  by_cases h : a k = a i
  · have := ha h; subst this; simp
  · simp [h]

omit [LinearOrder K] in
theorem mem_mapHkls {n m : Nat} (old : PD K n) (new : PD K m)
    (ho : Function.Injective fun i => (data old i).hkl) (hn : Function.Injective fun j => (data new j).hkl)
    (p : Fin n × Fin m) : p ∈ mapHkls old new ↔ (data old p.1).hkl = (data new p.2).hkl := by
  unfold mapHkls
  simp only [List.mem_flatMap, List.mem_finRange, true_and, List.mem_map, List.mem_filter,
    isFirst_of_inj _ ho, isFirst_of_inj _ hn, Bool.and_true, decide_eq_true_eq]
  constructor
  · rintro ⟨i, j, h, rfl⟩; exact h
  · intro h; exact ⟨p.1, p.2, h, rfl⟩

theorem mapExclusions_same {n m : Nat} (old : PD K n) (new : PD K m)
    (ho : Function.Injective fun i => (data old i).hkl) (hn : Function.Injective fun j => (data new j).hkl)
    (i : Fin n) (j : Fin m) (h : (data old i).hkl = (data new j).hkl) :
    mapExclusions old new j = getExclusions old i := by
  refine assign_some (getExclusions old) _ _ j _ ⟨(i, j), (mem_mapHkls old new ho hn _).2 h, rfl⟩ ?_
  intro p hp hj
  have h1 := (mem_mapHkls old new ho hn p).1 hp
  rw [hj, ← h] at h1
  have : p.1 = i := ho h1
  rw [this]

theorem mapExclusions_new {n m : Nat} (old : PD K n) (new : PD K m)
    (ho : Function.Injective fun i => (data old i).hkl) (hn : Function.Injective fun j => (data new j).hkl)
    (j : Fin m) (h : ∀ i, (data old i).hkl ≠ (data new j).hkl) : mapExclusions old new j = true := by
  refine assign_none (getExclusions old) _ _ j ?_
  intro p hp hj
  have h1 := (mem_mapHkls old new ho hn p).1 hp
  rw [hj] at h1
  exact h _ h1

end Hexrd.PlaneData
