import Verif.Lemmas.Material
import Verif.Props.PlaneData

/-!
# Exclusions survive changes of the reflection list (C24)

The state of a reflection is what the `exclusions` attribute reports for it.
-/
namespace Hexrd.PlaneData
variable {K : Type} [LinearOrder K]

/-- Specification: the reflections of a list are distinct (C21) and its order is a
permutation. -/
def HklList.Proper (l : HklList K) : Prop :=
  (∀ i j, (l.refl i).hkl = (l.refl j).hkl → i = j) ∧ Function.Injective l.sort

/-- The same for a state as left by the code. -/
def AnyPD.Proper (s : AnyPD K) : Prop :=
  Ready s.pd ∧ ∀ i j, (data s.pd i).hkl = (data s.pd j).hkl → i = j

/-- Specification: reflection `g` is in the list and excluded. -/
def AnyPD.Excluded (s : AnyPD K) (g : Int × Int × Int) : Prop :=
  ∃ i, (data s.pd i).hkl = g ∧ getExclusions s.pd i = true

/-- Specification: reflection `g` is in the list and included. -/
def AnyPD.Included (s : AnyPD K) (g : Int × Int × Int) : Prop :=
  ∃ i, (data s.pd i).hkl = g ∧ getExclusions s.pd i = false

/-- Specification: reflection `g` is in the list. -/
def AnyPD.Has (s : AnyPD K) (g : Int × Int × Int) : Prop := ∃ i, (data s.pd i).hkl = g

/-- Specification: reflection `g` of the list is beyond the two-theta maximum. -/
def AnyPD.Beyond (s : AnyPD K) (g : Int × Int × Int) : Prop := ∃ i, (data s.pd i).hkl = g ∧ beyond s.pd i

/-- Specification: reflection `g` is in a list. -/
def HklList.Has (l : HklList K) (g : Int × Int × Int) : Prop := ∃ i, (l.refl i).hkl = g

/-- Specification: the default exclusions: everything is excluded but the reflections given
in the file, or, without a file, the five first ones; and what is beyond the maximum. -/
def IsDefault (file : Option (List (Int × Int × Int))) (s : AnyPD K) : Prop :=
  ∀ i, getExclusions s.pd i = true ↔ beyond s.pd i ∨
    match file with
    | some f => (data s.pd i).hkl ∉ f
    | none => 5 ≤ i.val

omit [LinearOrder K] in
theorem toPD_data (l : HklList K) (t : Option K) (i : Fin l.m) : data (l.toPD t) i = l.refl (l.sort i) := rfl

omit [LinearOrder K] in
theorem toPD_inj (l : HklList K) (hl : l.Proper) (t : Option K) :
    Function.Injective fun j => (data (l.toPD t) j).hkl := fun _ _ h => hl.2 (hl.1 _ _ h)

/-- The facts about a stored mask that are needed: it is read back, and nothing else
changes. -/
theorem mask_stored {n : Nat} (pd : PD K n) (hr : Ready pd) (e : Fin n → Bool) :
    ∃ pd', setExclusions pd (.mask (List.ofFn e)) = some pd' ∧ Ready pd' ∧ (∀ i, data pd' i = data pd i) ∧
      pd'.tthMax = pd.tthMax ∧ ∀ i, getExclusions pd' i = true ↔ e i = true ∨ beyond pd i := by
  obtain ⟨pd', h, hg⟩ := mask_roundtrip pd hr (List.ofFn e) (by simp)
  refine ⟨pd', h, ?_⟩
  have h' := h
  simp only [setExclusions] at h'
  rw [dif_pos (by simp)] at h'
  cases h'
  refine ⟨hr, fun _ => rfl, rfl, ?_⟩
  intro i
  rw [hg i]
  simp

/-- C24, one change to a different list: the reflections are those of the new list; if an
included reflection survives, every surviving reflection keeps its state (or is excluded
because it is now beyond the two-theta maximum) and new ones are excluded; if none
survives, the defaults apply. -/
theorem list_change (file : Option (List (Int × Int × Int))) (s : AnyPD K) (hs : s.Proper) (l : HklList K)
    (hl : l.Proper) (hdiff : ¬ ∀ g, l.Has g ↔ s.Has g) :
    ∃ s', newPdata file s l = some s' ∧ s'.Proper ∧ s'.pd.tthMax = s.pd.tthMax ∧ (∀ g, s'.Has g ↔ l.Has g) ∧
      (∀ j, ∃ k, data s'.pd j = l.refl k) ∧
      ((∃ g, l.Has g ∧ s.Included g) →
        (∀ g, l.Has g → s.Has g → (s'.Excluded g ↔ s.Excluded g ∨ s'.Beyond g)) ∧
        (∀ g, l.Has g → ¬ s.Has g → s'.Excluded g)) ∧
      ((¬ ∃ g, l.Has g ∧ s.Included g) → IsDefault file s') := by
  have hm : hklsMatch (List.ofFn fun i => (l.refl i).hkl) (allHkls s.pd) = false := by
    rw [Bool.eq_false_iff]
    intro h
    apply hdiff
    intro g
    have hp := (List.isPerm_iff.1 h).mem_iff (a := g)
    simpa [HklList.Has, AnyPD.Has, allHkls] using hp
  have hasl : ∀ g, (∃ j, (data (l.toPD s.pd.tthMax) j).hkl = g) ↔ l.Has g := by
    intro g
    constructor
    · rintro ⟨j, h⟩; exact ⟨_, h⟩
    · rintro ⟨j, h⟩
      obtain ⟨i, rfl⟩ := fin_surj hl.2 j
      exact ⟨i, h⟩
  have hinj := toPD_inj l hl s.pd.tthMax
  have hready : Ready (l.toPD s.pd.tthMax) := ⟨hl.2, rfl⟩
  have same := mapExclusions_same s.pd (l.toPD s.pd.tthMax) hs.2 hinj
  have hnew := mapExclusions_new s.pd (l.toPD s.pd.tthMax) hs.2 hinj
  have surv : (List.finRange l.m).all (mapExclusions s.pd (l.toPD s.pd.tthMax)) = true ↔
      ¬ ∃ g, l.Has g ∧ s.Included g := by
    rw [List.all_eq_true]
    constructor
    · rintro h ⟨g, hg, i, hi, he⟩
      obtain ⟨j, hj⟩ := (hasl g).2 hg
      have h1 := h j (List.mem_finRange j)
      rw [same i j (by rw [hi, hj]), he] at h1
      cases h1
    · intro h j _
      by_cases hj : ∃ i, (data s.pd i).hkl = (data (l.toPD s.pd.tthMax) j).hkl
      · obtain ⟨i, hi⟩ := hj
        rw [same i j hi]
        by_contra hc
        exact h ⟨_, (hasl _).1 ⟨j, rfl⟩, i, hi, by simpa using hc⟩
      · exact hnew j fun i hi => hj ⟨i, hi⟩
  unfold newPdata
  rw [hm]
  simp only [Bool.false_eq_true, if_false]
  by_cases hall : (List.finRange l.m).all (mapExclusions s.pd (l.toPD s.pd.tthMax)) = true
  · rw [if_pos hall]
    have key : ∃ e : Fin l.m → Bool, setDefault file (l.toPD s.pd.tthMax) =
        setExclusions (l.toPD s.pd.tthMax) (.mask (List.ofFn e)) ∧
        ∀ i, e i = true ↔ match file with
          | some f => (data (l.toPD s.pd.tthMax) i).hkl ∉ f
          | none => 5 ≤ i.val := by
      cases file with
      | none => exact ⟨_, rfl, by intro i; simp⟩
      | some f => exact ⟨_, rfl, by intro i; simp⟩
    obtain ⟨e, he1, he2⟩ := key
    obtain ⟨pd', h1, h2, h3, h4, h5⟩ := mask_stored _ hready e
    refine ⟨⟨l.m, pd'⟩, by rw [he1, h1]; rfl, ⟨h2, ?_⟩, h4, ?_, fun j => ⟨_, h3 j⟩, ?_, ?_⟩
    · intro i j h; simp only [h3] at h; exact hinj h
    · intro g; rw [← hasl g]; simp only [AnyPD.Has, h3]
    · intro h; exact absurd h (surv.1 hall)
    · intro _ i
      have hb : beyond pd' i ↔ beyond (l.toPD s.pd.tthMax) i := by unfold beyond; rw [h4, h3]
      simp only
      rw [h5 i, he2 i, hb, h3 i, or_comm]
  · rw [if_neg hall]
    have hex : ∃ g, l.Has g ∧ s.Included g := by
      by_contra h; exact hall (surv.2 h)
    obtain ⟨pd', h1, h2, h3, h4, h5⟩ := mask_stored _ hready (mapExclusions s.pd (l.toPD s.pd.tthMax))
    have hb : ∀ i, beyond pd' i ↔ beyond (l.toPD s.pd.tthMax) i := by intro i; unfold beyond; rw [h4, h3]
    refine ⟨⟨l.m, pd'⟩, by rw [h1]; rfl, ⟨h2, ?_⟩, h4, ?_, fun j => ⟨_, h3 j⟩, ?_, ?_⟩
    · intro i j h; simp only [h3] at h; exact hinj h
    · intro g; rw [← hasl g]; simp only [AnyPD.Has, h3]
    · intro _
      constructor
      · rintro g hg ⟨i, hi⟩
        obtain ⟨j, hj⟩ := (hasl g).2 hg
        have hij := same i j (by rw [hi, hj])
        constructor
        · rintro ⟨j', hj', he⟩
          simp only [h3] at hj'
          have : j' = j := hinj (hj'.trans hj.symm)
          subst this
          rcases (h5 j').1 he with h | h
          · exact Or.inl ⟨i, hi, by rw [← hij]; exact h⟩
          · exact Or.inr ⟨j', by simp only [h3]; exact hj, (hb j').2 h⟩
        · rintro (⟨i', hi', he⟩ | ⟨j', hj', hbe⟩)
          · have : i' = i := hs.2 _ _ (hi'.trans hi.symm)
            subst this
            exact ⟨j, by simp only [h3]; exact hj, (h5 j).2 (Or.inl (by rw [hij]; exact he))⟩
          · exact ⟨j', hj', (h5 j').2 (Or.inr ((hb j').1 hbe))⟩
      · intro g hg hng
        obtain ⟨j, hj⟩ := (hasl g).2 hg
        exact ⟨j, by simp only [h3]; exact hj,
          (h5 j).2 (Or.inl (hnew j fun i hi => hng ⟨i, hi.trans hj⟩))⟩
    · intro h; exact absurd hex h

/-- C24: if the new list has the same reflections, in whatever order, nothing changes. -/
theorem same_list (file : Option (List (Int × Int × Int))) (s : AnyPD K) (hs : s.Proper) (l : HklList K)
    (hl : l.Proper) (hsame : ∀ g, l.Has g ↔ s.Has g) : newPdata file s l = some s := by
  unfold newPdata
  rw [if_pos]
  unfold hklsMatch
  rw [List.isPerm_iff]
  refine (List.perm_ext_iff_of_nodup ?_ ?_).2 ?_
  · rw [List.nodup_ofFn]; exact fun i j h => hl.1 i j h
  · unfold allHkls; rw [List.nodup_ofFn]; exact fun i j h => hs.2 i j h
  · intro g
    simpa [HklList.Has, AnyPD.Has, allHkls] using hsame g

/-- C24 over histories: a reflection that is included at first, is in every list and never
beyond the two-theta maximum, is included after any number of changes. -/
theorem included_stays (file : Option (List (Int × Int × Int))) (g : Int × Int × Int) (s : AnyPD K) (hs : s.Proper)
    (ls : List (HklList K)) (hls : ∀ l ∈ ls, l.Proper ∧ l.Has g)
    (hmax : ∀ l ∈ ls, ∀ i, (l.refl i).hkl = g → ∀ m t, s.pd.tthMax = some m → (l.refl i).tth = some t → t ≤ m)
    (hinc : s.Included g) : ∃ s', changes file s ls = some s' ∧ s'.Proper ∧ s'.Included g := by
  induction ls generalizing s with
  | nil => exact ⟨s, rfl, hs, hinc⟩
  | cons l ls ih =>
    have hl := hls l List.mem_cons_self
    by_cases hsame : ∀ g, l.Has g ↔ s.Has g
    · obtain ⟨s', h1, h2, h3⟩ := ih s hs (fun l' h => hls l' (List.mem_cons_of_mem _ h))
        (fun l' h => hmax l' (List.mem_cons_of_mem _ h)) hinc
      exact ⟨s', by simp only [changes, same_list file s hs l hl.1 hsame, Option.bind_some, h1], h2, h3⟩
    · obtain ⟨s1, e1, p1, t1, has1, hdata, keep1, -⟩ := list_change file s hs l hl.1 hsame
      obtain ⟨hk, -⟩ := keep1 ⟨g, hl.2, hinc⟩
      have hsg : s.Has g := by obtain ⟨i, hi, _⟩ := hinc; exact ⟨i, hi⟩
      obtain ⟨i, hi, hie⟩ := hinc
      have hnb : ¬ s1.Beyond g := by
        rintro ⟨j, hj, m, t, hm, ht, hlt⟩
        obtain ⟨k, hk⟩ := hdata j
        rw [hk] at hj ht
        exact absurd hlt (not_lt.2 (hmax l List.mem_cons_self k hj m t (t1 ▸ hm) ht))
      have hinc1 : s1.Included g := by
        obtain ⟨j, hj⟩ := (has1 g).2 hl.2
        refine ⟨j, hj, ?_⟩
        by_contra hc
        rcases (hk g hl.2 hsg).1 ⟨j, hj, by simpa using hc⟩ with ⟨i', hi', he'⟩ | h
        · have := hs.2 _ _ (hi'.trans hi.symm)
          subst this
          rw [hie] at he'; cases he'
        · exact hnb h
      obtain ⟨s', h1, h2, h3⟩ := ih s1 p1 (fun l' h => hls l' (List.mem_cons_of_mem _ h))
        (fun l' h => by rw [t1]; exact hmax l' (List.mem_cons_of_mem _ h)) hinc1
      exact ⟨s', by simp only [changes, e1, Option.bind_some, h1], h2, h3⟩

/-- C24 over histories: as long as one included reflection `g` survives as above, every
reflection that is excluded and stays in the lists is still excluded at the end. -/
theorem excluded_stays (file : Option (List (Int × Int × Int))) (g f : Int × Int × Int) (s : AnyPD K) (hs : s.Proper)
    (ls : List (HklList K)) (hls : ∀ l ∈ ls, l.Proper ∧ l.Has g ∧ l.Has f)
    (hmax : ∀ l ∈ ls, ∀ i, (l.refl i).hkl = g → ∀ m t, s.pd.tthMax = some m → (l.refl i).tth = some t → t ≤ m)
    (hinc : s.Included g) (hexc : s.Excluded f) :
    ∃ s', changes file s ls = some s' ∧ s'.Excluded f := by
  induction ls generalizing s with
  | nil => exact ⟨s, rfl, hexc⟩
  | cons l ls ih =>
    have hl := hls l List.mem_cons_self
    by_cases hsame : ∀ g, l.Has g ↔ s.Has g
    · obtain ⟨s', h1, h2⟩ := ih s hs (fun l' h => hls l' (List.mem_cons_of_mem _ h))
        (fun l' h => hmax l' (List.mem_cons_of_mem _ h)) hinc hexc
      exact ⟨s', by simp only [changes, same_list file s hs l hl.1 hsame, Option.bind_some, h1], h2⟩
    · obtain ⟨s1, e1, p1, t1, has1, hdata, keep1, -⟩ := list_change file s hs l hl.1 hsame
      obtain ⟨hk, -⟩ := keep1 ⟨g, hl.2.1, hinc⟩
      have hsf : s.Has f := by obtain ⟨i, hi, _⟩ := hexc; exact ⟨i, hi⟩
      have he1 : s1.Excluded f := (hk f hl.2.2 hsf).2 (Or.inl hexc)
      obtain ⟨s2, e2, p2, hi2⟩ := included_stays file g s hs [l]
        (fun l' h => by rw [List.mem_singleton] at h; subst h; exact ⟨hl.1, hl.2.1⟩)
        (fun l' h => by rw [List.mem_singleton] at h; subst h; exact hmax l' List.mem_cons_self) hinc
      have : s2 = s1 := by
        simp only [changes, e1, Option.bind_some, Option.some.injEq] at e2
        exact e2.symm
      subst this
      obtain ⟨s', h1, h2⟩ := ih s2 p1 (fun l' h => hls l' (List.mem_cons_of_mem _ h))
        (fun l' h => by rw [t1]; exact hmax l' (List.mem_cons_of_mem _ h)) hi2 he1
      exact ⟨s', by simp only [changes, e1, Option.bind_some, h1], h2⟩

/-! ### Concrete lists -/

/-- Reflections (1,0,0), (2,0,0), … with two-thetas 1, 2, …. -/
def sample (m : Nat) : HklList Int :=
  ⟨m, fun i => ⟨(i.val + 1, 0, 0), some 1, some (i.val + 1)⟩, id, fun _ => 1, fun _ => 1⟩

theorem sample_proper (m : Nat) : (sample m).Proper := by
  refine ⟨?_, fun _ _ h => h⟩
  intro i j h
  simp only [sample, Prod.mk.injEq, and_true] at h
  exact Fin.ext (by omega)

-- hypotheses are met: two reflections, the second excluded, become three
example : ∃ s : AnyPD Int, s.Proper ∧ s.Included (1, 0, 0) ∧ s.Excluded (2, 0, 0) ∧
    (sample 3).Proper ∧ (sample 3).Has (1, 0, 0) ∧ (sample 3).Has (2, 0, 0) := by
  obtain ⟨pd', _, h2, h3, _, h5⟩ := mask_stored ((sample 2).toPD none) ⟨fun _ _ h => h, rfl⟩ (fun i : Fin 2 => decide (i = 1))
  refine ⟨⟨2, pd'⟩, ⟨h2, ?_⟩, ⟨(0 : Fin 2), ?_, ?_⟩, ⟨(1 : Fin 2), ?_, ?_⟩, sample_proper 3, ⟨(0 : Fin 3), rfl⟩, ⟨(1 : Fin 3), rfl⟩⟩
  · intro i j h
    exact (sample_proper 2).1 i j ((congrArg Refl.hkl (h3 i)).symm.trans (h.trans (congrArg Refl.hkl (h3 j))))
  · exact congrArg Refl.hkl (h3 (0 : Fin 2))
  · rw [Bool.eq_false_iff]; intro h
    rcases (h5 (0 : Fin 2)).1 h with h | ⟨m, t, hm, _⟩
    · exact absurd h (by decide)
    · cases hm
  · exact congrArg Refl.hkl (h3 (1 : Fin 2))
  · exact (h5 (1 : Fin 2)).2 (Or.inl (by decide))

/-- C24, disagreement: what a two-theta maximum hides during a change of the list stays
excluded when the maximum is lifted again. With a maximum of 1 nothing was excluded by the
user, yet after the change from two to three reflections and lifting the maximum, (2,0,0)
is excluded; without the change it is included. -/
theorem tthmax_exclusion_sticks :
    (newPdata none ⟨2, (sample 2).toPD (some 1)⟩ (sample 3)).map (fun s =>
      (List.finRange s.n).map (getExclusions { s.pd with tthMax := none })) = some [false, true, true] ∧
    (List.finRange 2).map (getExclusions { (sample 2).toPD (some 1) with tthMax := none }) = [false, false] := by
  decide

end Hexrd.PlaneData
