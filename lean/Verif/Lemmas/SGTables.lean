import Verif.Lemmas.Absences
import Verif.Spec.SGTables

/-! The crystal class of every space group, from its operators. -/
namespace Hexrd.SpaceGroup

theorem number_perm {L M : List Mat} (h : L.Perm M) (d t : Int) : Spec.number L d t = Spec.number M d t :=
  (h.filter _).length_eq

theorem census_perm {L M : List Mat} (h : L.Perm M) : Spec.census L = Spec.census M := by
  simp only [Spec.census, number_perm h]

/-- The point group is a rearrangement of the decoded rotation codes. -/
theorem pointGroup_perm (C : List Nat) (hval : ∀ c ∈ C, valid c = true) :
    (pointGroup (C.map dec)).Perm ((uniq (C.map fun c => c / 13824)).map decR) := by
  obtain ⟨u1, u2⟩ := uniq_spec (C.map fun c => c / 13824)
  obtain ⟨p1, p2, _⟩ := pointGroup_spec (C.map dec)
  have hinj : ((uniq (C.map fun c => c / 13824)).map decR).Nodup := by
    rw [List.nodup_iff_pairwise_ne, List.pairwise_map]
    refine (List.pairwise_iff_forall_sublist.2 ?_)
    intro a b hab e
    have ha := hab.subset (List.mem_cons_self)
    have hb := hab.subset (List.mem_cons_of_mem _ (List.mem_singleton_self b))
    have : a = b := by
      obtain ⟨c, hc, rfl⟩ := List.mem_map.1 ((u2 _).1 ha)
      obtain ⟨d, hd, rfl⟩ := List.mem_map.1 ((u2 _).1 hb)
      rw [← dec_r, ← dec_r] at e
      exact dec_r_inj c d (hval c hc) (hval d hd) e
    subst this
    have := u1.sublist hab
    simp at this
  have hmem : ∀ m, m ∈ pointGroup (C.map dec) ↔ m ∈ (uniq (C.map fun c => c / 13824)).map decR := by
    intro m
    rw [p2]
    constructor
    · rintro ⟨p, hp, rfl⟩
      obtain ⟨c, hc, rfl⟩ := List.mem_map.1 hp
      exact List.mem_map.2 ⟨c / 13824, (u2 _).2 (List.mem_map.2 ⟨c, hc, rfl⟩), (dec_r c).symm⟩
    · intro hm
      obtain ⟨r, hr, rfl⟩ := List.mem_map.1 hm
      obtain ⟨c, hc, rfl⟩ := List.mem_map.1 ((u2 _).1 hr)
      exact ⟨dec c, List.mem_map_of_mem hc, dec_r c⟩
  exact (List.subperm_of_subset p1 fun x hx => (hmem x).1 hx).antisymm
      (List.subperm_of_subset hinj fun x hx => (hmem x).2 hx)

/-- The check of the class of one space group. -/
noncomputable def classB (sg : Nat) (C : List Nat) : Bool :=
  match lookupRange pgDictSG sg with
  | none => false
  | some p =>
    let R := (uniq (C.map fun c => c / 13824)).map decR
    C.all valid && decide (Spec.census R = Spec.classCensus p.1) &&
    decide (Spec.classCensus p.2 =
      if R.any (fun s => decide (s = Mat.minusOne)) then Spec.classCensus p.1
      else Spec.census (R ++ R.map Mat.neg))

noncomputable def classAt (sg : Nat) : Bool :=
  match table0[sg - 1]? with
  | none => false
  | some p => classB sg p.1

noncomputable def classAlt (i : Nat) : Bool :=
  match altGroups[i]?, table1[i]? with
  | some sg, some p => classB sg p.1
  | _, _ => false

set_option maxRecDepth 100000 in
theorem classRun0 : (List.range' 1 230).all classAt = true := by decide +kernel

set_option maxRecDepth 100000 in
theorem classRun1 : (List.range' 0 24).all classAlt = true := by decide +kernel

theorem Mat.neg_inj {m n : Mat} (h : m.neg = n.neg) : m = n := by
  rw [← Mat.neg_neg m, h, Mat.neg_neg]

/-- The Laue group without the inversion in the point group: its rotations and their
negatives. -/
theorem laue_perm (pg : List Mat) (h : Spec.IsGroup Mat.mul Mat.one pg) (hs : pg.length ≤ 24)
    (hn : Mat.minusOne ∉ pg) : (laueGroup pg).Perm (pg ++ pg.map Mat.neg) := by
  obtain ⟨l1, l2⟩ := laueGroup_spec pg h (Or.inr hs)
  have hnd : (pg ++ pg.map Mat.neg).Nodup := by
    rw [List.nodup_append]
    refine ⟨h.nodup, ?_, ?_⟩
    · rw [List.nodup_iff_pairwise_ne, List.pairwise_map]
      exact (List.nodup_iff_pairwise_ne.1 h.nodup).imp fun hab e => hab (Mat.neg_inj e)
    · rintro m hm _ hm' rfl
      obtain ⟨k, hk, e⟩ := List.mem_map.1 hm'
      obtain ⟨k', hk', e1, _⟩ := h.inv_mem k hk
      have : m.mul k' = Mat.minusOne := by rw [← e, Mat.neg_mul, e1, Mat.neg_one]
      exact hn (this ▸ h.mul_mem m hm k' hk')
  have hmem : ∀ m, m ∈ laueGroup pg ↔ m ∈ pg ++ pg.map Mat.neg := by
    intro m
    rw [l2, List.mem_append, List.mem_map]
    constructor
    · rintro (h | h)
      · exact Or.inl h
      · exact Or.inr ⟨_, h, Mat.neg_neg m⟩
    · rintro (h | ⟨k, hk, rfl⟩)
      · exact Or.inl h
      · exact Or.inr (by rw [Mat.neg_neg]; exact hk)
  exact (List.subperm_of_subset l1 fun x hx => (hmem x).1 hx).antisymm
      (List.subperm_of_subset hnd fun x hx => (hmem x).2 hx)

theorem any_minusOne (l : List Mat) : (l.any fun s => decide (s = Mat.minusOne)) = true ↔ Mat.minusOne ∈ l := by
  rw [List.any_eq_true]
  constructor
  · rintro ⟨x, hx, e⟩
    rw [decide_eq_true_eq] at e
    exact e ▸ hx
  · intro h
    exact ⟨_, h, by simp⟩

theorem classB_sound (sg : Nat) (C : List Nat) (hB : classB sg C = true) (S : SGSym) (hops : S.ops = C.map dec)
    (hpg : S.pg = pointGroup S.ops) (hlaue : S.laue = laueGroup S.pg)
    (hgrp : Spec.IsGroup Op.comp Op.one S.ops) (hsz : Mat.minusOne ∈ S.pg ∨ S.pg.length ≤ 24) :
    ∃ p, lookupRange pgDictSG sg = some p ∧ Spec.census S.pg = Spec.classCensus p.1 ∧
      Spec.census S.laue = Spec.classCensus p.2 := by
  unfold classB at hB
  cases e : lookupRange pgDictSG sg with
  | none => rw [e] at hB; cases hB
  | some p =>
  rw [e] at hB
  simp only [Bool.and_eq_true, decide_eq_true_eq, List.all_eq_true] at hB
  obtain ⟨⟨hval, hc⟩, hl⟩ := hB
  have hp := pointGroup_perm C hval
  rw [← hops, ← hpg] at hp
  have hG : Spec.IsGroup Mat.mul Mat.one S.pg := by rw [hpg]; exact pointGroup_isGroup _ hgrp
  refine ⟨p, rfl, by rw [census_perm hp, hc], ?_⟩
  by_cases hm : Mat.minusOne ∈ S.pg
  · have : ((uniq (C.map fun c => c / 13824)).map decR).any (fun s => decide (s = Mat.minusOne)) = true :=
      (any_minusOne _).2 (hp.mem_iff.1 hm)
    rw [if_pos this] at hl
    rw [hl, ← hc, ← census_perm hp, hlaue, laueGroup, if_pos ((any_minusOne _).2 hm)]
  · have : ¬ ((uniq (C.map fun c => c / 13824)).map decR).any (fun s => decide (s = Mat.minusOne)) = true :=
      fun h => hm (hp.mem_iff.2 ((any_minusOne _).1 h))
    rw [if_neg this] at hl
    rw [hl, hlaue]
    exact census_perm ((laue_perm _ hG (hsz.resolve_left hm) hm).trans (hp.append (hp.map _)))

/-- Every space group in every setting: the listed classes are those of the operators. -/
theorem classes (sg setting : Nat) (h1 : 1 ≤ sg) (h2 : sg ≤ 230) :
    ∃ S p, generateSGSym sg setting = some S ∧ lookupRange pgDictSG sg = some p ∧
      Spec.census S.pg = Spec.classCensus p.1 ∧ Spec.census S.laue = Spec.classCensus p.2 := by
  obtain ⟨S, C, T, e, hops, hT⟩ := ops_codes sg setting h1 (by omega)
  obtain ⟨S', _, _, e', _, hg, _, _, _, _, hp, _, hl, hs, _⟩ := main sg setting h1 (by omega)
  rw [e] at e'
  cases e'
  have hB : classB sg C = true := by
    rcases hT with hT | ⟨i, hi, ei, e1⟩
    · have := List.all_eq_true.1 classRun0 sg (List.mem_range'_1.2 (by omega))
      unfold classAt at this
      rw [hT] at this
      exact this
    · have := List.all_eq_true.1 classRun1 i (List.mem_range'_1.2 (by omega))
      unfold classAlt at this
      rw [ei, e1] at this
      exact this
  obtain ⟨p, a, b, c⟩ := classB_sound sg C hB S hops hp hl hg hs
  exact ⟨S, p, e, a, b, c⟩

end Hexrd.SpaceGroup
