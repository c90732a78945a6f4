import Verif.Lemmas.SGCheck
import Batteries.Data.List.Perm

/-! Point groups and Laue groups, and the check of one space group. -/
namespace Hexrd.SpaceGroup

/-! ### `pointGroup` -/

theorem addNew_spec (acc ms : List Mat) (hn : acc.Nodup) :
    (addNew acc ms).Nodup ∧ acc <+: addNew acc ms ∧ ∀ x, x ∈ addNew acc ms ↔ x ∈ acc ∨ x ∈ ms := by
  induction ms generalizing acc with
  | nil => exact ⟨hn, List.prefix_refl _, by simp [addNew]⟩
  | cons m ms ih =>
    rw [addNew]
    by_cases h : isnew m acc = true
    · rw [if_pos h]
      have hm := (isnew_iff m acc).1 h
      have hn' : (acc ++ [m]).Nodup := by
        rw [List.nodup_append]
        refine ⟨hn, by simp, ?_⟩
        intro a ha b hb e
        rw [List.mem_singleton] at hb
        exact hm (hb ▸ e ▸ ha)
      obtain ⟨h1, h2, h3⟩ := ih (acc ++ [m]) hn'
      refine ⟨h1, (List.prefix_append _ _).trans h2, ?_⟩
      intro x
      rw [h3]
      simp only [List.mem_append, List.mem_cons, List.not_mem_nil, or_false]
      exact or_assoc
    · rw [if_neg h]
      have hm : m ∈ acc := by
        rw [isnew_iff, Classical.not_not] at h
        exact h
      obtain ⟨h1, h2, h3⟩ := ih acc hn
      refine ⟨h1, h2, ?_⟩
      intro x
      rw [h3, List.mem_cons]
      constructor
      · rintro (h | h)
        · exact Or.inl h
        · exact Or.inr (Or.inr h)
      · rintro (h | rfl | h)
        · exact Or.inl h
        · exact Or.inl hm
        · exact Or.inr h

/-- The point group lists the rotations without repetition, the first one first. -/
theorem pointGroup_spec (ops : List Op) :
    (pointGroup ops).Nodup ∧ (∀ m, m ∈ pointGroup ops ↔ ∃ p ∈ ops, p.r = m) ∧
    (pointGroup ops).head? = ops.head?.map Op.r := by
  cases ops with
  | nil => simp [pointGroup]
  | cons p ps =>
    obtain ⟨h1, h2, h3⟩ := addNew_spec [p.r] (ps.map Op.r) (by simp)
    refine ⟨h1, ?_, ?_⟩
    · intro m
      rw [pointGroup, h3]
      simp only [List.mem_map, List.mem_cons, List.not_mem_nil, or_false, exists_eq_or_imp]
      constructor
      · rintro (h | h)
        · exact Or.inl h.symm
        · exact Or.inr h
      · rintro (h | h)
        · exact Or.inl h.symm
        · exact Or.inr h
    · obtain ⟨t, ht⟩ := h2
      rw [pointGroup, ← ht]
      rfl

/-- Identity matrix. -/
def Mat.one : Mat := ⟨1,0,0,0,1,0,0,0,1⟩

theorem Mat.one_mul (m : Mat) : Mat.one.mul m = m := by
  simp [Mat.one, Mat.mul]

theorem Mat.mul_one (m : Mat) : m.mul Mat.one = m := by
  simp [Mat.one, Mat.mul]

/-- The rotations of a group of operators form a group. -/
theorem pointGroup_isGroup (ops : List Op) (h : Spec.IsGroup Op.comp Op.one ops) :
    Spec.IsGroup Mat.mul Mat.one (pointGroup ops) := by
  obtain ⟨h1, h2, _⟩ := pointGroup_spec ops
  refine ⟨h1, (h2 _).2 ⟨_, h.one_mem, rfl⟩, fun x _ => Mat.one_mul x, fun x _ => Mat.mul_one x, ?_,
    fun x _ y _ z _ => Mat.mul_assoc x y z, ?_⟩
  · intro x hx y hy
    obtain ⟨p, hp, rfl⟩ := (h2 _).1 hx
    obtain ⟨q, hq, rfl⟩ := (h2 _).1 hy
    exact (h2 _).2 ⟨_, h.mul_mem p hp q hq, rfl⟩
  · intro x hx
    obtain ⟨p, hp, rfl⟩ := (h2 _).1 hx
    obtain ⟨q, hq, e1, e2⟩ := h.inv_mem p hp
    exact ⟨q.r, (h2 _).2 ⟨q, hq, rfl⟩, congrArg Op.r e1, congrArg Op.r e2⟩

/-! ### `laueGroup` -/

/-- `-m`. -/
def Mat.neg (m : Mat) : Mat := ⟨-m.a, -m.b, -m.c, -m.d, -m.e, -m.f, -m.g, -m.h, -m.i⟩

theorem Mat.mul_minusOne (m : Mat) : m.mul Mat.minusOne = m.neg := by
  simp [Mat.minusOne, Mat.mul, Mat.neg]

theorem Mat.neg_neg (m : Mat) : m.neg.neg = m := by simp [Mat.neg]

theorem Mat.neg_mul (m n : Mat) : m.neg.mul n = (m.mul n).neg := by
  simp only [Mat.neg, Mat.mul, Mat.mk.injEq]
  refine ⟨?_, ?_, ?_, ?_, ?_, ?_, ?_, ?_, ?_⟩ <;> ring

theorem Mat.mul_neg (m n : Mat) : m.mul n.neg = (m.mul n).neg := by
  simp only [Mat.neg, Mat.mul, Mat.mk.injEq]
  refine ⟨?_, ?_, ?_, ?_, ?_, ?_, ?_, ?_, ?_⟩ <;> ring

theorem Mat.neg_one : Mat.one.neg = Mat.minusOne := by decide

/-- The Laue list has no repetition and consists of the point group and its negatives. -/
theorem laueGroup_spec (pg : List Mat) (h : Spec.IsGroup Mat.mul Mat.one pg)
    (hsize : Mat.minusOne ∈ pg ∨ pg.length ≤ 24) :
    (laueGroup pg).Nodup ∧ ∀ m, m ∈ laueGroup pg ↔ m ∈ pg ∨ m.neg ∈ pg := by
  rw [laueGroup]
  by_cases hc : Mat.minusOne ∈ pg
  · have : (pg.any fun s => decide (s = Mat.minusOne)) = true := by
      rw [List.any_eq_true]
      exact ⟨_, hc, by simp⟩
    rw [if_pos this]
    refine ⟨h.nodup, ?_⟩
    intro m
    constructor
    · exact Or.inl
    · rintro (hm | hm)
      · exact hm
      · have := h.mul_mem _ hm _ hc
        rw [Mat.mul_minusOne, Mat.neg_neg] at this
        exact this
  · have : ¬ (pg.any fun s => decide (s = Mat.minusOne)) = true := by
      rw [List.any_eq_true]
      rintro ⟨x, hx, e⟩
      rw [decide_eq_true_eq] at e
      exact hc (e ▸ hx)
    rw [if_neg this]
    have hlen : pg.length ≤ 24 := hsize.resolve_left hc
    have hn : (pg ++ [Mat.minusOne]).Nodup := by
      rw [List.nodup_append]
      refine ⟨h.nodup, by simp, ?_⟩
      intro a ha b hb e
      rw [List.mem_singleton] at hb
      exact hc (hb ▸ e ▸ ha)
    have hP : ∀ x y : Mat, (x ∈ pg ∨ x.neg ∈ pg) → (y ∈ pg ∨ y.neg ∈ pg) →
        (x.mul y ∈ pg ∨ (x.mul y).neg ∈ pg) := by
      rintro x y (hx | hx) (hy | hy)
      · exact Or.inl (h.mul_mem _ hx _ hy)
      · refine Or.inr ?_
        rw [← Mat.mul_neg]
        exact h.mul_mem _ hx _ hy
      · refine Or.inr ?_
        rw [← Mat.neg_mul]
        exact h.mul_mem _ hx _ hy
      · refine Or.inl ?_
        have := h.mul_mem _ hx _ hy
        rw [Mat.neg_mul, Mat.mul_neg, Mat.neg_neg] at this
        exact this
    obtain ⟨q1, q2, q3, q4⟩ := outer_spec Mat.mul 48 (fun x => x ∈ pg ∨ x.neg ∈ pg) hP 49 0
      (pg ++ [Mat.minusOne]) (by rw [List.length_append, List.length_singleton]; omega) (by omega) hn (by
        intro x hx
        rw [List.mem_append, List.mem_singleton] at hx
        rcases hx with hx | rfl
        · exact Or.inl hx
        · refine Or.inr ?_
          rw [← Mat.neg_one, Mat.neg_neg]
          exact h.one_mem)
    refine ⟨q2, ?_⟩
    intro m
    refine ⟨q3 m, ?_⟩
    intro hm
    rcases q4 with q4 | q4
    · -- the bound was reached: all 48 elements are there
      let S := pg ++ pg.map Mat.neg
      have hS : S.length ≤ 48 := by
        simp only [S, List.length_append, List.length_map]
        omega
      have hsub : outer Mat.mul 48 49 0 (pg ++ [Mat.minusOne]) ⊆ S := by
        intro x hx
        simp only [S, List.mem_append, List.mem_map]
        rcases q3 x hx with hx | hx
        · exact Or.inl hx
        · exact Or.inr ⟨_, hx, Mat.neg_neg x⟩
      have hsp := List.subperm_of_subset q2 hsub
      have hperm := hsp.perm_of_length_le (by omega)
      refine hperm.mem_iff.2 ?_
      simp only [S, List.mem_append, List.mem_map]
      rcases hm with hm | hm
      · exact Or.inl hm
      · exact Or.inr ⟨_, hm, Mat.neg_neg m⟩
    · rcases hm with hm | hm
      · exact q1.subset (List.mem_append_left _ hm)
      · obtain ⟨i, hi⟩ := List.mem_iff_getElem?.1 hm
        have hil := (List.getElem?_eq_some_iff.1 hi).1
        have := q4 i pg.length m.neg Mat.minusOne (Nat.zero_le _) (by omega)
          (by rw [List.getElem?_append_left hil]; exact hi) (by simp)
        rw [Mat.mul_minusOne, Mat.neg_neg] at this
        exact this

/-! ### The check of one space group -/

/-- Rotation of a code without its translation digits. -/
def decR (r : Nat) : Mat := (dec (r * 13824)).r

theorem dg_rot (c k : Nat) : dg (c / 13824 * 13824) (13824 * k) = dg c (13824 * k) := by
  rw [dg_eq, dg_eq, ← Nat.div_div_eq_div_mul, ← Nat.div_div_eq_div_mul, Nat.mul_div_cancel _ (by decide)]

theorem dec_r (c : Nat) : (dec c).r = decR (c / 13824) := by
  have h := dg_rot c
  have h11 := h 110075314176
  have h10 := h 4586471424
  have h9 := h 191102976
  have h8 := h 7962624
  have h7 := h 331776
  have h6 := h 13824
  have h5 := h 576
  have h4 := h 24
  have h3 := h 1
  simp only [Nat.reduceMul] at h11 h10 h9 h8 h7 h6 h5 h4 h3
  simp only [decR, dec, h11, h10, h9, h8, h7, h6, h5, h4, h3]

/-- Different rotation codes stand for different rotations. -/
theorem dec_r_inj (m n : Nat) (hm : valid m = true) (hn : valid n = true) (h : (dec m).r = (dec n).r) :
    m / 13824 = n / 13824 := by
  obtain ⟨⟨m1, m2, m3, m4, m5, m6, m7, m8, m9⟩, ml⟩ := (valid_iff m).1 hm
  obtain ⟨⟨n1, n2, n3, n4, n5, n6, n7, n8, n9⟩, nl⟩ := (valid_iff n).1 hn
  simp only [dec, Mat.mk.injEq] at h
  obtain ⟨h1, h2, h3, h4, h5, h6, h7, h8, h9⟩ := h
  have z : ∀ k : Nat, k ≤ 36520347436056575 → k / (1521681143169024 * 24) = 0 := fun k hk => by omega
  have f := dg_step m n 1521681143169024 (sgnd_inj _ _ m1 n1 h1) (by rw [z m ml, z n nl])
  have f := dg_step m n 63403380965376 (sgnd_inj _ _ m2 n2 h2) f
  have f := dg_step m n 2641807540224 (sgnd_inj _ _ m3 n3 h3) f
  have f := dg_step m n 110075314176 (sgnd_inj _ _ m4 n4 h4) f
  have f := dg_step m n 4586471424 (sgnd_inj _ _ m5 n5 h5) f
  have f := dg_step m n 191102976 (sgnd_inj _ _ m6 n6 h6) f
  have f := dg_step m n 7962624 (sgnd_inj _ _ m7 n7 h7) f
  have f := dg_step m n 331776 (sgnd_inj _ _ m8 n8 h8) f
  have f := dg_step m n 13824 (sgnd_inj _ _ m9 n9 h9) f
  exact f

/-- Distinct entries. -/
noncomputable def uniq : List Nat → List Nat
  | [] => []
  | r :: rs => if memB r (uniq rs) then uniq rs else r :: uniq rs

theorem uniq_spec (R : List Nat) : (uniq R).Nodup ∧ ∀ x, x ∈ uniq R ↔ x ∈ R := by
  induction R with
  | nil => simp [uniq]
  | cons r rs ih =>
    rw [uniq]
    by_cases h : memB r (uniq rs) = true
    · rw [if_pos h]
      refine ⟨ih.1, ?_⟩
      intro x
      rw [ih.2, List.mem_cons]
      constructor
      · exact Or.inr
      · rintro (rfl | h')
        · exact (ih.2 _).1 ((memB_iff _ _).1 h)
        · exact h'
    · rw [if_neg h]
      rw [memB_iff] at h
      refine ⟨List.nodup_cons.2 ⟨h, ih.1⟩, ?_⟩
      intro x
      rw [List.mem_cons, List.mem_cons, ih.2]

/-- The check of one space group; 2531739856919 is the code of the inversion. -/
noncomputable def checkSG (sg setting : Nat) (C : List Nat) (T : Tree) : Bool :=
  match symGL[sg - 1]? with
  | none => false
  | some s =>
    match makeGenerators s setting with
    | none => false
    | some (gs, centro) =>
      let R := uniq (C.map fun c => c / 13824)
      let inv := memB 2531739856919 R
      checkC gs C T && Nat.beq C.length (Spec.order sg) && Nat.beq R.length (Spec.pointGroupOrder sg) &&
      (inv || Nat.ble R.length 24) && (inv || !centro)

theorem checkSG_sound (sg setting : Nat) (C : List Nat) (T : Tree) (hsg : sg ≠ 0)
    (h : checkSG sg setting C T = true) :
    ∃ S gs c0, generateSGSym sg setting = some S ∧
      (symGL[sg - 1]?).bind (fun s => makeGenerators s setting) = some (gs, c0) ∧
      S.ops = C.map dec ∧
      Spec.IsGroup Op.comp Op.one S.ops ∧ (∀ x ∈ S.ops, Spec.Generated Op.comp gs x) ∧
      (∀ g ∈ gs, g ∈ S.ops) ∧ (∀ x ∈ S.ops, x.r.det * x.r.det = 1) ∧
      S.ops.length = Spec.order sg ∧ S.pg = pointGroup S.ops ∧ S.pg.length = Spec.pointGroupOrder sg ∧
      S.laue = laueGroup S.pg ∧
      (Mat.minusOne ∈ S.pg ∨ S.pg.length ≤ 24) ∧ (S.centro = true ↔ Mat.minusOne ∈ S.pg) := by
  unfold checkSG at h
  cases hs : symGL[sg - 1]? with
  | none => rw [hs] at h; simp at h
  | some s =>
  rw [hs] at h
  simp only at h
  cases hm : makeGenerators s setting with
  | none => rw [hm] at h; simp at h
  | some p =>
  obtain ⟨gs, centro⟩ := p
  rw [hm] at h
  simp only [Bool.and_eq_true, Nat.beq_eq, Nat.ble_eq, Bool.or_eq_true,
    memB_iff, Bool.not_eq_true'] at h
  obtain ⟨⟨⟨⟨hC, hlen⟩, hR⟩, hinv⟩, hcen⟩ := h
  obtain ⟨hgen, hgrp, hgend, hgin, hdet, hval⟩ := checkC_sound gs C T hC
  obtain ⟨u1, u2⟩ := uniq_spec (C.map fun c => c / 13824)
  obtain ⟨p1, p2, _⟩ := pointGroup_spec (C.map dec)
  -- the point group is a rearrangement of the decoded rotations
  have hinj : ((uniq (C.map fun c => c / 13824)).map decR).Nodup := by
    rw [List.nodup_iff_pairwise_ne, List.pairwise_map]
    refine (List.pairwise_iff_forall_sublist.2 ?_)
    intro a b hab e
    have ha := hab.subset (List.mem_cons_self)
    have hb := hab.subset (List.mem_cons_of_mem _ (List.mem_singleton_self b))
    have : a = b := by
      obtain ⟨c, hc, rfl⟩ := List.mem_map.1 ((u2 _).1 ha)
      obtain ⟨d, hd, rfl⟩ := List.mem_map.1 ((u2 _).1 hb)
      rw [← dec_r, ← dec_r] at e
      exact dec_r_inj c d (hval c hc) (hval d hd) e
    subst this
    have := u1.sublist hab
    simp at this
  have hmem : ∀ m, m ∈ pointGroup (C.map dec) ↔ m ∈ (uniq (C.map fun c => c / 13824)).map decR := by
    intro m
    rw [p2]
    constructor
    · rintro ⟨p, hp, rfl⟩
      obtain ⟨c, hc, rfl⟩ := List.mem_map.1 hp
      exact List.mem_map.2 ⟨c / 13824, (u2 _).2 (List.mem_map.2 ⟨c, hc, rfl⟩), (dec_r c).symm⟩
    · intro hm
      obtain ⟨r, hr, rfl⟩ := List.mem_map.1 hm
      obtain ⟨c, hc, rfl⟩ := List.mem_map.1 ((u2 _).1 hr)
      exact ⟨dec c, List.mem_map_of_mem hc, dec_r c⟩
  have hperm : (pointGroup (C.map dec)).Perm ((uniq (C.map fun c => c / 13824)).map decR) :=
    (List.subperm_of_subset p1 fun x hx => (hmem x).1 hx).antisymm
      (List.subperm_of_subset hinj fun x hx => (hmem x).2 hx)
  have hpl : (pointGroup (C.map dec)).length = (uniq (C.map fun c => c / 13824)).length := by
    rw [hperm.length_eq, List.length_map]
  have hmin : 2531739856919 ∈ uniq (C.map fun c => c / 13824) → Mat.minusOne ∈ pointGroup (C.map dec) := by
    intro h
    rw [hmem]
    exact List.mem_map.2 ⟨2531739856919, h, by decide⟩
  have hany : ∀ l : List Mat, (l.any fun s => decide (s = Mat.minusOne)) = true ↔ Mat.minusOne ∈ l := by
    intro l
    rw [List.any_eq_true]
    constructor
    · rintro ⟨x, hx, e⟩
      rw [decide_eq_true_eq] at e
      exact e ▸ hx
    · intro h
      exact ⟨_, h, by simp⟩
  refine ⟨⟨generate gs, pointGroup (generate gs), laueGroup (pointGroup (generate gs)),
    centro || (pointGroup (generate gs)).any (fun s => decide (s = Mat.minusOne))⟩, gs, centro, ?_, ?_, hgen,
    ?_, ?_, ?_, ?_, ?_, rfl, ?_, rfl, ?_, ?_⟩
  · rw [generateSGSym, if_neg hsg, hs]
    simp only [Option.bind_eq_bind, Option.bind_some, hm, Option.pure_def]
  · simp only [Option.bind_some, hm]
  · simp only [hgen]; exact hgrp
  · simp only [hgen]; exact hgend
  · simp only [hgen]; exact hgin
  · simp only [hgen]; exact hdet
  · simp only [hgen, List.length_map]; exact hlen
  · simp only [hgen]; rw [hpl]; exact hR
  · simp only [hgen]
    rw [hpl]
    rcases hinv with h | h
    · exact Or.inl (hmin h)
    · exact Or.inr h
  · simp only [hgen, Bool.or_eq_true, hany]
    constructor
    · rintro (h | h)
      · rcases hcen with h' | h'
        · exact hmin h'
        · rw [h] at h'
          cases h'
      · exact h
    · exact Or.inr

end Hexrd.SpaceGroup
