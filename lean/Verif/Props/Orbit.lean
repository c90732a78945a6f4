import Verif.Lemmas.Orbit
import Mathlib.Tactic.Positivity

/-!
# Orbits of atom positions (C28)
-/
namespace Hexrd.UnitCell

open Matrix Hexrd.SpaceGroup

/-- Specification: two positions differ by a lattice translation. -/
def Congruent (v w : V3) : Prop := ∀ i, ∃ z : Int, v i = w i + z

/-- Specification: a position in the unit cell. -/
def InCell (v : V3) : Prop := ∀ i, 0 ≤ v i ∧ v i < 1

/-- Specification: `w` is the position in the unit cell of an image of `v` under one of
the operators. -/
def Image (ops : List Op) (v w : V3) : Prop := InCell w ∧ ∃ p ∈ ops, Congruent w (applyOp p v)

/-- Specification: the images of `v` are resolved by the tolerances of the code: no
coordinate is positive and below 1e-6, and different images are at 1e-3 or more. -/
def Resolved (L : Cell) (ops : List Op) (v : V3) : Prop :=
  (∀ w, Image ops v w → ∀ i, w i = 0 ∨ 1 / 1000000 ≤ w i) ∧
  ∀ w w', Image ops v w → Image ops v w' → w ≠ w' → 1 / 1000 ≤ calcLength L (w - w') .d

/-- The facts about the loop. -/
theorem orbit_facts (L : Cell) (ops : List Op) (v : V3) :
    v ∈ calcOrbit L ops v ∧
    (∀ w ∈ calcOrbit L ops v, w = v ∨ ∃ p ∈ ops, w = fun i => reduce1 (applyOp p v i)) ∧
    (∀ p ∈ ops, ∃ w ∈ calcOrbit L ops v, (w = fun i => reduce1 (applyOp p v i)) ∨
      calcLength L ((fun i => reduce1 (applyOp p v i)) - w) .d < 1 / 1000) ∧
    (calcOrbit L ops v).Pairwise fun a b => 1 / 1000 ≤ calcLength L (b - a) .d := by
  obtain ⟨h1, h2, h3, h4⟩ := collect_facts (fun c w => decide (calcLength L (c - w) .d < 1 / 1000)) [v]
    (ops.map fun p i => reduce1 (applyOp p v i)) (isNewPos L) (fun l c => rfl)
  rw [← calcOrbit_eq] at h1 h2 h3 h4
  refine ⟨h1 v (by simp), ?_, ?_, ?_⟩
  · intro w hw
    rcases h2 w hw with h | h
    · left; simpa using h
    · right
      obtain ⟨p, hp, e⟩ := List.mem_map.1 h
      exact ⟨p, hp, e.symm⟩
  · intro p hp
    rcases h3 _ (List.mem_map.2 ⟨p, hp, rfl⟩) with h | ⟨w, hw, h⟩
    · exact ⟨_, h, Or.inl rfl⟩
    · exact ⟨w, hw, Or.inr (by simpa using h)⟩
  · refine (h4 (List.pairwise_singleton _ _)).imp ?_
    intro a b h
    simpa using h

/-- C28, without any assumption: the listed positions are pairwise at least 1e-3 apart, so
none is listed twice; every operator's image is listed up to 1e-3; and every listed
position is the input or an image, in the cell, up to the 1e-6 cleared next to 0. -/
theorem orbit_distinct (L : Cell) (ops : List Op) (v : V3) :
    (calcOrbit L ops v).Nodup ∧
    ((calcOrbit L ops v).Pairwise fun a b => 1 / 1000 ≤ calcLength L (b - a) .d) ∧
    (∀ w ∈ calcOrbit L ops v, w = v ∨ InCell w ∧ ∃ p ∈ ops, ∀ i, ∃ z : Int,
      |w i - (applyOp p v i + z)| < 1 / 1000000) := by
  obtain ⟨h1, h2, h3, h4⟩ := orbit_facts L ops v
  refine ⟨?_, h4, ?_⟩
  · refine h4.imp ?_
    rintro a b h rfl
    rw [sub_self, calcLength_zero] at h
    linarith
  · intro w hw
    rcases h2 w hw with h | ⟨p, hp, rfl⟩
    · exact Or.inl h
    · refine Or.inr ⟨?_, p, hp, ?_⟩
      · intro i
        simp only [reduce1_eq]
        split
        · norm_num
        · exact ⟨Int.fract_nonneg _, Int.fract_lt_one _⟩
      · intro i
        refine ⟨-⌊applyOp p v i⌋, ?_⟩
        simp only [reduce1_eq]
        have e : applyOp p v i + ((-⌊applyOp p v i⌋ : Int) : ℝ) = Int.fract (applyOp p v i) := by
          push_cast; unfold Int.fract; ring
        rw [e]
        split
        · rename_i h
          rw [zero_sub, abs_neg, abs_of_nonneg (Int.fract_nonneg _)]; exact h
        · rw [sub_self, abs_zero]; norm_num

theorem congruent_cell {v w : V3} (h : Congruent v w) (hv : InCell v) (hw : InCell w) : v = w := by
  funext i
  obtain ⟨z, hz⟩ := h i
  have h1 := hv i
  have h2 := hw i
  have z0 : z = 0 := by
    have a : (z : ℝ) < 1 := by linarith
    have b : (-1 : ℝ) < z := by linarith
    have a' : z < 1 := by exact_mod_cast a
    have b' : -1 < z := by exact_mod_cast b
    omega
  rw [hz, z0]; simp

theorem Congruent.symm {v w : V3} (h : Congruent v w) : Congruent w v := by
  intro i; obtain ⟨z, hz⟩ := h i; exact ⟨-z, by rw [hz]; push_cast; ring⟩

theorem Congruent.trans {u v w : V3} (h : Congruent u v) (h' : Congruent v w) : Congruent u w := by
  intro i; obtain ⟨z, hz⟩ := h i; obtain ⟨y, hy⟩ := h' i
  exact ⟨y + z, by rw [hz, hy]; push_cast; ring⟩

/-- The cell position of an operator's image is an image. -/
theorem image_fract (ops : List Op) (v : V3) (p : Op) (hp : p ∈ ops) :
    Image ops v fun i => Int.fract (applyOp p v i) :=
  ⟨fun i => ⟨Int.fract_nonneg _, Int.fract_lt_one _⟩, p, hp,
    fun i => ⟨-⌊applyOp p v i⌋, by push_cast; unfold Int.fract; ring⟩⟩

/-- Resolved images are reduced exactly. -/
theorem reduce_resolved {L : Cell} {ops : List Op} {v : V3} (hr : Resolved L ops v) (p : Op) (hp : p ∈ ops) :
    (fun i => reduce1 (applyOp p v i)) = fun i => Int.fract (applyOp p v i) := by
  funext i
  rw [reduce1_eq]
  split
  · rename_i h
    rcases hr.1 _ (image_fract ops v p hp) i with h' | h'
    · exact h'.symm
    · exact absurd h (not_lt.2 h')
  · rfl

theorem applyOp_one (v : V3) : applyOp Op.one v = v := by
  ext i
  fin_cases i <;> simp [applyOp, toReal, Op.one, dotProduct, Fin.sum_univ_three]

/-- Membership of the input itself. -/
theorem image_self (ops : List Op) (h1 : Op.one ∈ ops) (v : V3) (hv : InCell v) : Image ops v v :=
  ⟨hv, Op.one, h1, fun i => ⟨0, by rw [applyOp_one]; simp⟩⟩

/-- C28: for a position in the unit cell whose images are resolved, the orbit is exactly
the set of the images in the cell, each listed once. -/
theorem orbit_exact (L : Cell) (ops : List Op) (h1 : Op.one ∈ ops) (v : V3) (hv : InCell v)
    (hr : Resolved L ops v) :
    (calcOrbit L ops v).Nodup ∧ ∀ w, w ∈ calcOrbit L ops v ↔ Image ops v w := by
  obtain ⟨f1, f2, f3, f4⟩ := orbit_facts L ops v
  have sound : ∀ w, w ∈ calcOrbit L ops v → Image ops v w := by
    intro w hw
    rcases f2 w hw with rfl | ⟨p, hp, rfl⟩
    · exact image_self ops h1 _ hv
    · rw [reduce_resolved hr p hp]; exact image_fract ops v p hp
  refine ⟨(orbit_distinct L ops v).1, fun w => ⟨sound w, ?_⟩⟩
  rintro ⟨hw, p, hp, hc⟩
  have e : w = fun i => Int.fract (applyOp p v i) :=
    congruent_cell (hc.trans (Congruent.symm fun i => ⟨-⌊applyOp p v i⌋, by push_cast; unfold Int.fract; ring⟩)) hw
      fun i => ⟨Int.fract_nonneg _, Int.fract_lt_one _⟩
  obtain ⟨w', hw', h⟩ := f3 p hp
  rw [reduce_resolved hr p hp, ← e] at h
  rcases h with rfl | h
  · exact hw'
  · by_cases hne : w = w'
    · rw [hne]; exact hw'
    · exact absurd h (not_lt.2 (hr.2 w w' ⟨hw, p, hp, hc⟩ (sound w' hw') hne))

/-- Composition of operators on positions, up to lattice translations. -/
theorem applyOp_comp (p q : Op) (v : V3) : Congruent (applyOp (p.comp q) v) (applyOp p (applyOp q v)) := by
  have key : ∀ t : Int, ((t % 24 : Int) : ℝ) / 24 = t / 24 + ((-(t / 24) : Int) : ℝ) := by
    intro t
    have h : t % 24 + 24 * (t / 24) = t := Int.emod_add_mul_ediv t 24
    have h' : ((t % 24 : Int) : ℝ) + 24 * ((t / 24 : Int) : ℝ) = (t : ℝ) := by exact_mod_cast h
    push_cast
    linear_combination h' / 24
  intro i
  fin_cases i
  · refine ⟨-((p.mul q).t.x / 24), ?_⟩
    simp only [Op.comp, Op.frac, applyOp, toReal, key, Matrix.mulVec, dotProduct, Fin.sum_univ_three, Pi.add_apply]
    simp [Op.mul, Mat.mul, Mat.act, Vec.add]
    ring
  · refine ⟨-((p.mul q).t.y / 24), ?_⟩
    simp only [Op.comp, Op.frac, applyOp, toReal, key, Matrix.mulVec, dotProduct, Fin.sum_univ_three, Pi.add_apply]
    simp [Op.mul, Mat.mul, Mat.act, Vec.add]
    ring
  · refine ⟨-((p.mul q).t.z / 24), ?_⟩
    simp only [Op.comp, Op.frac, applyOp, toReal, key, Matrix.mulVec, dotProduct, Fin.sum_univ_three, Pi.add_apply]
    simp [Op.mul, Mat.mul, Mat.act, Vec.add]
    ring

/-- Operators respect lattice translations. -/
theorem applyOp_congr (p : Op) {v w : V3} (h : Congruent v w) : Congruent (applyOp p v) (applyOp p w) := by
  obtain ⟨z0, h0⟩ := h 0
  obtain ⟨z1, h1⟩ := h 1
  obtain ⟨z2, h2⟩ := h 2
  intro i
  fin_cases i
  · refine ⟨p.r.a * z0 + p.r.b * z1 + p.r.c * z2, ?_⟩
    simp [applyOp, toReal, dotProduct, Fin.sum_univ_three, h0, h1, h2]
    ring
  · refine ⟨p.r.d * z0 + p.r.e * z1 + p.r.f * z2, ?_⟩
    simp [applyOp, toReal, dotProduct, Fin.sum_univ_three, h0, h1, h2]
    ring
  · refine ⟨p.r.g * z0 + p.r.h * z1 + p.r.i * z2, ?_⟩
    simp [applyOp, toReal, dotProduct, Fin.sum_univ_three, h0, h1, h2]
    ring

/-- Equivalent positions have the same images. -/
theorem images_of_copy (ops : List Op) (hg : Spec.IsGroup Op.comp Op.one ops) (v v' : V3) (hvv : Image ops v v')
    (w : V3) : Image ops v' w ↔ Image ops v w := by
  obtain ⟨hv', p, hp, hpc⟩ := hvv
  constructor
  · rintro ⟨hw, q, hq, hc⟩
    exact ⟨hw, q.comp p, hg.mul_mem q hq p hp, hc.trans ((applyOp_congr q hpc).trans (applyOp_comp q p v).symm)⟩
  · rintro ⟨hw, q, hq, hc⟩
    obtain ⟨r, hr, e1, e2⟩ := hg.inv_mem p hp
    refine ⟨hw, q.comp r, hg.mul_mem q hq r hr, ?_⟩
    refine hc.trans ?_
    have hrv : Congruent (applyOp r v') v := by
      refine (applyOp_congr r hpc).trans ((applyOp_comp r p v).symm.trans ?_)
      have : r.comp p = Op.one := e2
      rw [this, applyOp_one]
      exact fun i => ⟨0, by simp⟩
    exact (applyOp_congr q hrv).symm.trans (applyOp_comp q r v').symm

/-- C28: for every space group and setting, two equivalent positions in the unit cell
with resolved images have the same orbit, hence the same number of atoms. -/
theorem orbit_of_copy (sg setting : Nat) (hs1 : 1 ≤ sg) (hs2 : sg ≤ 237) (L : Cell) :
    ∃ S, generateSGSym sg setting = some S ∧ ∀ v v' : V3, InCell v → Image S.ops v v' → Resolved L S.ops v →
      (calcOrbit L S.ops v').Perm (calcOrbit L S.ops v) ∧
      (calcOrbit L S.ops v').length = (calcOrbit L S.ops v).length := by
  obtain ⟨S, e, hg, -, -⟩ := operators_form_group sg setting hs1 hs2
  refine ⟨S, e, ?_⟩
  intro v v' hv hvv hr
  have him := images_of_copy S.ops hg v v' hvv
  have hr' : Resolved L S.ops v' :=
    ⟨fun w hw => hr.1 w ((him w).1 hw), fun w w' hw hw' => hr.2 w w' ((him w).1 hw) ((him w').1 hw')⟩
  obtain ⟨n1, m1⟩ := orbit_exact L S.ops hg.one_mem v hv hr
  obtain ⟨n2, m2⟩ := orbit_exact L S.ops hg.one_mem v' hvv.1 hr'
  have hp : (calcOrbit L S.ops v').Perm (calcOrbit L S.ops v) :=
    (List.perm_ext_iff_of_nodup n2 n1).2 fun w => by rw [m1, m2, him]
  exact ⟨hp, hp.length_eq⟩

/-- C28, disagreement: a position outside the unit cell is listed as it is, in addition to
its images in the cell: one atom too many. -/
theorem outside_counted_twice (L : Cell) (ops : List Op) (hg : Spec.IsGroup Op.comp Op.one ops) (v v' : V3)
    (hout : ¬ InCell v) (hv' : Image ops v v') (hr : Resolved L ops v)
    (hfar : ∀ w, Image ops v w → 1 / 1000 ≤ calcLength L (w - v) .d) :
    (calcOrbit L ops v).length = (calcOrbit L ops v').length + 1 := by
  have him := images_of_copy ops hg v v' hv'
  have hr' : Resolved L ops v' :=
    ⟨fun w hw => hr.1 w ((him w).1 hw), fun w w' hw hw' => hr.2 w w' ((him w).1 hw) ((him w').1 hw')⟩
  obtain ⟨n2, m2⟩ := orbit_exact L ops hg.one_mem v' hv'.1 hr'
  obtain ⟨f1, f2, f3, f4⟩ := orbit_facts L ops v
  have n1 := (orbit_distinct L ops v).1
  have hmem : ∀ w, w ∈ calcOrbit L ops v ↔ w = v ∨ Image ops v w := by
    intro w
    constructor
    · intro hw
      rcases f2 w hw with h | ⟨p, hp, rfl⟩
      · exact Or.inl h
      · right; rw [reduce_resolved hr p hp]; exact image_fract ops v p hp
    · rintro (rfl | ⟨hw, p, hp, hc⟩)
      · exact f1
      · have e : w = fun i => Int.fract (applyOp p v i) :=
          congruent_cell (hc.trans (Congruent.symm fun i => ⟨-⌊applyOp p v i⌋, by push_cast; unfold Int.fract; ring⟩))
            hw fun i => ⟨Int.fract_nonneg _, Int.fract_lt_one _⟩
        have hwi : Image ops v w := ⟨hw, p, hp, hc⟩
        obtain ⟨w', hw', h⟩ := f3 p hp
        rw [reduce_resolved hr p hp, ← e] at h
        rcases h with rfl | h
        · exact hw'
        · rcases f2 w' hw' with rfl | ⟨q, hq, hq'⟩
          · exact absurd h (not_lt.2 (hfar w hwi))
          · rw [reduce_resolved hr q hq] at hq'
            have hwi' : Image ops v w' := hq' ▸ image_fract ops v q hq
            by_cases hne : w = w'
            · rw [hne]; exact hw'
            · exact absurd h (not_lt.2 (hr.2 w w' hwi hwi' hne))
  have hp : (calcOrbit L ops v).Perm (v :: calcOrbit L ops v') := by
    refine (List.perm_ext_iff_of_nodup n1 ?_).2 ?_
    · rw [List.nodup_cons]
      exact ⟨fun h => hout ((m2 v).1 h).1, n2⟩
    · intro w
      rw [hmem, List.mem_cons, m2, him]
  simpa using hp.length_eq

/-- Specification: some atom generated from `p` is closer than `tol` Angstrom to some atom
generated from `q` (lengths are in nanometres). -/
def Collide (L : Cell) (ops : List Op) (tol : ℝ) (p q : V3) : Prop :=
  ∃ v ∈ calcOrbit L ops p, ∃ w ∈ calcOrbit L ops q, calcLength L (v - w) .d < tol / 10

/-- Specification: two partly occupied atoms on one site. -/
def ShareSite (a k : Atom) : Prop :=
  (∀ i, |a.pos i - k.pos i| ≤ 1 / 100000000 + 1 / 100000 * |k.pos i|) ∧ a.occ + k.occ ≤ 1

theorem orbitsMeet_iff (L : Cell) (ops : List Op) (tol : ℝ) (p q : V3) :
    orbitsMeet L ops tol p q = true ↔ Collide L ops tol p q := by
  simp only [orbitsMeet, List.any_eq_true, decide_eq_true_eq, Collide]
  constructor
  · rintro ⟨v, hv, w, hw, h⟩
    exact ⟨w, hw, v, hv, by rw [← neg_sub, calcLength_neg]; exact h⟩
  · rintro ⟨w, hw, v, hv, h⟩
    exact ⟨v, hv, w, hw, by rw [← neg_sub, calcLength_neg]; exact h⟩

theorem keepAtom_true (L : Cell) (ops : List Op) (tol : ℝ) (a : Atom) (kept : List Atom)
    (h : keepAtom L ops tol a kept = true) :
    (∃ k ∈ kept, ShareSite a k) ∨ ∀ k ∈ kept, ¬ Collide L ops tol a.pos k.pos := by
  induction kept with
  | nil => right; simp
  | cons k ks ih =>
    unfold keepAtom at h
    split at h
    · rename_i hs
      left
      simp only [samePos, Bool.and_eq_true, decide_eq_true_eq] at hs
      exact ⟨k, by simp, hs⟩
    · split at h
      · exact absurd h (by simp)
      · rename_i hm
        rw [orbitsMeet_iff] at hm
        rcases ih h with ⟨k', hk', hs⟩ | hn
        · exact Or.inl ⟨k', List.mem_cons_of_mem _ hk', hs⟩
        · right
          intro k' hk'
          rcases List.mem_cons.1 hk' with rfl | h'
          · exact hm
          · exact hn k' h'

theorem keepAtom_false (L : Cell) (ops : List Op) (tol : ℝ) (a : Atom) (kept : List Atom)
    (h : keepAtom L ops tol a kept = false) :
    ∃ k ∈ kept, Collide L ops tol a.pos k.pos ∧ ¬ ShareSite a k := by
  induction kept with
  | nil => simp [keepAtom] at h
  | cons k ks ih =>
    unfold keepAtom at h
    split at h
    · exact absurd h (by simp)
    · rename_i hs
      split at h
      · rename_i hm
        refine ⟨k, by simp, (orbitsMeet_iff ..).1 hm, ?_⟩
        simpa [samePos, ShareSite] using hs
      · obtain ⟨k', hk', r⟩ := ih h
        exact ⟨k', List.mem_cons_of_mem _ hk', r⟩

theorem removeDuplicates_snoc (L : Cell) (ops : List Op) (tol : ℝ) (l : List Atom) (a : Atom) :
    removeDuplicates L ops tol (l ++ [a]) =
      if keepAtom L ops tol a (removeDuplicates L ops tol l) then removeDuplicates L ops tol l ++ [a]
      else removeDuplicates L ops tol l := by
  unfold removeDuplicates
  rw [List.foldl_append]
  rfl

/-- C59: the atoms kept are atoms of the list in their order, the first one is kept, and
every atom removed has generated atoms closer than the tolerance to those of a kept atom
with which it does not merely share a site. -/
theorem removed_collides (L : Cell) (ops : List Op) (tol : ℝ) (atoms : List Atom) :
    (removeDuplicates L ops tol atoms).Sublist atoms ∧
    (removeDuplicates L ops tol atoms).head? = atoms.head? ∧
    ∀ a ∈ atoms, a ∈ removeDuplicates L ops tol atoms ∨
      ∃ k ∈ removeDuplicates L ops tol atoms, Collide L ops tol a.pos k.pos ∧ ¬ ShareSite a k := by
  induction atoms using List.reverseRecOn with
  | nil => simp [removeDuplicates]
  | append_singleton l a ih =>
    obtain ⟨i1, i2, i3⟩ := ih
    rw [removeDuplicates_snoc]
    by_cases h : keepAtom L ops tol a (removeDuplicates L ops tol l) = true
    · rw [if_pos h]
      refine ⟨i1.append_right _, ?_, ?_⟩
      · rw [List.head?_append, List.head?_append, i2]
      · intro b hb
        rcases List.mem_append.1 hb with hb | hb
        · rcases i3 b hb with r | ⟨k, hk, r⟩
          · exact Or.inl (List.mem_append_left _ r)
          · exact Or.inr ⟨k, List.mem_append_left _ hk, r⟩
        · exact Or.inl (List.mem_append_right _ hb)
    · rw [if_neg h]
      have hf := keepAtom_false L ops tol a _ (Bool.eq_false_iff.2 h)
      refine ⟨i1.trans (List.sublist_append_left _ _), ?_, ?_⟩
      · rw [i2]
        cases l with
        | nil => simp [removeDuplicates, keepAtom] at h
        | cons b l => simp
      · intro b hb
        rcases List.mem_append.1 hb with hb | hb
        · exact i3 b hb
        · rw [List.mem_singleton.1 hb]; exact Or.inr hf

/-- C59, proved part: of two kept atoms, the later one generates no atom closer than the
tolerance to one of the earlier, unless it shares its site with some kept atom. Missing:
that it then shares it with that very atom, and that the occupancies of a site sum to at
most 1 (false: see `three_halves`). -/
theorem kept_apart_partial (L : Cell) (ops : List Op) (tol : ℝ) (atoms : List Atom) :
    (removeDuplicates L ops tol atoms).Pairwise fun k a =>
      ¬ Collide L ops tol a.pos k.pos ∨ ∃ k' ∈ removeDuplicates L ops tol atoms, ShareSite a k' := by
  induction atoms using List.reverseRecOn with
  | nil => simp [removeDuplicates]
  | append_singleton l a ih =>
    rw [removeDuplicates_snoc]
    by_cases h : keepAtom L ops tol a (removeDuplicates L ops tol l) = true
    · rw [if_pos h, List.pairwise_append]
      refine ⟨ih.imp ?_, List.pairwise_singleton _ _, ?_⟩
      · rintro k b (r | ⟨k', hk', r⟩)
        · exact Or.inl r
        · exact Or.inr ⟨k', List.mem_append_left _ hk', r⟩
      · intro k hk b hb
        rw [List.mem_singleton.1 hb]
        rcases keepAtom_true L ops tol a _ h with ⟨k', hk', r⟩ | r
        · exact Or.inr ⟨k', List.mem_append_left _ hk', r⟩
        · exact Or.inl (r k hk)
    · rw [if_neg h]; exact ih

/-- C59, for lists in which no two atoms share a site, in particular fully occupied ones:
the kept atoms generate atoms that are pairwise at least the tolerance apart. -/
theorem kept_apart (L : Cell) (ops : List Op) (tol : ℝ) (atoms : List Atom)
    (hno : ∀ a ∈ atoms, ∀ k ∈ atoms, ¬ ShareSite a k) :
    (removeDuplicates L ops tol atoms).Pairwise fun k a => ¬ Collide L ops tol a.pos k.pos := by
  refine List.Pairwise.imp_of_mem ?_ (kept_apart_partial L ops tol atoms)
  intro k a hk ha h
  have hsub := (removed_collides L ops tol atoms).1
  rcases h with h | ⟨k', hk', hs⟩
  · exact h
  · exact absurd hs (hno a (hsub.subset ha) k' (hsub.subset hk'))

/-- Concrete case: fully occupied atoms, wherever they are. -/
example (atoms : List Atom) (h : ∀ a ∈ atoms, a.occ = 1) : ∀ a ∈ atoms, ∀ k ∈ atoms, ¬ ShareSite a k := by
  rintro a ha k hk ⟨-, hs⟩
  rw [h a ha, h k hk] at hs
  norm_num at hs

/-- C59, disagreement: three atoms on one site, each with occupancy 1/2, are all kept. -/
theorem three_halves (L : Cell) (ops : List Op) (tol : ℝ) (v : V3) :
    removeDuplicates L ops tol [⟨v, 1 / 2⟩, ⟨v, 1 / 2⟩, ⟨v, 1 / 2⟩] = [⟨v, 1 / 2⟩, ⟨v, 1 / 2⟩, ⟨v, 1 / 2⟩] := by
  have h : samePos v v = true := by
    simp only [samePos, decide_eq_true_eq]
    intro i
    rw [sub_self, abs_zero]
    positivity
  have e : decide ((1 : ℝ) / 2 + 1 / 2 ≤ 1) = true := by rw [decide_eq_true_eq]; norm_num
  simp only [removeDuplicates, List.foldl_cons, List.foldl_nil, keepAtom, List.nil_append, List.cons_append, h, e,
    Bool.and_self, if_true]

/-- Distances in the unit cube. -/
theorem cube_length (u : V3) : calcLength ⟨1, 1, 1, 90, 90, 90⟩ u .d = Real.sqrt (u 0 ^ 2 + u 1 ^ 2 + u 2 ^ 2) := by
  have h : radians 90 = Real.pi / 2 := by unfold radians; ring
  simp [calcLength, metric, Cell.dmt, Cell.ca, Cell.cb, Cell.cg, h, dotProduct, Fin.sum_univ_three]
  ring_nf

/-- The centre of inversion. -/
def inversion : Op := ⟨⟨-1, 0, 0, 0, -1, 0, 0, 0, -1⟩, ⟨0, 0, 0⟩⟩

theorem quarter_images (w : V3) (h : Image [Op.one, inversion] (fun _ => 1 / 4) w) :
    w = (fun _ => 1 / 4) ∨ w = fun _ => 3 / 4 := by
  obtain ⟨hw, p, hp, hc⟩ := h
  simp only [List.mem_cons, List.not_mem_nil, or_false] at hp
  rcases hp with rfl | rfl
  · left
    rw [applyOp_one] at hc
    exact congruent_cell hc hw fun i => by norm_num
  · right
    refine congruent_cell (hc.trans ?_) hw fun i => by norm_num
    intro i
    refine ⟨-1, ?_⟩
    fin_cases i <;> simp [applyOp, toReal, inversion, dotProduct, Fin.sum_univ_three] <;> norm_num

theorem quarter_apart (s : ℝ) (hs : s ^ 2 = 1 / 4) :
    1 / 1000 ≤ calcLength ⟨1, 1, 1, 90, 90, 90⟩ (fun _ => s) .d := by
  rw [cube_length]
  refine Real.le_sqrt_of_sq_le ?_
  simp only [hs]; norm_num

/-- Concrete case of `orbit_exact`: an atom at (1/4, 1/4, 1/4) in the triclinic group with
a centre of inversion has two images. -/
theorem quarter_crystal : InCell (fun _ => 1 / 4) ∧ Resolved ⟨1, 1, 1, 90, 90, 90⟩ [Op.one, inversion] (fun _ => 1 / 4) := by
  refine ⟨fun i => by norm_num, ?_, ?_⟩
  · intro w hw i
    right
    rcases quarter_images w hw with rfl | rfl <;> norm_num
  · intro w w' hw hw' hne
    rcases quarter_images w hw with rfl | rfl <;> rcases quarter_images w' hw' with rfl | rfl
    · exact absurd rfl hne
    · exact quarter_apart (1 / 4 - 3 / 4) (by norm_num)
    · exact quarter_apart (3 / 4 - 1 / 4) (by norm_num)
    · exact absurd rfl hne

/-- The operators of this example are those generated for space group 2. -/
example : (generateSGSym 2 0).map (·.ops) = some [Op.one, inversion] := by decide +kernel

/-- Concrete case of `outside_counted_twice`, in space group 1: an atom at (3/2, 1/2, 1/2)
is two atoms. -/
theorem outside_sample :
    (calcOrbit ⟨1, 1, 1, 90, 90, 90⟩ [Op.one] ![3 / 2, 1 / 2, 1 / 2]).length = 2 ∧
    (calcOrbit ⟨1, 1, 1, 90, 90, 90⟩ [Op.one] ![1 / 2, 1 / 2, 1 / 2]).length = 1 := by
  have hg : Spec.IsGroup Op.comp Op.one [Op.one] := by
    constructor <;> simp <;> decide
  have him : ∀ w, Image [Op.one] ![3 / 2, 1 / 2, 1 / 2] w → w = ![1 / 2, 1 / 2, 1 / 2] := by
    rintro w ⟨hw, p, hp, hc⟩
    rw [List.mem_singleton] at hp
    subst hp
    rw [applyOp_one] at hc
    refine congruent_cell (hc.trans ?_) hw fun i => by fin_cases i <;> norm_num
    intro i
    fin_cases i
    · exact ⟨1, by norm_num⟩
    · exact ⟨0, by norm_num⟩
    · exact ⟨0, by norm_num⟩
  have him' : Image [Op.one] ![3 / 2, 1 / 2, 1 / 2] ![1 / 2, 1 / 2, 1 / 2] := by
    refine ⟨fun i => by fin_cases i <;> norm_num, Op.one, by simp, ?_⟩
    rw [applyOp_one]
    intro i
    fin_cases i
    · exact ⟨-1, by norm_num⟩
    · exact ⟨0, by norm_num⟩
    · exact ⟨0, by norm_num⟩
  have hr : Resolved ⟨1, 1, 1, 90, 90, 90⟩ [Op.one] ![3 / 2, 1 / 2, 1 / 2] := by
    refine ⟨?_, ?_⟩
    · intro w hw i
      rw [him w hw]
      right
      fin_cases i <;> norm_num
    · intro w w' hw hw' hne
      rw [him w hw, him w' hw'] at hne
      exact absurd rfl hne
  have h1 : (calcOrbit ⟨1, 1, 1, 90, 90, 90⟩ [Op.one] ![1 / 2, 1 / 2, 1 / 2]).length = 1 := by
    have hcell : InCell ![1 / 2, 1 / 2, 1 / 2] := him'.1
    have hi := images_of_copy [Op.one] hg _ _ him'
    have hr' : Resolved ⟨1, 1, 1, 90, 90, 90⟩ [Op.one] ![1 / 2, 1 / 2, 1 / 2] :=
      ⟨fun w hw => hr.1 w ((hi w).1 hw), fun w w' hw hw' => hr.2 w w' ((hi w).1 hw) ((hi w').1 hw')⟩
    obtain ⟨n, m⟩ := orbit_exact ⟨1, 1, 1, 90, 90, 90⟩ [Op.one] (by simp) _ hcell hr'
    have hp : (calcOrbit ⟨1, 1, 1, 90, 90, 90⟩ [Op.one] ![1 / 2, 1 / 2, 1 / 2]).Perm [![1 / 2, 1 / 2, 1 / 2]] := by
      refine (List.perm_ext_iff_of_nodup n (List.nodup_singleton _)).2 fun w => ?_
      rw [m, hi, List.mem_singleton]
      exact ⟨him w, fun e => e ▸ him'⟩
    simpa using hp.length_eq
  refine ⟨?_, h1⟩
  rw [outside_counted_twice ⟨1, 1, 1, 90, 90, 90⟩ [Op.one] hg _ _ ?_ him' hr ?_, h1]
  · intro h
    have := (h 0).2
    norm_num at this
  · intro w hw
    rw [him w hw, cube_length]
    refine Real.le_sqrt_of_sq_le ?_
    simp
    norm_num

end Hexrd.UnitCell
