import Verif.Lemmas.HklRange
import Verif.Props.Absences

/-! What `getHKLs` returns. -/
namespace Hexrd.Hkls

open Hexrd.SpaceGroup Hexrd.UnitCell Hexrd.UnitCell.Cell

/-! ### Sorting -/

theorem key_trans (a b c : SortKey) (h1 : a.le b) (h2 : b.le c) : a.le c := by
  rcases h1 with h1 | ⟨e1, h1⟩ <;> rcases h2 with h2 | ⟨e2, h2⟩
  · exact Or.inl (lt_trans h1 h2)
  · exact Or.inl (e2 ▸ h1)
  · exact Or.inl (e1 ▸ h2)
  · exact Or.inr ⟨e1.trans e2, le_trans h1 h2⟩

theorem key_total (a b : SortKey) : a.le b ∨ b.le a := by
  rcases lt_trichotomy a.glen b.glen with h | h | h
  · exact Or.inl (Or.inl h)
  · rcases le_total a.rest b.rest with h' | h'
    · exact Or.inl (Or.inr ⟨h, h'⟩)
    · exact Or.inr (Or.inr ⟨h.symm, h'⟩)
  · exact Or.inr (Or.inl h)

theorem sort_perm (L : Cell) (l : List Vec) : List.Perm (sortHKL L l) l := List.mergeSort_perm l _

theorem sort_sorted (L : Cell) (l : List Vec) (hn : l.Nodup) :
    (sortHKL L l).Pairwise (Spec.Before fun g => round8 (Spec.glen L g)) := by
  have h1 : (sortHKL L l).Pairwise fun a b => (sortKey L a).le (sortKey L b) := by
    have := List.pairwise_mergeSort (le := fun a b => @decide ((sortKey L a).le (sortKey L b)) (Classical.propDecidable _))
      (fun a b c h1 h2 => by
        simp only [decide_eq_true_eq] at h1 h2 ⊢; exact key_trans _ _ _ h1 h2)
      (fun a b => by
        simp only [Bool.or_eq_true, decide_eq_true_eq]; exact key_total _ _) l
    refine this.imp ?_
    intro a b h
    simpa using h
  have hn' : (sortHKL L l).Nodup := (sort_perm L l).nodup_iff.2 hn
  refine (h1.and hn').imp ?_
  rintro a b ⟨h, hne⟩
  rcases h with h | ⟨e, h⟩
  · exact Or.inl h
  · refine Or.inr ⟨e, ?_⟩
    by_contra hlt
    have : (sortKey L a).rest = (sortKey L b).rest := le_antisymm h (not_lt.1 hlt)
    refine hne ?_
    obtain ⟨x, y, z⟩ := a
    obtain ⟨x', y', z'⟩ := b
    simp only [sortKey, List.cons.injEq, and_true] at this
    obtain ⟨_, _, rfl, rfl, rfl⟩ := this
    rfl

/-! ### Families -/

theorem choose_spec {sym : List Mat} (h : Closed sym) (l : List Vec) (hn : l.Nodup) :
    (chooseSymmetric sym l).Pairwise (fun a b => ¬ Spec.Equivalent sym a b) ∧
    (∀ g ∈ l, ∃ r ∈ chooseSymmetric sym l, Spec.Equivalent sym g r) ∧
    (∀ r ∈ chooseSymmetric sym l, (∃ g ∈ l, Spec.Equivalent sym g r) ∧
      ∀ v, Spec.Equivalent sym r v → vsum v ≤ vsum r) := by
  obtain ⟨c1, c2⟩ := clear_spec h l hn
  refine ⟨?_, ?_, ?_⟩
  · rw [chooseSymmetric, List.pairwise_map]
    have hp := hn.filter (fun g => decide (g ∉ clearLoop sym l))
    refine List.Pairwise.imp_of_mem ?_ hp
    intro a b ha hb hne he
    rw [List.mem_filter, decide_eq_true_eq] at ha hb
    have hab : Spec.Equivalent sym a b :=
      equiv_trans h (mostPositive_spec h a).1 (equiv_trans h he (equiv_symm h (mostPositive_spec h b).1))
    exact hb.2 ((c1 b).2 ⟨a, ha.1, ha.2, hab, fun e => hne e.symm⟩)
  · intro g hg
    obtain ⟨r, hr, hrc, hgr⟩ := c2 g hg
    refine ⟨mostPositive sym r, ?_, equiv_trans h hgr (mostPositive_spec h r).1⟩
    rw [chooseSymmetric, List.mem_map]
    exact ⟨r, List.mem_filter.2 ⟨hr, by simpa using hrc⟩, rfl⟩
  · intro r hr
    rw [chooseSymmetric, List.mem_map] at hr
    obtain ⟨g, hg, rfl⟩ := hr
    refine ⟨⟨g, (List.mem_filter.1 hg).1, (mostPositive_spec h g).1⟩, ?_⟩
    intro v hv
    exact (mostPositive_spec h g).2 v (equiv_trans h (mostPositive_spec h g).1 hv)

/-! ### The list -/

/-- The candidates of `getHKLs`. -/
noncomputable def candidates (L : Cell) (dmin : ℝ) : List Vec :=
  box (maxIndex L dmin fun n => ⟨n, 0, 0⟩) (maxIndex L dmin fun n => ⟨0, n, 0⟩) (maxIndex L dmin fun n => ⟨0, 0, n⟩)

theorem glen_eq (L : Cell) (g : Vec) : Spec.glen L g = calcLength L (vec g) .r := rfl

theorem inRange_equiv {L : Cell} {S : SGSym} {sym : List Mat} (hF : Fits L S sym) {dmin : ℝ} {u v : Vec}
    (e : Spec.Equivalent sym u v) (hu : Spec.InRange L S.ops dmin u) : Spec.InRange L S.ops dmin v := by
  refine ⟨?_, fun hv => hu.2.1 (hF.extinct v u (equiv_symm hF.closed e) hv), ?_⟩
  · intro hv
    subst hv
    obtain ⟨s, _, hs⟩ := equiv_symm hF.closed e
    refine hu.1 ?_
    rw [← hs]
    simp [Mat.act]
  · have := hu.2.2
    rw [glen_eq] at this ⊢
    rw [hF.length u v e]
    exact this

theorem nonzero_iff (g : Vec) : g.x.natAbs + g.y.natAbs + g.z.natAbs ≠ 0 ↔ g ≠ ⟨0, 0, 0⟩ := by
  obtain ⟨x, y, z⟩ := g
  simp only [ne_eq, Vec.mk.injEq, not_iff_not]
  omega

theorem getHKLs_spec {L : Cell} {sg : Nat} {S : SGSym} {sym : List Mat} {dmin : ℝ} (hF : Fits L S sym)
    (l' : List Vec) (ha : allowedHKLs sg (candidates L dmin) = some l') (hsub : l'.Sublist (candidates L dmin))
    (hext : ∀ h ∈ l', ¬ SpaceGroup.Spec.Extinct S.ops h) :
    (getHKLs L sg sym dmin = none ↔ ∀ g ∈ l', ¬ Spec.InRange L S.ops dmin g) ∧
    ∀ l, getHKLs L sg sym dmin = some l →
      (∀ r ∈ l, Spec.InRange L S.ops dmin r ∧ ∃ g ∈ l', Spec.Equivalent sym g r) ∧
      (∀ g ∈ l', Spec.InRange L S.ops dmin g → ∃ r ∈ l, Spec.Equivalent sym g r) ∧
      l.Pairwise (fun a b => ¬ Spec.Equivalent sym a b) ∧
      (∀ r ∈ l, ∀ v, Spec.Equivalent sym r v → vsum v ≤ vsum r) ∧
      l.Pairwise (Spec.Before fun g => round8 (Spec.glen L g)) := by
  have hmem : ∀ g, g ∈ (l'.filter fun g => decide (g.x.natAbs + g.y.natAbs + g.z.natAbs ≠ 0) &&
      @decide (dspacing L g ≥ dmin) (Classical.propDecidable _)) ↔ g ∈ l' ∧ Spec.InRange L S.ops dmin g := by
    intro g
    rw [List.mem_filter, Bool.and_eq_true, decide_eq_true_eq, decide_eq_true_eq, nonzero_iff]
    constructor
    · rintro ⟨h1, h2, h3⟩; exact ⟨h1, h2, hext g h1, h3⟩
    · rintro ⟨h1, h2, _, h3⟩; exact ⟨h1, h2, h3⟩
  have hnd : (l'.filter fun g => decide (g.x.natAbs + g.y.natAbs + g.z.natAbs ≠ 0) &&
      @decide (dspacing L g ≥ dmin) (Classical.propDecidable _)).Nodup := ((box_nodup _ _ _).sublist hsub).filter _
  have hval : getHKLs L sg sym dmin = (let l := (l'.filter fun g => decide (g.x.natAbs + g.y.natAbs + g.z.natAbs ≠ 0) &&
      @decide (dspacing L g ≥ dmin) (Classical.propDecidable _))
      if l = [] then none else some (sortHKL L (chooseSymmetric sym l))) := by
    rw [getHKLs]
    change (allowedHKLs sg (candidates L dmin)).bind _ = _
    rw [ha]
    rfl
  rw [hval]
  generalize (l'.filter fun g => decide (g.x.natAbs + g.y.natAbs + g.z.natAbs ≠ 0) &&
      @decide (dspacing L g ≥ dmin) (Classical.propDecidable _)) = c at hmem hnd
  simp only
  by_cases hc : c = []
  · rw [if_pos hc]
    subst hc
    refine ⟨⟨fun _ g hg hr => ?_, fun _ => rfl⟩, fun l h => by cases h⟩
    have := (hmem g).2 ⟨hg, hr⟩
    cases this
  · rw [if_neg hc]
    obtain ⟨s1, s2, s3⟩ := choose_spec hF.closed c hnd
    have hp := sort_perm L (chooseSymmetric sym c)
    refine ⟨⟨fun h => (by cases h), fun h => ?_⟩, ?_⟩
    · obtain ⟨g, hg⟩ := List.exists_mem_of_ne_nil c hc
      exact absurd ((hmem g).1 hg).2 (h g ((hmem g).1 hg).1)
    · intro l hl
      rw [Option.some.injEq] at hl
      subst hl
      have hnd2 : (chooseSymmetric sym c).Nodup := by
        refine s1.imp ?_
        rintro a b hab rfl
        exact hab (equiv_refl hF.closed a)
      refine ⟨?_, ?_, ?_, ?_, sort_sorted L _ hnd2⟩
      · intro r hr
        obtain ⟨g, hg, hgr⟩ := (s3 r (hp.mem_iff.1 hr)).1
        exact ⟨inRange_equiv hF hgr ((hmem g).1 hg).2, g, ((hmem g).1 hg).1, hgr⟩
      · intro g hg hr
        obtain ⟨r, hr', hgr⟩ := s2 g ((hmem g).2 ⟨hg, hr⟩)
        exact ⟨r, hp.mem_iff.2 hr', hgr⟩
      · refine (hp.pairwise_iff ?_).2 s1
        intro a b hab hba
        exact hab (equiv_symm hF.closed hba)
      · intro r hr
        exact (s3 r (hp.mem_iff.1 hr)).2

/-! ### Cover -/

/-- One of each of the key rotations of the lattice type is in the point group. -/
theorem key_mem (sg setting : Nat) (h1 : 1 ≤ sg) (h2 : sg ≤ 230) (S : SGSym)
    (e : generateSGSym sg setting = some S) (lt : LatticeType) (el : latticeTypeZ sg = some lt)
    (k : List Mat) (hk : k ∈ keyRots lt) : ∃ m ∈ k, m ∈ S.pg := by
  obtain ⟨S', gs, c0, e', hm, _, hgen, hin, _, _, hp, _⟩ := main sg setting h1 (by omega)
  rw [e] at e'
  cases e'
  have hr : rotsAt setting sg = true := by
    by_cases hk : setting = 0
    · rw [hk]; exact List.all_eq_true.1 rotsRun0 sg (List.mem_range'_1.2 (by omega))
    · have := List.all_eq_true.1 rotsRun1 sg (List.mem_range'_1.2 (by omega))
      unfold rotsAt at this ⊢
      have e2 : (symGL[sg - 1]?).bind (fun s => makeGenerators s setting) =
          (symGL[sg - 1]?).bind (fun s => makeGenerators s 1) := by
        cases symGL[sg - 1]? with
        | none => rfl
        | some s => exact makeGenerators_setting s setting hk
      rw [e2]; exact this
  unfold rotsAt at hr
  rw [hm, el] at hr
  simp only [Bool.and_eq_true, List.all_eq_true, List.any_eq_true, decide_eq_true_eq] at hr
  obtain ⟨m, hm', g, hg, em⟩ := hr.2 _ hk
  refine ⟨m, hm', ?_⟩
  rw [hp]
  exact ((pointGroup_spec S.ops).2.1 _).2 ⟨g, hin g hg, em⟩

theorem three_mem (sg setting : Nat) (h1 : 1 ≤ sg) (h2 : sg ≤ 230) (S : SGSym)
    (e : generateSGSym sg setting = some S) (lt : LatticeType) (el : latticeTypeZ sg = some lt)
    (hlt : lt = .hexagonal ∨ lt = .trigonal) : (⟨0,-1,0, 1,-1,0, 0,0,1⟩ : Mat) ∈ S.pg := by
  have hk : [⟨0,-1,0, 1,-1,0, 0,0,1⟩] ∈ keyRots lt := by
    rcases hlt with rfl | rfl <;> simp [keyRots]
  obtain ⟨m, hm', hh⟩ := key_mem sg setting h1 h2 S e lt el _ hk
  rw [List.mem_singleton] at hm'
  exact hm' ▸ hh

theorem quad_pos {A B C U : ℝ} (pA : 0 < A) (pB : 0 < B) (pC : 0 < C) (hU : U = 0 ∨ (A = B ∧ 2 * U = A)) (g : Vec)
    (hg : g ≠ ⟨0, 0, 0⟩) : 0 < A * (g.x : ℝ) ^ 2 + B * (g.y : ℝ) ^ 2 + C * (g.z : ℝ) ^ 2 + 2 * U * ((g.x : ℝ) * g.y) := by
  obtain ⟨x, y, z⟩ := g
  have hne : x ≠ 0 ∨ y ≠ 0 ∨ z ≠ 0 := by
    by_contra h
    push Not at h
    obtain ⟨rfl, rfl, rfl⟩ := h
    exact hg rfl
  have hne' : (x : ℝ) ≠ 0 ∨ (y : ℝ) ≠ 0 ∨ (z : ℝ) ≠ 0 := by exact_mod_cast hne
  simp only
  generalize (x : ℝ) = p at *
  generalize (y : ℝ) = q at *
  generalize (z : ℝ) = r at *
  rcases hU with rfl | ⟨rfl, hU⟩
  · rcases hne' with h | h | h
    · have : 0 < p ^ 2 := by positivity
      nlinarith [mul_pos pA this, mul_nonneg pB.le (sq_nonneg q), mul_nonneg pC.le (sq_nonneg r)]
    · have : 0 < q ^ 2 := by positivity
      nlinarith [mul_pos pB this, mul_nonneg pA.le (sq_nonneg p), mul_nonneg pC.le (sq_nonneg r)]
    · have : 0 < r ^ 2 := by positivity
      nlinarith [mul_pos pC this, mul_nonneg pB.le (sq_nonneg q), mul_nonneg pA.le (sq_nonneg p)]
  · have e : A * p ^ 2 + A * q ^ 2 + C * r ^ 2 + 2 * U * (p * q)
        = A * ((p + q) ^ 2 + p ^ 2 + q ^ 2) / 2 + C * r ^ 2 := by rw [hU]; ring
    rw [e]
    rcases hne' with h | h | h
    · have : 0 < p ^ 2 := by positivity
      have : 0 < A * ((p + q) ^ 2 + p ^ 2 + q ^ 2) := by positivity
      nlinarith [mul_nonneg pC.le (sq_nonneg r)]
    · have : 0 < q ^ 2 := by positivity
      have : 0 < A * ((p + q) ^ 2 + p ^ 2 + q ^ 2) := by positivity
      nlinarith [mul_nonneg pC.le (sq_nonneg r)]
    · have : 0 < r ^ 2 := by positivity
      have : 0 ≤ A * ((p + q) ^ 2 + p ^ 2 + q ^ 2) := by positivity
      nlinarith [mul_pos pC (show 0 < r ^ 2 by positivity)]

/-- A member with same-sign first indices (if the axes are hexagonal) and `l ≥ 0` is a candidate. -/
theorem mem_candidates {L : Cell} {A B C U : ℝ} (hL : Flat L A B C U) {dmin : ℝ} (hdm : 0 < dmin) (g : Vec)
    (hg : g ≠ ⟨0, 0, 0⟩) (hd : dmin ≤ 1 / Spec.glen L g) (hxy : U = 0 ∨ 0 ≤ g.x * g.y) (hz : 0 ≤ g.z) :
    g ∈ candidates L dmin := by
  have hQ := quad_pos hL.posA hL.posB hL.posC hL.hex g hg
  rw [glen_eq, len_sq hL] at hd
  have hU : 0 ≤ 2 * U * ((g.x : ℝ) * g.y) := by
    rcases hxy with h | h
    · rw [h]; simp
    · have h' : (0 : ℝ) ≤ (g.x : ℝ) * g.y := by exact_mod_cast h
      rcases hL.hex with h | ⟨_, h⟩
      · rw [h]; simp
      · rw [h]; exact mul_nonneg hL.posA.le h'
  have ax := mul_nonneg hL.posA.le (sq_nonneg (g.x : ℝ))
  have ay := mul_nonneg hL.posB.le (sq_nonneg (g.y : ℝ))
  have az := mul_nonneg hL.posC.le (sq_nonneg (g.z : ℝ))
  have hsq : ∀ (n : Nat) (A : ℝ), 0 < A → Real.sqrt (A * (n : ℝ) ^ 2) = n * Real.sqrt A := by
    intro n A _
    rw [mul_comm, Real.sqrt_mul (sq_nonneg _), Real.sqrt_sq (Nat.cast_nonneg n)]
  rw [candidates, mem_box]
  refine ⟨?_, ?_, hz, ?_⟩
  · refine maxIndex_bound L dmin hdm _ A hL.posA ?_ g.x _ (by linarith) hQ hd
    intro n
    rw [len_sq hL, ← hsq n A hL.posA]
    simp
  · refine maxIndex_bound L dmin hdm _ B hL.posB ?_ g.y _ (by linarith) hQ hd
    intro n
    rw [len_sq hL, ← hsq n B hL.posB]
    simp
  · refine maxIndex_bound L dmin hdm _ C hL.posC ?_ g.z _ (by linarith) hQ hd
    intro n
    rw [len_sq hL, ← hsq n C hL.posC]
    simp

theorem cover {L : Cell} {S : SGSym} {sym : List Mat} (hF : Fits L S sym) {A B C U : ℝ} (hL : Flat L A B C U)
    {dmin : ℝ} (hdm : 0 < dmin) (hone : Mat.minusOne ∈ S.laue)
    (hthree : U = 0 ∨ (⟨0,-1,0, 1,-1,0, 0,0,1⟩ : Mat) ∈ S.laue) (g : Vec) (hg : Spec.InRange L S.ops dmin g) :
    ∃ g' ∈ candidates L dmin, Spec.Equivalent sym g' g := by
  -- first make the product of h and k non-negative
  have h1 : ∃ w, Spec.Equivalent sym g w ∧ (U = 0 ∨ 0 ≤ w.x * w.y) := by
    rcases hthree with hU | h3
    · exact ⟨g, equiv_refl hF.closed g, Or.inl hU⟩
    · have hr : (⟨-1,-1,0, 1,0,0, 0,0,1⟩ : Mat) ∈ sym := hF.mem _ _ h3 (by decide)
      have hr2 := hF.closed.mul _ hr _ hr
      by_cases c1 : 0 ≤ g.x * g.y
      · exact ⟨g, equiv_refl hF.closed g, Or.inr c1⟩
      · by_cases c2 : 0 ≤ (-g.x - g.y) * g.x
        · refine ⟨_, ⟨_, hr, rfl⟩, Or.inr ?_⟩
          simp only [Mat.act]
          linarith
        · refine ⟨_, ⟨_, hr2, rfl⟩, Or.inr ?_⟩
          simp only [Mat.act, Mat.mul]
          push Not at c1 c2
          have hxx : g.x ≠ 0 := by rintro h; rw [h] at c1; simp at c1
          rcases lt_or_gt_of_ne hxx with hx | hx
          · have : 0 < g.y := by nlinarith
            have : 0 < -g.x - g.y := by nlinarith
            nlinarith
          · have : g.y < 0 := by nlinarith
            have : -g.x - g.y < 0 := by nlinarith
            nlinarith
  obtain ⟨w, hw, hxy⟩ := h1
  have hwr := inRange_equiv hF hw hg
  by_cases hz : 0 ≤ w.z
  · exact ⟨w, mem_candidates hL hdm w hwr.1 hwr.2.2 hxy hz, equiv_symm hF.closed hw⟩
  · have hm : Mat.minusOne ∈ sym := hF.mem _ _ hone (by decide)
    have hv : Spec.Equivalent sym w ⟨-w.x, -w.y, -w.z⟩ := ⟨_, hm, by simp [Mat.minusOne, Mat.act]⟩
    have hvr := inRange_equiv hF hv hwr
    refine ⟨_, mem_candidates hL hdm _ hvr.1 hvr.2.2 ?_ ?_, equiv_symm hF.closed (equiv_trans hF.closed hw hv)⟩
    · rcases hxy with h | h
      · exact Or.inl h
      · exact Or.inr (by simpa using h)
    · simp only; omega

theorem high_types : (List.range' 16 215).all (fun sg => decide (latticeTypeZ sg ≠ some .triclinic ∧
    latticeTypeZ sg ≠ some .monoclinic)) = true := by decide +kernel

/-- The reciprocal metric of the systems from orthorhombic upwards. -/
theorem flat_high (sg setting : Nat) (h1 : 16 ≤ sg) (h2 : sg ≤ 230) (S : SGSym)
    (e : generateSGSym sg setting = some S) (lt : LatticeType) (el : latticeTypeZ sg = some lt) (L : Cell)
    (hL : SpaceGroup.Spec.MetricConditions 90 120 lt L.a L.b L.c L.alpha L.beta L.gamma) (hd : 0 < L.dmt.det) :
    ∃ A B C U, Flat L A B C U ∧ (U = 0 ∨ (⟨0,-1,0, 1,-1,0, 0,0,1⟩ : Mat) ∈ S.pg) := by
  have hf := conditions_form lt L hL
  have hl := List.all_eq_true.1 high_types sg (List.mem_range'_1.2 (by omega))
  rw [decide_eq_true_eq, el] at hl
  have hne : L.a * L.b * L.c ≠ 0 := by
    intro h0
    rw [det_dmt, h0] at hd
    simp at hd
  have ha : L.a ≠ 0 := by rintro h; simp [h] at hne
  have hb : L.b ≠ 0 := by rintro h; simp [h] at hne
  have hc : L.c ≠ 0 := by rintro h; simp [h] at hne
  have hc : (lt = .hexagonal ∨ lt = .trigonal) ∨
      (L.a * L.b * L.cg = 0 ∧ L.a * L.c * L.cb = 0 ∧ L.b * L.c * L.ca = 0) := by
    cases lt
    · exact absurd rfl hl.1
    · exact absurd rfl hl.2
    · exact Or.inr hf
    · exact Or.inr ⟨hf.1, hf.2.1, hf.2.2.1⟩
    · exact Or.inl (Or.inr rfl)
    · exact Or.inl (Or.inl rfl)
    · exact Or.inr ⟨hf.1, hf.2.1, hf.2.2.1⟩
  obtain ⟨A, B, C, U, hF, hU⟩ := flat_of_form lt L ha hb ‹_› hf hc
  refine ⟨A, B, C, U, hF, ?_⟩
  rcases hU with hU | hU
  · exact Or.inl hU
  · exact Or.inr (three_mem sg setting (by omega) h2 S e lt el hU)

/-- Every reflection in range has an equivalent among the candidates that passes the
absence rules of the code. -/
theorem cover_allowed (sg setting : Nat) (h1 : 16 ≤ sg) (h2 : sg ≤ 230) (S : SGSym)
    (e : generateSGSym sg setting = some S) (lt : LatticeType) (el : latticeTypeZ sg = some lt) (L : Cell)
    (hL : SpaceGroup.Spec.MetricConditions 90 120 lt L.a L.b L.c L.alpha L.beta L.gamma) (hd : 0 < L.dmt.det)
    {sym : List Mat} (hF : Fits L S sym) {dmin : ℝ} (hdm : 0 < dmin) :
    ∃ l', allowedHKLs sg (candidates L dmin) = some l' ∧ l'.Sublist (candidates L dmin) ∧
      (∀ h ∈ l', ¬ SpaceGroup.Spec.Extinct S.ops h) ∧
      ∀ g, Spec.InRange L S.ops dmin g → ∃ g' ∈ l', Spec.Equivalent sym g' g := by
  obtain ⟨A, B, C, U, hFl, hU⟩ := flat_high sg setting h1 h2 S e lt el L hL hd
  obtain ⟨S', e', _, hlm, _⟩ := laueGroup_forms_group sg setting (by omega) (by omega)
  rw [e] at e'; cases e'
  obtain ⟨S', e', hpg, _⟩ := pointGroup_forms_group sg setting (by omega) (by omega)
  rw [e] at e'; cases e'
  have hone : Mat.minusOne ∈ S.laue := (hlm _).2 (Or.inr hpg.one_mem)
  have hcov := fun g hg => cover (sym := sym) hF hFl hdm hone (hU.imp id fun h => (hlm _).2 (Or.inl h)) g hg
  by_cases h205 : sg = 205
  · subst h205
    obtain ⟨S', l', e', ea, hs, hm⟩ := allowed_205 setting (candidates L dmin)
    rw [e] at e'; cases e'
    refine ⟨l', ea, hs, fun h hh => ((hm h).1 hh).2.1, ?_⟩
    intro g hg
    obtain ⟨w, hw, hwg⟩ := hcov g hg
    have hwr := inRange_equiv hF (equiv_symm hF.closed hwg) hg
    have elt : lt = .cubic := by
      have : latticeTypeZ 205 = some .cubic := by decide +kernel
      rw [show ((205 : Nat) : Int) = 205 from rfl, this] at el
      simpa using el.symm
    subst elt
    have hU0 : U = 0 := by
      rcases hFl.hex with h | ⟨h3, h4⟩
      · exact h
      · exfalso
        have hr := hFl.eq
        have hf := conditions_form _ L hL
        have h1' : (L.dmt * L.rmt) 0 1 = (1 : M3) 0 1 := by rw [dmt_rmt hd]
        rw [hr, dmt_symmForm, hf.1, hf.2.1, hf.2.2.1] at h1'
        simp [UnitCell.symm, Matrix.mul_apply, Fin.sum_univ_three] at h1'
        rcases h1' with h | h
        · rw [det_dmt, h] at hd; simp at hd
        · have := hFl.posA; linarith
    obtain ⟨m, hm', hmp⟩ := key_mem 205 setting (by omega) h2 S e _ el [⟨0,0,1, 1,0,0, 0,1,0⟩] (by simp [keyRots])
    rw [List.mem_singleton] at hm'
    subst hm'
    have hr : (⟨0,0,1, 1,0,0, 0,1,0⟩ : Mat) ∈ sym := hF.mem _ _ ((hlm _).2 (Or.inl hmp)) (by decide)
    have hr2 := hF.closed.mul _ hr _ hr
    have fin : ∀ v, Spec.Equivalent sym w v → v.z = 0 → v.y % 2 ≠ 0 → ∃ g' ∈ l', Spec.Equivalent sym g' g := by
      intro v hv hz hy
      have hvr := inRange_equiv hF hv hwr
      refine ⟨v, (hm v).2 ⟨mem_candidates hFl hdm v hvr.1 hvr.2.2 (Or.inl hU0) (by omega), hvr.2.1, ?_, ?_⟩,
        equiv_trans hF.closed (equiv_symm hF.closed hv) hwg⟩
      · intro _; rw [hz]; rfl
      · intro h; rw [h] at hy; exact absurd rfl hy
    by_cases c1 : w.x = 0 → w.z % 2 = 0
    · by_cases c2 : w.y = 0 → w.x % 2 = 0
      · exact ⟨w, (hm w).2 ⟨hw, hwr.2.1, c1, c2⟩, hwg⟩
      · push Not at c2
        refine fin _ ⟨_, hr, rfl⟩ ?_ ?_
        · simp [Mat.act, c2.1]
        · simpa [Mat.act] using c2.2
    · push Not at c1
      refine fin _ ⟨_, hr2, rfl⟩ ?_ ?_
      · simp [Mat.act, Mat.mul, c1.1]
      · simpa [Mat.act, Mat.mul] using c1.2
  · obtain ⟨S', l', e', ea, hs, hm⟩ := allowed_iff_not_extinct_partial sg setting (by omega) h2 h205 (candidates L dmin)
    rw [e] at e'; cases e'
    refine ⟨l', ea, hs, fun h hh => ((hm h).1 hh).2, ?_⟩
    intro g hg
    obtain ⟨w, hw, hwg⟩ := hcov g hg
    exact ⟨w, (hm w).2 ⟨hw, (inRange_equiv hF (equiv_symm hF.closed hwg) hg).2.1⟩, hwg⟩

end Hexrd.Hkls
