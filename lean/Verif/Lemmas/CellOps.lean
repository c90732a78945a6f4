import Verif.Lemmas.CellSym
import Verif.Spec.UnitCell
import Verif.Props.SGTables
import Verif.Props.SpaceGroup
import Mathlib.Data.List.Forall2

/-! Operators in reciprocal and Cartesian space. -/
namespace Hexrd.UnitCell

open Matrix Hexrd.SpaceGroup Cell

theorem toReal_transpose (m : Mat) : toReal m.transpose = (toReal m)ᵀ := by
  ext i j
  fin_cases i <;> fin_cases j <;> simp [toReal, Mat.transpose]

theorem angle_90 (x : ℝ) (h : 0 < x ∧ x < 180) (hc : Real.cos (radians x) = 0) : x = 90 := by
  have hp := Real.pi_pos
  have h1 : radians x = radians 90 := by
    apply Real.injOn_cos
    · constructor
      · rw [radians]; have := h.1; positivity
      · rw [radians]; nlinarith [h.2]
    · constructor
      · rw [radians]; positivity
      · rw [radians]; nlinarith
    · rw [hc, cos_90]
  rw [radians, radians] at h1
  field_simp at h1
  linarith

theorem angle_120 (x : ℝ) (h : 0 < x ∧ x < 180) (hc : Real.cos (radians x) = -1 / 2) : x = 120 := by
  have hp := Real.pi_pos
  have h1 : radians x = radians 120 := by
    apply Real.injOn_cos
    · constructor
      · rw [radians]; have := h.1; positivity
      · rw [radians]; nlinarith [h.2]
    · constructor
      · rw [radians]; positivity
      · rw [radians]; nlinarith
    · rw [hc, cos_120]
  rw [radians, radians] at h1
  field_simp at h1
  linarith

/-- The form of the metric gives the conditions on the parameters. -/
theorem form_conditions (lt : LatticeType) (L : Cell)
    (ha : 0 < L.a) (hb : 0 < L.b) (hc : 0 < L.c) (hal : 0 < L.alpha ∧ L.alpha < 180)
    (hbe : 0 < L.beta ∧ L.beta < 180) (hga : 0 < L.gamma ∧ L.gamma < 180)
    (h : Form lt (L.a ^ 2) (L.b ^ 2) (L.c ^ 2) (L.a * L.b * L.cg) (L.a * L.c * L.cb) (L.b * L.c * L.ca)) :
    SpaceGroup.Spec.MetricConditions 90 120 lt L.a L.b L.c L.alpha L.beta L.gamma := by
  have zg : L.a * L.b * L.cg = 0 → L.gamma = 90 := fun e =>
    angle_90 _ hga ((mul_eq_zero.1 e).resolve_left (by positivity))
  have zb : L.a * L.c * L.cb = 0 → L.beta = 90 := fun e =>
    angle_90 _ hbe ((mul_eq_zero.1 e).resolve_left (by positivity))
  have za : L.b * L.c * L.ca = 0 → L.alpha = 90 := fun e =>
    angle_90 _ hal ((mul_eq_zero.1 e).resolve_left (by positivity))
  have ab : L.a ^ 2 = L.b ^ 2 → L.a = L.b := fun e => (pow_left_inj₀ ha.le hb.le two_ne_zero).1 e
  have bc : L.b ^ 2 = L.c ^ 2 → L.b = L.c := fun e => (pow_left_inj₀ hb.le hc.le two_ne_zero).1 e
  have hg : L.a = L.b → 2 * (L.a * L.b * L.cg) = -L.a ^ 2 → L.gamma = 120 := by
    intro e1 e2
    refine angle_120 _ hga ?_
    rw [← e1] at e2
    have : L.a ^ 2 * (2 * L.cg + 1) = 0 := by linear_combination e2
    have := (mul_eq_zero.1 this).resolve_left (by positivity)
    change L.cg = _
    linarith
  cases lt <;> simp only [Form] at h <;> simp only [SpaceGroup.Spec.MetricConditions]
  · exact ⟨za h.2, zg h.1⟩
  · exact ⟨za h.2.2, zb h.2.1, zg h.1⟩
  · exact ⟨ab h.2.2.2, za h.2.2.1, zb h.2.1, zg h.1⟩
  · exact ⟨ab h.1, za h.2.2.1, zb h.2.1, hg (ab h.1) h.2.2.2⟩
  · exact ⟨ab h.1, za h.2.2.1, zb h.2.1, hg (ab h.1) h.2.2.2⟩
  · exact ⟨ab h.2.2.2.1, bc h.2.2.2.2, za h.2.2.1, zb h.2.1, zg h.1⟩

/-- Conjugation by an invariant metric gives the inverse transpose. -/
theorem recip_op (L : Cell) (hd : 0 < L.dmt.det) (g g' : Mat) (hinv : Invariant L.dmt g) (hg : g.mul g' = Mat.one) :
    roundMat (L.dmt * (toReal g * L.rmt)) = g'.transpose := by
  have h1 : toReal g * toReal g' = 1 := by rw [← toReal_mul, hg, toReal_one]
  have h2 : (toReal g')ᵀ * (toReal g)ᵀ = 1 := by rw [← Matrix.transpose_mul, h1, Matrix.transpose_one]
  have h3 : L.dmt * (toReal g * L.rmt) = toReal g'.transpose := by
    rw [toReal_transpose]
    calc L.dmt * (toReal g * L.rmt) = ((toReal g')ᵀ * (toReal g)ᵀ) * (L.dmt * (toReal g * L.rmt)) := by
            rw [h2, Matrix.one_mul]
      _ = (toReal g')ᵀ * ((toReal g)ᵀ * L.dmt * toReal g) * L.rmt := by simp only [Matrix.mul_assoc]
      _ = (toReal g')ᵀ := by rw [hinv, Matrix.mul_assoc, dmt_rmt hd, Matrix.mul_one]
  rw [h3, roundMat_toReal]

theorem Mat.transpose_transpose (m : Mat) : m.transpose.transpose = m := rfl

theorem recip_invariant (L : Cell) (hd : 0 < L.dmt.det) (g r : Mat) (hinv : Invariant L.dmt g)
    (hr : r.transpose.mul g = Mat.one) : (toReal r)ᵀ * L.rmt * toReal r = L.rmt := by
  have h1 : (toReal r)ᵀ * toReal g = 1 := by rw [← toReal_transpose, ← toReal_mul, hr, toReal_one]
  have h2 : toReal g * (toReal r)ᵀ = 1 := mul_eq_one_comm.1 h1
  have h3 : toReal r * (toReal g)ᵀ = 1 := by
    have := congrArg Matrix.transpose h2
    rwa [Matrix.transpose_mul, Matrix.transpose_transpose, Matrix.transpose_one] at this
  have h4 : ((toReal r)ᵀ * L.rmt * toReal r) * L.dmt = 1 := by
    calc ((toReal r)ᵀ * L.rmt * toReal r) * L.dmt
        = ((toReal r)ᵀ * L.rmt * toReal r) * ((toReal g)ᵀ * L.dmt * toReal g) := by rw [hinv]
      _ = (toReal r)ᵀ * L.rmt * (toReal r * (toReal g)ᵀ) * (L.dmt * toReal g) := by simp only [Matrix.mul_assoc]
      _ = (toReal r)ᵀ * (L.rmt * L.dmt) * toReal g := by rw [h3]; simp only [Matrix.mul_assoc, Matrix.one_mul]
      _ = 1 := by rw [rmt_dmt hd, Matrix.mul_one, h1]
  calc (toReal r)ᵀ * L.rmt * toReal r = ((toReal r)ᵀ * L.rmt * toReal r) * (L.dmt * L.rmt) := by
          rw [dmt_rmt hd, Matrix.mul_one]
    _ = L.rmt := by rw [← Matrix.mul_assoc, h4, Matrix.one_mul]

/-- The first operator of every table is the identity. -/
theorem heads : (table0.all fun p => decide (p.1.head? = some 1521685729654272)) = true ∧
    (table1.all fun p => decide (p.1.head? = some 1521685729654272)) = true := by
  decide +kernel

theorem pg_head (sg setting : Nat) (h1 : 1 ≤ sg) (h2 : sg ≤ 230) (S : SGSym) (e : generateSGSym sg setting = some S) :
    S.pg.head? = some Mat.one ∧ S.laue.head? = some Mat.one := by
  obtain ⟨S', C, T, e', hops, hT⟩ := ops_codes sg setting h1 (by omega)
  rw [e] at e'
  cases e'
  obtain ⟨S', _, _, e', _, hg, _, _, _, _, hp, _, hl, hs, _⟩ := main sg setting h1 (by omega)
  rw [e] at e'
  cases e'
  have hC : C.head? = some 1521685729654272 := by
    rcases hT with hT | ⟨i, _, _, hT⟩
    · simpa using List.all_eq_true.1 heads.1 _ (List.mem_of_getElem? hT)
    · simpa using List.all_eq_true.1 heads.2 _ (List.mem_of_getElem? hT)
  have hpg : S.pg.head? = some Mat.one := by
    rw [hp, (pointGroup_spec S.ops).2.2, hops, List.head?_map, hC]
    decide +kernel
  refine ⟨hpg, ?_⟩
  have hG : Spec.IsGroup Mat.mul Mat.one S.pg := by rw [hp]; exact pointGroup_isGroup _ hg
  rw [hl, laueGroup]
  split_ifs with hc
  · exact hpg
  · have hm : Mat.minusOne ∉ S.pg := fun h => hc ((any_minusOne _).2 h)
    have hn : (S.pg ++ [Mat.minusOne]).Nodup := by
      rw [List.nodup_append]
      refine ⟨hG.nodup, by simp, ?_⟩
      intro a ha b hb e
      rw [List.mem_singleton] at hb
      exact hm (hb ▸ e ▸ ha)
    have hlen := hs.resolve_left hm
    obtain ⟨t, ht⟩ := (outer_spec Mat.mul 48 (fun _ => True) (fun _ _ _ _ => trivial) 49 0 (S.pg ++ [Mat.minusOne])
      (by rw [List.length_append, List.length_singleton]; omega) (by omega) hn (fun _ _ => trivial)).1
    rw [← ht]
    cases h : S.pg with
    | nil => rw [h] at hpg; cases hpg
    | cons x xs => rw [h] at hpg; simpa using hpg

theorem recip_spec (sg setting : Nat) (h1 : 1 ≤ sg) (h2 : sg ≤ 230) (S : SGSym)
    (e : generateSGSym sg setting = some S) (L : Cell) (hd : 0 < L.dmt.det)
    (hinv : ∀ m ∈ S.pg, Invariant L.dmt m) (G : List Mat) (hG : G = S.pg ∨ G = S.laue) :
    List.Forall₂ (fun g r => r.transpose.mul g = Mat.one ∧ g.mul r.transpose = Mat.one) G (recipSym L G) := by
  obtain ⟨S', e', hgp, _⟩ := pointGroup_forms_group sg setting h1 (by omega)
  rw [e] at e'
  cases e'
  obtain ⟨S', e', hgl, hlm, _⟩ := laueGroup_forms_group sg setting h1 (by omega)
  rw [e] at e'
  cases e'
  have hinvl : ∀ m ∈ S.laue, Invariant L.dmt m := by
    intro m hm
    rcases (hlm m).1 hm with h | h
    · exact hinv m h
    · have := invariant_neg _ _ (hinv _ h)
      rwa [Mat.neg_neg] at this
  have hhead := pg_head sg setting h1 h2 S e
  have key : ∀ G, Spec.IsGroup Mat.mul Mat.one G → G.head? = some Mat.one → (∀ m ∈ G, Invariant L.dmt m) →
      List.Forall₂ (fun g r => r.transpose.mul g = Mat.one ∧ g.mul r.transpose = Mat.one) G (recipSym L G) := by
    intro G hgrp hh hi
    cases G with
    | nil => cases hh
    | cons g gs =>
      simp only [List.head?_cons, Option.some.injEq] at hh
      subst hh
      rw [recipSym]
      refine List.Forall₂.cons (by decide) ?_
      rw [List.forall₂_map_right_iff, List.forall₂_same]
      intro g hg
      obtain ⟨g', _, h3, h4⟩ := hgrp.inv_mem g (List.mem_cons_of_mem _ hg)
      rw [recip_op L hd g g' (hi g (List.mem_cons_of_mem _ hg)) h3]
      exact ⟨h4, h3⟩
  rcases hG with rfl | rfl
  · exact key _ hgp hhead.1 hinv
  · exact key _ hgl hhead.2 hinvl

/-! ### Monoclinic cells -/

/-- The four rotations of 2/m. -/
def fourRots : List Mat := [⟨1,0,0, 0,1,0, 0,0,1⟩, ⟨-1,0,0, 0,1,0, 0,0,-1⟩, ⟨-1,0,0, 0,-1,0, 0,0,-1⟩, ⟨1,0,0, 0,-1,0, 0,0,1⟩]

theorem fourRots_mul : ∀ x ∈ fourRots, ∀ y ∈ fourRots, x.mul y ∈ fourRots := by decide

theorem fourRots_neg : ∀ x ∈ fourRots, x.neg ∈ fourRots := by decide

theorem mono_range : (List.range' 3 13).all (fun sg => decide (latticeTypeZ sg = some .monoclinic)) = true := by
  decide +kernel

theorem mono_rots (sg setting : Nat) (h1 : 3 ≤ sg) (h2 : sg ≤ 15) (S : SGSym)
    (e : generateSGSym sg setting = some S) :
    (∀ m ∈ S.pg, m ∈ fourRots) ∧ (∀ m ∈ S.laue, m ∈ fourRots) := by
  obtain ⟨S', gs, c0, e', hm, _, hgen, _, _, _, hp, _⟩ := main sg setting (by omega) (by omega)
  rw [e] at e'
  cases e'
  have hr : rotsAt setting sg = true := by
    by_cases hk : setting = 0
    · rw [hk]; exact List.all_eq_true.1 rotsRun0 sg (List.mem_range'_1.2 (by omega))
    · have := List.all_eq_true.1 rotsRun1 sg (List.mem_range'_1.2 (by omega))
      unfold rotsAt at this ⊢
      have e2 : (symGL[sg - 1]?).bind (fun s => makeGenerators s setting) =
          (symGL[sg - 1]?).bind (fun s => makeGenerators s 1) := by
        cases symGL[sg - 1]? with
        | none => rfl
        | some s => exact makeGenerators_setting s setting hk
      rw [e2]; exact this
  have el : latticeTypeZ sg = some .monoclinic := by
    simpa using List.all_eq_true.1 mono_range sg (List.mem_range'_1.2 (by omega))
  unfold rotsAt at hr
  rw [hm, el] at hr
  simp only [Bool.and_eq_true, List.all_eq_true, List.any_eq_true, decide_eq_true_eq] at hr
  have hpg : ∀ m ∈ S.pg, m ∈ fourRots := by
    intro m hmem
    rw [hp] at hmem
    obtain ⟨o, ho, rfl⟩ := ((pointGroup_spec S.ops).2.1 m).1 hmem
    have key : ∀ z, Spec.Generated Op.comp gs z → z.r ∈ fourRots := by
      intro z hz
      induction hz with
      | gen g hg =>
        obtain ⟨m, hm', em⟩ := hr.1 g hg
        rw [em]
        revert hm'
        simp only [allowedRot, fourRots, List.mem_cons, List.not_mem_nil, or_false]
        rintro (rfl | rfl | rfl | rfl) <;> decide
      | mul x y _ _ ihx ihy => exact fourRots_mul _ ihx _ ihy
    exact key _ (hgen o ho)
  refine ⟨hpg, ?_⟩
  obtain ⟨S', e', _, hlm, _⟩ := laueGroup_forms_group sg setting (by omega) (by omega)
  rw [e] at e'
  cases e'
  intro m hm
  rcases (hlm m).1 hm with h | h
  · exact hpg m h
  · have := fourRots_neg _ (hpg _ h)
    rwa [Mat.neg_neg] at this

/-- The diagonal matrix of a diagonal integer matrix. -/
def diagOf (m : Mat) : M3 := diag m.a m.e m.i

theorem clip_diag (x y z : ℝ) (hx : x = 1 ∨ x = -1) (hy : y = 1 ∨ y = -1) (hz : z = 1 ∨ z = -1) :
    clip (diag x y z) = diag x y z := by
  apply clip_id
  have h1 : ∀ t : ℝ, (t = 1 ∨ t = -1) → eps ≤ |t| := by
    rintro t (rfl | rfl) <;> · rw [eps]; norm_num
  intro i j
  fin_cases i <;> fin_cases j <;> simp [diag, h1 _ hx, h1 _ hy, h1 _ hz]

theorem cart_mono {L : Cell} (hd : 0 < L.dmt.det) (hn : NoTiny L) (hal : L.alpha = 90) (hga : L.gamma = 90)
    (m : Mat) (hm : m ∈ fourRots) : cartSym L m = diagOf m := by
  have hca : L.ca = 0 := by rw [ca, hal, cos_90]
  have hcg : L.cg = 0 := by rw [cg, hga, cos_90]
  have hcomm : L.dsm * toReal m = diagOf m * L.dsm := by
    rw [dsm_eq hn]
    simp only [fourRots, List.mem_cons, List.not_mem_nil, or_false] at hm
    rcases hm with rfl | rfl | rfl | rfl <;> ext i j <;> fin_cases i <;> fin_cases j <;>
      simp [dsm0, toReal, diagOf, diag, hca, hcg, Matrix.mul_apply, Fin.sum_univ_three]
  rw [cartSym, ← Matrix.mul_assoc, hcomm, Matrix.mul_assoc, dsm_rsm hd hn, Matrix.mul_one]
  simp only [fourRots, List.mem_cons, List.not_mem_nil, or_false] at hm
  rcases hm with rfl | rfl | rfl | rfl <;> exact clip_diag _ _ _ (by simp) (by simp) (by simp)

theorem turn_diag (x y z : ℝ) : turn (diag x y z) = diag x z y := by
  ext i j
  fin_cases i <;> fin_cases j <;> simp [turn, om, diag, Matrix.mul_apply, Matrix.vecMul, dotProduct, Fin.sum_univ_three]

/-- What the unit cell knows about a monoclinic group. -/
theorem mono_unitcell (sg setting : Nat) (h1 : 3 ≤ sg) (h2 : sg ≤ 15) :
    ∃ U, unitcellSgnum sg setting = some U ∧ generateSGSym sg setting = some U.sym ∧ U.latticeType = .monoclinic ∧
      (U.pointGroup = U.laueGroup ↔ 10 ≤ sg) := by
  obtain ⟨I, U, _, eU, hp, hl, _⟩ := tables_consistent sg setting (by omega) (by omega)
  refine ⟨U, eU, ?_⟩
  rw [unitcellSgnum, if_pos (by omega)] at eU
  simp only [Int.toNat_natCast, Option.bind_eq_bind, Option.bind_eq_some_iff, Option.pure_def, Option.some.injEq] at eU
  obtain ⟨S, eS, lt, elt, p, ep, rfl⟩ := eU
  have el : latticeTypeZ sg = some .monoclinic := by
    simpa using List.all_eq_true.1 mono_range sg (List.mem_range'_1.2 (by omega))
  rw [el] at elt
  cases elt
  refine ⟨eS, rfl, ?_⟩
  have run : (List.range' 3 13).all (fun k => decide ((lookupRange pgDictUC (k : Int)).map (fun p => decide (p.1 = p.2.1)) =
      some (decide (10 ≤ k)))) = true := by decide +kernel
  have := List.all_eq_true.1 run sg (List.mem_range'_1.2 (by omega))
  rw [decide_eq_true_eq, ep] at this
  simpa using this

theorem mono_axis {L : Cell} (sg setting : Nat) (h1 : 3 ≤ sg) (h2 : sg ≤ 9) (hd : 0 < L.dmt.det)
    (hn : NoTiny L) (hal : L.alpha = 90) (hga : L.gamma = 90) :
    ∃ U, unitcellSgnum sg setting = some U ∧
      ∀ Q, Q ∈ (cartSyms L U.pointGroup U.laueGroup U.latticeType U.sym.pg U.sym.laue).1 ∨
           Q ∈ (cartSyms L U.pointGroup U.laueGroup U.latticeType U.sym.pg U.sym.laue).2 →
        Q = diag 1 1 1 ∨ Q = diag (-1) (-1) 1 ∨ Q = diag (-1) (-1) (-1) ∨ Q = diag 1 1 (-1) := by
  obtain ⟨U, eU, eS, elt, hsame⟩ := mono_unitcell sg setting h1 (by omega)
  refine ⟨U, eU, ?_⟩
  have hne : U.pointGroup ≠ U.laueGroup := fun h => by have := hsame.1 h; omega
  obtain ⟨m1, m2⟩ := mono_rots sg setting h1 (by omega) _ eS
  have key : ∀ m ∈ fourRots, ∀ Q, turn (cartSym L m) = Q →
      Q = diag 1 1 1 ∨ Q = diag (-1) (-1) 1 ∨ Q = diag (-1) (-1) (-1) ∨ Q = diag 1 1 (-1) := by
    rintro m hm Q rfl
    rw [cart_mono hd hn hal hga m hm, diagOf, turn_diag]
    simp only [fourRots, List.mem_cons, List.not_mem_nil, or_false] at hm
    rcases hm with rfl | rfl | rfl | rfl <;> simp
  intro Q
  simp only [cartSyms, if_neg hne, elt, if_true, List.mem_map]
  rintro (⟨_, ⟨m, hm, rfl⟩, e⟩ | ⟨_, ⟨m, hm, rfl⟩, e⟩)
  · exact key m (m1 m hm) Q e
  · exact key m (m2 m hm) Q e

theorem mono_2m {L : Cell} (sg setting : Nat) (h1 : 10 ≤ sg) (h2 : sg ≤ 15) (hd : 0 < L.dmt.det)
    (hn : NoTiny L) (hal : L.alpha = 90) (hga : L.gamma = 90) :
    ∃ U, unitcellSgnum sg setting = some U ∧
      diag (-1) 1 (-1) ∈ (cartSyms L U.pointGroup U.laueGroup U.latticeType U.sym.pg U.sym.laue).1 ∧
      diag (-1) (-1) 1 ∉ (cartSyms L U.pointGroup U.laueGroup U.latticeType U.sym.pg U.sym.laue).1 := by
  obtain ⟨U, eU, eS, elt, hsame⟩ := mono_unitcell sg setting (by omega) h2
  refine ⟨U, eU, ?_⟩
  have heq : U.pointGroup = U.laueGroup := hsame.2 h1
  obtain ⟨m1, _⟩ := mono_rots sg setting (by omega) h2 _ eS
  obtain ⟨S', e', hnd, hlen, _⟩ := pointGroup_forms_group sg setting (by omega) (by omega)
  rw [eS] at e'
  cases e'
  have hord : Spec.pointGroupOrder sg = 4 := by
    have run : (List.range' 10 6).all (fun k => decide (Spec.pointGroupOrder k = 4)) = true := by decide
    simpa using List.all_eq_true.1 run sg (List.mem_range'_1.2 (by omega))
  have hmem : (⟨-1,0,0, 0,1,0, 0,0,-1⟩ : Mat) ∈ U.sym.pg := by
    have hsp : U.sym.pg.Subperm fourRots := List.subperm_of_subset hnd.nodup m1
    have := hsp.perm_of_length_le (by rw [hlen, hord]; decide)
    exact this.mem_iff.2 (by decide)
  simp only [cartSyms, if_pos heq, elt, if_true, List.mem_map]
  constructor
  · refine ⟨_, ⟨_, ⟨_, hmem, rfl⟩, rfl⟩, ?_⟩
    rw [cart_mono hd hn hal hga _ (by decide), diagOf, turn_diag, turn_diag]
    simp
  · rintro ⟨_, ⟨_, ⟨m, hm, rfl⟩, rfl⟩, e⟩
    have hm4 := m1 m hm
    rw [cart_mono hd hn hal hga m hm4, diagOf, turn_diag, turn_diag] at e
    have key : ∀ x y z x' y' z' : ℝ, diag x y z = diag x' y' z' → x = x' ∧ y = y' ∧ z = z' := by
      intro x y z x' y' z' e
      exact ⟨congrFun (congrFun e 0) 0, congrFun (congrFun e 1) 1, congrFun (congrFun e 2) 2⟩
    obtain ⟨e0, e1, e2⟩ := key _ _ _ _ _ _ e
    simp only [fourRots, List.mem_cons, List.not_mem_nil, or_false] at hm4
    rcases hm4 with rfl | rfl | rfl | rfl
    · norm_num at e0
    · norm_num at e1
    · norm_num at e2
    · norm_num at e0

/-! ### Concrete cells -/

theorem unit_cube : 0 < (Cell.mk 1 1 1 90 90 90).dmt.det ∧ NoTiny ⟨1, 1, 1, 90, 90, 90⟩ := by
  have hs : Real.sin (radians 90) = 1 := by
    have : radians 90 = Real.pi / 2 := by rw [radians]; ring
    rw [this, Real.sin_pi_div_two]
  have hdet : (Cell.mk 1 1 1 90 90 90).dmt.det = 1 := by
    rw [det_dmt]; simp [ca, cb, cg, cos_90]
  refine ⟨by rw [hdet]; norm_num, ?_⟩
  have hv : (Cell.mk 1 1 1 90 90 90).vol = 1 := by rw [vol, hdet]; simp
  intro i j
  fin_cases i <;> fin_cases j <;>
    simp [dsm0, rsm0, ca, cb, cg, sg, tg, cos_90, hs, hv, eps, Real.tan_eq_sin_div_cos] <;> norm_num

theorem mono_cell : 0 < (Cell.mk 1 1 1 90 120 90).dmt.det ∧ NoTiny ⟨1, 1, 1, 90, 120, 90⟩ := by
  have hs : Real.sin (radians 90) = 1 := by
    have : radians 90 = Real.pi / 2 := by rw [radians]; ring
    rw [this, Real.sin_pi_div_two]
  have hdet : (Cell.mk 1 1 1 90 120 90).dmt.det = 3 / 4 := by
    rw [det_dmt]; simp [ca, cb, cg, cos_90, cos_120]; norm_num
  refine ⟨by rw [hdet]; norm_num, ?_⟩
  have hv : (Cell.mk 1 1 1 90 120 90).vol = Real.sqrt (3 / 4) := by rw [vol, hdet]
  have hpos : (1 : ℝ) / 2 ≤ Real.sqrt (3 / 4) := Real.le_sqrt_of_sq_le (by norm_num)
  have hle : Real.sqrt (3 / 4) ≤ 1 := by rw [Real.sqrt_le_iff]; norm_num
  have hp0 : 0 < Real.sqrt (3 / 4) := by linarith
  have e : eps ≤ 1 / 2 := by rw [eps]; norm_num
  have hinv : 1 ≤ (Real.sqrt (3 / 4))⁻¹ := (one_le_inv₀ hp0).2 hle
  generalize hS : Real.sqrt (3 / 4) = S at *
  intro i j
  fin_cases i <;> fin_cases j <;>
    simp only [dsm0, rsm0, ca, cb, cg, sg, tg, cos_90, cos_120, hs, hv, Real.tan_eq_sin_div_cos] <;> norm_num
  · linarith
  · linarith
  · linarith
  · refine Or.inr ?_
    rw [abs_of_pos (by positivity), le_div_iff₀ hp0]
    have : 0 < eps := by rw [eps]; norm_num
    nlinarith
  · rw [abs_of_pos hp0]
    exact ⟨Or.inr (by linarith), Or.inr (by linarith)⟩

end Hexrd.UnitCell
