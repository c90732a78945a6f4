import Verif.Spec.Stephens
import Verif.Lemmas.CellSym
import Verif.Props.SpaceGroup
import Mathlib.Tactic.Linarith
import Mathlib.Tactic.Ring
import Mathlib.Tactic.NormNum

/-!
C116: anisotropic broadening.
-/

namespace Hexrd.Stephens

open Hexrd.SpaceGroup

/-- Everything that holds for the rotations that occur as generators in a lattice type, and is kept by products, holds for the point
group. -/
theorem pg_induct (sg setting : Nat) (h1 : 1 ≤ sg) (h2 : sg ≤ 230) :
    ∃ S lt, generateSGSym sg setting = some S ∧ latticeTypeZ sg = some lt ∧
      (∀ P : Mat → Prop, (∀ m ∈ UnitCell.allowedRot lt, P m) → (∀ x y, P x → P y → P (x.mul y)) → ∀ m ∈ S.pg, P m) ∧
      (∀ k ∈ UnitCell.keyRots lt, ∃ m ∈ k, m ∈ S.pg) := by
  obtain ⟨S, gs, c0, e, hm, _, hgen, hin, _, _, hp, _⟩ := main sg setting h1 (by omega)
  have hr : UnitCell.rotsAt setting sg = true := by
    by_cases hk : setting = 0
    · rw [hk]; exact List.all_eq_true.1 UnitCell.rotsRun0 sg (List.mem_range'_1.2 (by omega))
    · have := List.all_eq_true.1 UnitCell.rotsRun1 sg (List.mem_range'_1.2 (by omega))
      unfold UnitCell.rotsAt at this ⊢
      have e2 : (symGL[sg - 1]?).bind (fun s => makeGenerators s setting) =
          (symGL[sg - 1]?).bind (fun s => makeGenerators s 1) := by
        cases symGL[sg - 1]? with
        | none => rfl
        | some s => exact makeGenerators_setting s setting hk
      rw [e2]; exact this
  unfold UnitCell.rotsAt at hr
  rw [hm] at hr
  cases el : latticeTypeZ sg with
  | none => rw [el] at hr; cases hr
  | some lt =>
  rw [el] at hr
  simp only [Bool.and_eq_true, List.all_eq_true, List.any_eq_true, decide_eq_true_eq] at hr
  have hpg : ∀ m, m ∈ S.pg ↔ ∃ o ∈ S.ops, o.r = m := by rw [hp]; exact (pointGroup_spec S.ops).2.1
  refine ⟨S, lt, e, rfl, ?_, ?_⟩
  · intro P hP hmul m hmem
    obtain ⟨o, ho, rfl⟩ := (hpg m).1 hmem
    have key : ∀ z, Spec.Generated Op.comp gs z → P z.r := by
      intro z hz
      induction hz with
      | gen g hg =>
        obtain ⟨m, hm', em⟩ := hr.1 g hg
        rw [em]
        exact hP m hm'
      | mul x y _ _ ihx ihy => exact hmul _ _ ihx ihy
    exact key _ (hgen o ho)
  · intro k hk
    obtain ⟨m, hmk, g, hg, em⟩ := hr.2 k hk
    exact ⟨m, hmk, (hpg m).2 ⟨g, hin g hg, em⟩⟩

/-- The broadening is a form of the fourth degree: it grows with the fourth power along a row of reflections, and opposite reflections
have the same. -/
theorem gammaSqr_quartic (s : Fin 15 → ℝ) (t h k l : ℝ) : gammaSqr s (t * h) (t * k) (t * l) = t ^ 4 * gammaSqr s h k l := by
  unfold gammaSqr; ring

theorem invariant_mul (f : ℝ → ℝ → ℝ → ℝ) (x y : Mat) (hx : Invariant f x) (hy : Invariant f y) : Invariant f (x.mul y) := by
  intro h k l
  rw [← hx h k l, ← hy (h * x.a + k * x.d + l * x.g)]
  simp only [Mat.mul]
  push_cast
  congr 1 <;> ring

theorem invariant_neg (s : Fin 15 → ℝ) (m : Mat) (h : Invariant (gammaSqr s) m.neg) : Invariant (gammaSqr s) m := by
  intro a b c
  rw [← h a b c]
  simp only [Mat.neg]
  push_cast
  unfold gammaSqr
  ring

/-- The values that the parameters of a lattice type give to all fifteen coefficients. -/
noncomputable def filled (lt : LatticeType) (x : Fin 15 → ℝ) : Fin 15 → ℝ := fill (rqdShkl lt).1 x (rqdShkl lt).2

macro "fill_tac" : tactic => `(tactic|
  (simp only [gammaSqr, filled, fill, rqdShkl, constrain, List.foldl_cons, List.foldl_nil]
   simp))

theorem gamma_monoclinic (x : Fin 15 → ℝ) (h k l : ℝ) : gammaSqr (filled .monoclinic x) h k l =
    x 0 * h ^ 4 + x 1 * k ^ 4 + x 2 * l ^ 4 + 3 * (x 3 * (h * k) ^ 2 + x 4 * (h * l) ^ 2 + x 5 * (k * l) ^ 2)
      + 2 * (x 7 * h * l ^ 3 + x 10 * l * h ^ 3) + 4 * (x 13 * h * l * k ^ 2) := by fill_tac

theorem gamma_orthorhombic (x : Fin 15 → ℝ) (h k l : ℝ) : gammaSqr (filled .orthorhombic x) h k l =
    x 0 * h ^ 4 + x 1 * k ^ 4 + x 2 * l ^ 4 + 3 * (x 3 * (h * k) ^ 2 + x 4 * (h * l) ^ 2 + x 5 * (k * l) ^ 2) := by fill_tac

theorem gamma_tetragonal (x : Fin 15 → ℝ) (h k l : ℝ) : gammaSqr (filled .tetragonal x) h k l =
    x 0 * (h ^ 4 + k ^ 4) + x 2 * l ^ 4 + 3 * (x 3 * (h * k) ^ 2 + x 4 * ((h * l) ^ 2 + (k * l) ^ 2)) := by fill_tac; ring

theorem gamma_cubic (x : Fin 15 → ℝ) (h k l : ℝ) : gammaSqr (filled .cubic x) h k l =
    x 0 * (h ^ 4 + k ^ 4 + l ^ 4) + 3 * x 3 * ((h * k) ^ 2 + (h * l) ^ 2 + (k * l) ^ 2) := by fill_tac; ring

theorem gamma_hexagonal (x : Fin 15 → ℝ) (h k l : ℝ) : gammaSqr (filled .hexagonal x) h k l =
    x 0 * (h ^ 4 + 4 * h ^ 3 * k + 9 * h ^ 2 * k ^ 2 + 4 * h * k ^ 3 + k ^ 4) + x 2 * l ^ 4
      + x 4 * l ^ 2 * (3 * h ^ 2 + 4 * h * k + 3 * k ^ 2) := by fill_tac; ring

theorem gamma_trigonal (x : Fin 15 → ℝ) (h k l : ℝ) : gammaSqr (filled .trigonal x) h k l =
    x 0 * (h ^ 4 + 4 * h ^ 3 * k + 9 * h ^ 2 * k ^ 2 + 4 * h * k ^ 3 + k ^ 4) + x 2 * l ^ 4
      + x 4 * l ^ 2 * (3 * h ^ 2 + 4 * h * k + 3 * k ^ 2)
      + x 10 * l * (2 * h ^ 3 + 6 * h ^ 2 * k - 6 * h * k ^ 2 - 2 * k ^ 3) := by fill_tac; ring

macro "st_tac" : tactic => `(tactic|
  (simp only [UnitCell.allowedRot, List.forall_mem_cons, List.not_mem_nil, false_imp_iff, implies_true, and_true]
   repeat' refine And.intro ?_ ?_
   all_goals intro h k l
   all_goals simp only [gamma_monoclinic, gamma_orthorhombic, gamma_tetragonal, gamma_cubic, Int.cast_zero, Int.cast_one, Int.cast_neg]
   all_goals first | ring | (unfold gammaSqr; ring)))

theorem generators_invariant (lt : LatticeType) (hh : lt ≠ .hexagonal) (ht : lt ≠ .trigonal) (x : Fin 15 → ℝ) :
    ∀ m ∈ UnitCell.allowedRot lt, Invariant (gammaSqr (filled lt x)) m := by
  cases lt
  · simp only [UnitCell.allowedRot, List.forall_mem_cons, List.not_mem_nil, false_imp_iff, implies_true, and_true]
    constructor <;> intro h k l <;> simp only [gammaSqr] <;> push_cast <;> ring
  · st_tac
  · st_tac
  · st_tac
  · exact absurd rfl ht
  · exact absurd rfl hh
  · st_tac

/-- C116, invariance: in every space group that is not trigonal or hexagonal, whatever the parameters, reflections that are equivalent in
the Laue group are equally broad. -/
theorem broadening_invariant_partial (sg setting : Nat) (h1 : 1 ≤ sg) (h2 : sg ≤ 230) :
    ∃ S lt, generateSGSym sg setting = some S ∧ latticeTypeZ sg = some lt ∧
      (lt ≠ .hexagonal → lt ≠ .trigonal → ∀ letter, ∃ r, required lt letter = some r ∧
        ∀ x, ∀ m ∈ S.laue, Invariant (gammaSqr (fill r.1 x r.2)) m) := by
  obtain ⟨S, lt, e, el, hind, -⟩ := pg_induct sg setting h1 h2
  obtain ⟨S', e', -, hl, -⟩ := laueGroup_forms_group sg setting h1 (by omega)
  rw [e] at e'
  obtain rfl := Option.some.inj e'
  refine ⟨S, lt, e, el, fun hh ht letter => ⟨rqdShkl lt, ?_, ?_⟩⟩
  · unfold required
    rw [if_neg]
    exact fun h => ht h.1
  · intro x m hm
    have hpg := hind (Invariant (gammaSqr (filled lt x))) (generators_invariant lt hh ht x) (invariant_mul _)
    rcases (hl m).mp hm with h | h
    · exact hpg m h
    · exact invariant_neg _ m (hpg _ h)

/-- C116, where it is false: in a hexagonal crystal the equivalent reflections are equally broad only if every parameter but the one of
the axis is zero; the same for a trigonal one. -/
theorem hexagonal_fails (sg setting : Nat) (h1 : 1 ≤ sg) (h2 : sg ≤ 230) :
    ∃ S lt, generateSGSym sg setting = some S ∧ latticeTypeZ sg = some lt ∧
      (lt = .hexagonal → ∀ x, (∀ m ∈ S.pg, Invariant (gammaSqr (filled lt x)) m) → x 0 = 0 ∧ x 4 = 0) ∧
      (lt = .trigonal → ∀ x, (∀ m ∈ S.pg, Invariant (gammaSqr (filled lt x)) m) → x 0 = 0 ∧ x 4 = 0 ∧ x 10 = 0) := by
  obtain ⟨S, lt, e, el, -, hk⟩ := pg_induct sg setting h1 h2
  refine ⟨S, lt, e, el, ?_, ?_⟩
  · rintro rfl x hx
    obtain ⟨m, hm, hmp⟩ := hk _ (List.mem_singleton.mpr rfl)
    rw [List.mem_singleton] at hm
    subst hm
    have hi := hx _ hmp
    have a := hi 0 1 0
    have b := hi 0 1 1
    simp only [gamma_hexagonal] at a b
    norm_num at a b
    constructor <;> linarith
  · rintro rfl x hx
    obtain ⟨m, hm, hmp⟩ := hk _ (List.mem_singleton.mpr rfl)
    rw [List.mem_singleton] at hm
    subst hm
    have hi := hx _ hmp
    have a := hi 0 1 0
    have b := hi 0 1 1
    have c := hi 1 1 1
    have d := hi 1 1 (-1)
    have f := hi 0 1 (-1)
    simp only [gamma_trigonal] at a b c d f
    norm_num at a b c d f
    refine ⟨?_, ?_, ?_⟩ <;> linarith

/-- Concrete case: with the first parameter of a hexagonal crystal equal to one, (100) has 1 and the equivalent reflection (1 -1 0) has
3. -/
theorem hexagonal_sample :
    gammaSqr (filled .hexagonal fun i => if i = 0 then 1 else 0) 1 0 0 = 1 ∧
    gammaSqr (filled .hexagonal fun i => if i = 0 then 1 else 0) 1 (-1) 0 = 3 := by
  simp only [gamma_hexagonal]
  norm_num

set_option maxRecDepth 100000 in
/-- The space groups with the lattice type 'trigonal' and the letter P, over the whole list. -/
theorem trigonal_list : (List.range' 1 230).all (fun sg =>
    decide ((latticeTypeZ sg = some .trigonal ∧ centringLetter[sg - 1]? = some 'P') ↔
      (143 ≤ sg ∧ sg ≤ 167 ∧ sg ∉ [146, 148, 155, 160, 161, 166, 167]))) = true := by decide +kernel

/-- C116, where it fails: there are no parameters at all exactly for the trigonal space groups with a primitive lattice. -/
theorem required_fails (sg : Nat) (h1 : 1 ≤ sg) (h2 : sg ≤ 230) :
    ∃ lt letter, latticeTypeZ sg = some lt ∧ centringLetter[sg - 1]? = some letter ∧ (required lt letter = none ↔ trigonalP sg) := by
  obtain ⟨S, lt, -, el, -⟩ := pg_induct sg 0 h1 h2
  have hlen : sg - 1 < centringLetter.length := by
    have : centringLetter.length = 237 := by decide +kernel
    omega
  refine ⟨lt, centringLetter[sg - 1], el, by simp [hlen], ?_⟩
  have := List.all_eq_true.1 trigonal_list sg (List.mem_range'_1.2 (by omega))
  rw [decide_eq_true_eq, el] at this
  unfold required trigonalP
  rw [← this]
  simp [hlen]

/-- The parameters keep their values and the constraints hold. -/
theorem fill_spec (lt : LatticeType) (x : Fin 15 → ℝ) :
    (∀ i ∈ (rqdShkl lt).1, filled lt x i = x i) ∧
    (∀ c ∈ (rqdShkl lt).2, filled lt x c.target = c.weight * filled lt x c.source) ∧
    (∀ i, i ∉ (rqdShkl lt).1 → (∀ c ∈ (rqdShkl lt).2, c.target ≠ i) → filled lt x i = 0) := by
  refine ⟨?_, ?_, ?_⟩
  · cases lt <;>
      simp only [rqdShkl, List.forall_mem_cons, List.not_mem_nil, false_imp_iff, implies_true, and_true] <;>
      (simp only [filled, fill, rqdShkl, constrain, List.foldl_cons, List.foldl_nil]; simp)
  · cases lt <;>
      simp only [rqdShkl, List.forall_mem_cons, List.not_mem_nil, false_imp_iff, implies_true, and_true] <;>
      (simp only [filled, fill, rqdShkl, constrain, List.foldl_cons, List.foldl_nil]; simp)
  · intro i hi hc
    have key : ∀ (cs : List Constraint) (y : Fin 15 → ℝ), (∀ c ∈ cs, c.target ≠ i) → y i = 0 → cs.foldl constrain y i = 0 := by
      intro cs
      induction cs with
      | nil => intro y _ hy; exact hy
      | cons c cs ih =>
        intro y hc hy
        rw [List.foldl_cons]
        apply ih
        · exact fun c' h' => hc c' (List.mem_cons_of_mem _ h')
        · unfold constrain
          rw [if_neg (fun h => hc c (by simp) h.symm)]
          exact hy
    unfold filled fill
    apply key _ _ hc
    rw [if_neg hi]

/-- C116, all of them: in the triclinic, monoclinic, orthorhombic and cubic space groups every form that the point group leaves invariant
is given by the parameters. -/
theorem parameters_complete_partial (sg setting : Nat) (h1 : 1 ≤ sg) (h2 : sg ≤ 230) :
    ∃ S lt, generateSGSym sg setting = some S ∧ latticeTypeZ sg = some lt ∧
      (lt ∈ [LatticeType.triclinic, .monoclinic, .orthorhombic, .cubic] → ∀ s, (∀ m ∈ S.pg, Invariant (gammaSqr s) m) →
        ∀ h k l, gammaSqr s h k l = gammaSqr (filled lt s) h k l) := by
  obtain ⟨S, lt, e, el, -, hk⟩ := pg_induct sg setting h1 h2
  refine ⟨S, lt, e, el, ?_⟩
  intro hlt s hs
  have mono : (Invariant (gammaSqr s) ⟨-1,0,0, 0,1,0, 0,0,-1⟩ ∨ Invariant (gammaSqr s) ⟨1,0,0, 0,-1,0, 0,0,1⟩) →
      s 6 = 0 ∧ s 8 = 0 ∧ s 9 = 0 ∧ s 11 = 0 ∧ s 12 = 0 ∧ s 14 = 0 := by
    intro h
    have h' : Invariant (gammaSqr s) ⟨1,0,0, 0,-1,0, 0,0,1⟩ := by
      rcases h with h | h
      · exact invariant_neg _ _ (by simpa [Mat.neg] using h)
      · exact h
    have a := h' 1 1 0
    have b := h' 1 2 0
    have c := h' 0 1 1
    have d := h' 0 2 1
    have f := h' 1 1 1
    have g := h' 1 1 (-1)
    have i := h' 1 1 2
    simp only [gammaSqr] at a b c d f g i
    norm_num at a b c d f g i
    refine ⟨?_, ?_, ?_, ?_, ?_, ?_⟩ <;> linarith
  have dia : (Invariant (gammaSqr s) ⟨-1,0,0, 0,-1,0, 0,0,1⟩ ∨ Invariant (gammaSqr s) ⟨1,0,0, 0,1,0, 0,0,-1⟩) →
      s 7 = 0 ∧ s 8 = 0 ∧ s 10 = 0 ∧ s 11 = 0 ∧ s 12 = 0 ∧ s 13 = 0 := by
    intro h
    have h' : Invariant (gammaSqr s) ⟨1,0,0, 0,1,0, 0,0,-1⟩ := by
      rcases h with h | h
      · exact invariant_neg _ _ (by simpa [Mat.neg] using h)
      · exact h
    have a := h' 1 0 1
    have b := h' 1 0 2
    have c := h' 0 1 1
    have d := h' 0 1 2
    have f := h' 1 1 1
    have g := h' 1 (-1) 1
    have i := h' 1 2 1
    simp only [gammaSqr] at a b c d f g i
    norm_num at a b c d f g i
    refine ⟨?_, ?_, ?_, ?_, ?_, ?_⟩ <;> linarith
  simp only [List.mem_cons, List.not_mem_nil, or_false] at hlt
  rcases hlt with rfl | rfl | rfl | rfl
  · intro h k l
    rfl
  · obtain ⟨m, hm, hmp⟩ := hk _ (List.mem_singleton.mpr rfl)
    simp only [List.mem_cons, List.not_mem_nil, or_false] at hm
    obtain ⟨e6, e8, e9, e11, e12, e14⟩ := mono (by rcases hm with rfl | rfl; exacts [.inl (hs _ hmp), .inr (hs _ hmp)])
    intro h k l
    rw [gamma_monoclinic]
    unfold gammaSqr
    rw [e6, e8, e9, e11, e12, e14]
    ring
  · obtain ⟨m, hm, hmp⟩ := hk _ (List.mem_cons_self)
    obtain ⟨m', hm', hmp'⟩ := hk _ (List.mem_cons_of_mem _ (List.mem_singleton.mpr rfl))
    simp only [List.mem_cons, List.not_mem_nil, or_false] at hm hm'
    obtain ⟨e6, e8, e9, e11, e12, e14⟩ := mono (by rcases hm with rfl | rfl; exacts [.inl (hs _ hmp), .inr (hs _ hmp)])
    obtain ⟨e7, -, e10, -, -, e13⟩ := dia (by rcases hm' with rfl | rfl; exacts [.inl (hs _ hmp'), .inr (hs _ hmp')])
    intro h k l
    rw [gamma_orthorhombic]
    unfold gammaSqr
    rw [e6, e7, e8, e9, e10, e11, e12, e13, e14]
    ring
  · obtain ⟨m, hm, hmp⟩ := hk _ (List.mem_cons_self)
    obtain ⟨m', hm', hmp'⟩ := hk _ (List.mem_cons_of_mem _ (List.mem_singleton.mpr rfl))
    simp only [List.mem_cons, List.not_mem_nil, or_false] at hm hm'
    subst hm
    have hc := hs _ hmp
    have c1 := hc 1 0 0
    have c2 := hc 0 1 0
    have c3 := hc 1 1 0
    have c4 := hc 1 (-1) 0
    have c5 := hc 1 0 1
    have c6 := hc 1 0 (-1)
    have c7 := hc 0 1 1
    have c8 := hc 0 1 (-1)
    have d3 := hc 1 2 0
    have d5 := hc 1 0 2
    have d7 := hc 0 1 2
    have f1 := hc 1 1 1
    have f2 := hc 1 1 (-1)
    have f3 := hc 1 (-1) 1
    have zeros : s 6 = 0 ∧ s 7 = 0 ∧ s 8 = 0 ∧ s 9 = 0 ∧ s 10 = 0 ∧ s 11 = 0 ∧ s 12 = 0 ∧ s 13 = 0 ∧ s 14 = 0 := by
      rcases hm' with rfl | rfl
      · obtain ⟨e7, e8, e10, e11, e12, e13⟩ := dia (.inl (hs _ hmp'))
        simp only [gammaSqr] at c1 c2 c3 c4 c5 c6 c7 c8 d3 d5 d7 f1 f2 f3
        norm_num [e7, e8, e10, e11, e12, e13] at c1 c2 c3 c4 c5 c6 c7 c8 d3 d5 d7 f1 f2 f3
        refine ⟨?_, e7, e8, ?_, e10, e11, e12, e13, ?_⟩ <;> linarith
      · obtain ⟨e6, e8, e9, e11, e12, e14⟩ := mono (.inl (hs _ hmp'))
        simp only [gammaSqr] at c1 c2 c3 c4 c5 c6 c7 c8 d3 d5 d7 f1 f2 f3
        norm_num [e6, e8, e9, e11, e12, e14] at c1 c2 c3 c4 c5 c6 c7 c8 d3 d5 d7 f1 f2 f3
        refine ⟨e6, ?_, e8, e9, ?_, e11, e12, ?_, e14⟩ <;> linarith
    obtain ⟨e6, e7, e8, e9, e10, e11, e12, e13, e14⟩ := zeros
    simp only [gammaSqr] at c1 c2 c3 c5 c7
    norm_num [e6, e7, e8, e9, e10, e11, e12, e13, e14] at c1 c2 c3 c5 c7
    have g1 : s 1 = s 0 := by linarith
    have g2 : s 2 = s 0 := by linarith
    have g4 : s 4 = s 3 := by linarith
    have g5 : s 5 = s 3 := by linarith
    intro h k l
    rw [gamma_cubic]
    unfold gammaSqr
    rw [e6, e7, e8, e9, e10, e11, e12, e13, e14, g1, g2, g4, g5]
    ring

set_option maxRecDepth 100000 in
theorem pg83 : (generateSGSym 83 0).any (fun S => S.pg.all fun m => decide (m ∈ [(⟨1,0,0, 0,1,0, 0,0,1⟩ : Mat),
    ⟨-1,0,0, 0,-1,0, 0,0,1⟩, ⟨0,-1,0, 1,0,0, 0,0,1⟩, ⟨0,1,0, -1,0,0, 0,0,1⟩, ⟨-1,0,0, 0,-1,0, 0,0,-1⟩, ⟨1,0,0, 0,1,0, 0,0,-1⟩,
    ⟨0,1,0, -1,0,0, 0,0,-1⟩, ⟨0,-1,0, 1,0,0, 0,0,-1⟩])) = true := by decide +kernel

/-- C116, where completeness fails: space group 83 (Laue class 4/m) leaves the form hk(hh - kk) unchanged, and no values of the parameters
of tetragonal crystals give it. -/
theorem tetragonal_incomplete :
    ∃ S, generateSGSym 83 0 = some S ∧ latticeTypeZ 83 = some .tetragonal ∧
      ∃ s, (∀ m ∈ S.pg, Invariant (gammaSqr s) m) ∧ ∀ x, ∃ h k l, gammaSqr s h k l ≠ gammaSqr (filled .tetragonal x) h k l := by
  have hp := pg83
  obtain ⟨S, hS⟩ : ∃ S, generateSGSym 83 0 = some S := by
    cases h : generateSGSym 83 0 with
    | none => rw [h] at hp; simp at hp
    | some S => exact ⟨S, rfl⟩
  rw [hS, Option.any_some, List.all_eq_true] at hp
  have key : ∀ h k l : ℝ, gammaSqr (fun i => if i = 6 then 1 else if i = 9 then -1 else 0) h k l = 2 * (h * k * (h ^ 2 - k ^ 2)) := by
    intro h k l
    simp [gammaSqr]
    ring
  refine ⟨S, hS, by decide +kernel, fun i => if i = 6 then 1 else if i = 9 then -1 else 0, ?_, ?_⟩
  · intro m hm
    have := of_decide_eq_true (hp m hm)
    intro h k l
    rw [key, key]
    simp only [List.mem_cons, List.not_mem_nil, or_false] at this
    rcases this with rfl | rfl | rfl | rfl | rfl | rfl | rfl | rfl <;> push_cast <;> ring
  · intro x
    by_contra hc
    push Not at hc
    have a := hc 1 2 0
    have b := hc 1 (-2) 0
    rw [key, gamma_tetragonal] at a b
    norm_num at a b
    linarith

end Hexrd.Stephens
