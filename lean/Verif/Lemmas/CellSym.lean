import Verif.Lemmas.UnitCell
import Verif.Lemmas.SGSymbols
import Mathlib.Algebra.Order.Floor.Ring

/-! The metric of a cell that fits its space group is invariant under the point group. -/
namespace Hexrd.UnitCell

open Matrix Hexrd.SpaceGroup Cell

theorem toReal_mul (m n : Mat) : toReal (m.mul n) = toReal m * toReal n := by
  ext i j
  fin_cases i <;> fin_cases j <;> simp [toReal, Mat.mul, Matrix.mul_apply, Fin.sum_univ_three]

theorem toReal_neg (m : Mat) : toReal m.neg = -toReal m := by
  ext i j
  fin_cases i <;> fin_cases j <;> simp [toReal, Mat.neg]

theorem toReal_one : toReal Mat.one = 1 := by
  ext i j
  fin_cases i <;> fin_cases j <;> simp [toReal, Mat.one]

theorem toReal_inj {m n : Mat} (h : toReal m = toReal n) : m = n := by
  have e := fun i j => congrFun (congrFun h i) j
  have e00 := e 0 0
  have e01 := e 0 1
  have e02 := e 0 2
  have e10 := e 1 0
  have e11 := e 1 1
  have e12 := e 1 2
  have e20 := e 2 0
  have e21 := e 2 1
  have e22 := e 2 2
  simp only [toReal, Matrix.of_apply, Matrix.cons_val, Int.cast_inj] at e00 e01 e02 e10 e11 e12 e20 e21 e22
  cases m; cases n
  simp_all

theorem invariant_mul (G : M3) (m n : Mat) (hm : Invariant G m) (hn : Invariant G n) : Invariant G (m.mul n) := by
  unfold Invariant at *
  rw [toReal_mul, Matrix.transpose_mul]
  calc (toReal n)ᵀ * (toReal m)ᵀ * G * (toReal m * toReal n)
      = (toReal n)ᵀ * ((toReal m)ᵀ * G * toReal m) * toReal n := by simp only [Matrix.mul_assoc]
    _ = G := by rw [hm, hn]

theorem invariant_neg (G : M3) (m : Mat) (hm : Invariant G m) : Invariant G m.neg := by
  unfold Invariant at *
  rw [toReal_neg]
  simpa using hm

/-- Rotations of the generators that occur in a lattice type. -/
def allowedRot : LatticeType → List Mat
  | .triclinic => [⟨1,0,0, 0,1,0, 0,0,1⟩, ⟨-1,0,0, 0,-1,0, 0,0,-1⟩]
  | .monoclinic => [⟨1,0,0, 0,1,0, 0,0,1⟩, ⟨-1,0,0, 0,-1,0, 0,0,-1⟩, ⟨-1,0,0, 0,1,0, 0,0,-1⟩, ⟨1,0,0, 0,-1,0, 0,0,1⟩]
  | .orthorhombic => [⟨1,0,0, 0,1,0, 0,0,1⟩, ⟨-1,0,0, 0,-1,0, 0,0,-1⟩, ⟨-1,0,0, 0,1,0, 0,0,-1⟩,
      ⟨1,0,0, 0,-1,0, 0,0,1⟩, ⟨-1,0,0, 0,-1,0, 0,0,1⟩, ⟨1,0,0, 0,1,0, 0,0,-1⟩]
  | .tetragonal => [⟨1,0,0, 0,1,0, 0,0,1⟩, ⟨-1,0,0, 0,-1,0, 0,0,-1⟩, ⟨-1,0,0, 0,1,0, 0,0,-1⟩,
      ⟨1,0,0, 0,-1,0, 0,0,1⟩, ⟨-1,0,0, 0,-1,0, 0,0,1⟩, ⟨1,0,0, 0,1,0, 0,0,-1⟩, ⟨0,-1,0, 1,0,0, 0,0,1⟩,
      ⟨0,1,0, -1,0,0, 0,0,-1⟩, ⟨0,1,0, 1,0,0, 0,0,-1⟩, ⟨0,-1,0, -1,0,0, 0,0,-1⟩, ⟨0,-1,0, -1,0,0, 0,0,1⟩,
      ⟨0,1,0, 1,0,0, 0,0,1⟩]
  | .cubic => [⟨1,0,0, 0,1,0, 0,0,1⟩, ⟨-1,0,0, 0,-1,0, 0,0,-1⟩, ⟨-1,0,0, 0,1,0, 0,0,-1⟩,
      ⟨1,0,0, 0,-1,0, 0,0,1⟩, ⟨-1,0,0, 0,-1,0, 0,0,1⟩, ⟨1,0,0, 0,1,0, 0,0,-1⟩, ⟨0,-1,0, 1,0,0, 0,0,1⟩,
      ⟨0,1,0, -1,0,0, 0,0,-1⟩, ⟨0,1,0, 1,0,0, 0,0,-1⟩, ⟨0,-1,0, -1,0,0, 0,0,-1⟩, ⟨0,-1,0, -1,0,0, 0,0,1⟩,
      ⟨0,1,0, 1,0,0, 0,0,1⟩, ⟨0,0,1, 1,0,0, 0,1,0⟩]
  | _ => [⟨1,0,0, 0,1,0, 0,0,1⟩, ⟨-1,0,0, 0,-1,0, 0,0,-1⟩, ⟨-1,0,0, 0,-1,0, 0,0,1⟩, ⟨1,0,0, 0,1,0, 0,0,-1⟩,
      ⟨0,1,0, 1,0,0, 0,0,-1⟩, ⟨0,-1,0, -1,0,0, 0,0,-1⟩, ⟨0,-1,0, -1,0,0, 0,0,1⟩, ⟨0,1,0, 1,0,0, 0,0,1⟩,
      ⟨0,-1,0, 1,-1,0, 0,0,1⟩]

/-- Linear conditions on the metric. -/
def Form (lt : LatticeType) (p q r u v w : ℝ) : Prop :=
  match lt with
  | .triclinic => True
  | .monoclinic => u = 0 ∧ w = 0
  | .orthorhombic => u = 0 ∧ v = 0 ∧ w = 0
  | .tetragonal => u = 0 ∧ v = 0 ∧ w = 0 ∧ p = q
  | .cubic => u = 0 ∧ v = 0 ∧ w = 0 ∧ p = q ∧ q = r
  | _ => p = q ∧ v = 0 ∧ w = 0 ∧ 2 * u = -p

/-- The symmetric matrix with these entries. -/
def symm (p q r u v w : ℝ) : M3 := !![p, u, v; u, q, w; v, w, r]

/-- Entry of the transformed metric for columns `x`, `y` of the rotation. -/
def quad (p q r u v w : ℝ) (x1 x2 x3 y1 y2 y3 : Int) : ℝ :=
  x1 * (p * y1 + u * y2 + v * y3) + x2 * (u * y1 + q * y2 + w * y3) + x3 * (v * y1 + w * y2 + r * y3)

theorem invariant_of (p q r u v w : ℝ) (m : Mat)
    (h11 : quad p q r u v w m.a m.d m.g m.a m.d m.g = p)
    (h22 : quad p q r u v w m.b m.e m.h m.b m.e m.h = q)
    (h33 : quad p q r u v w m.c m.f m.i m.c m.f m.i = r)
    (h12 : quad p q r u v w m.a m.d m.g m.b m.e m.h = u)
    (h13 : quad p q r u v w m.a m.d m.g m.c m.f m.i = v)
    (h23 : quad p q r u v w m.b m.e m.h m.c m.f m.i = w) : Invariant (symm p q r u v w) m := by
  unfold Invariant
  unfold quad at *
  ext i j
  fin_cases i <;> fin_cases j <;> simp [symm, toReal, Matrix.mul_apply, Fin.sum_univ_three] <;>
    first
      | linear_combination h11 | linear_combination h22 | linear_combination h33
      | linear_combination h12 | linear_combination h13 | linear_combination h23

macro "inv_tac" : tactic => `(tactic|
  (simp only [allowedRot, List.forall_mem_cons, List.not_mem_nil, false_imp_iff, implies_true, and_true]
   repeat' refine And.intro ?_ ?_
   all_goals refine invariant_of _ _ _ _ _ _ _ ?_ ?_ ?_ ?_ ?_ ?_
   all_goals simp only [quad, Int.cast_zero, Int.cast_one, Int.cast_neg, mul_zero, zero_mul, mul_one, one_mul,
     add_zero, zero_add, mul_neg, neg_mul, neg_neg, neg_zero]
   all_goals ring))

theorem form_invariant (lt : LatticeType) (p q r u v w : ℝ) (h : Form lt p q r u v w) :
    ∀ m ∈ allowedRot lt, Invariant (symm p q r u v w) m := by
  have hu : lt = .trigonal ∨ lt = .hexagonal → q = -2 * u ∧ v = 0 ∧ w = 0 ∧ p = -2 * u := by
    rintro (rfl | rfl) <;>
    exact ⟨by have := h.1; have := h.2.2.2; linarith, h.2.1, h.2.2.1, by linarith [h.2.2.2]⟩
  cases lt
  · inv_tac
  · obtain ⟨rfl, rfl⟩ := h
    inv_tac
  · obtain ⟨rfl, rfl, rfl⟩ := h
    inv_tac
  · obtain ⟨rfl, rfl, rfl, rfl⟩ := h
    inv_tac
  · obtain ⟨rfl, rfl, rfl, rfl⟩ := hu (by simp)
    inv_tac
  · obtain ⟨rfl, rfl, rfl, rfl⟩ := hu (by simp)
    inv_tac
  · obtain ⟨rfl, rfl, rfl, rfl, rfl⟩ := h
    inv_tac

/-- Rotations of which at least one from each list occurs among the generators. -/
def keyRots : LatticeType → List (List Mat)
  | .triclinic => []
  | .monoclinic => [[⟨-1,0,0, 0,1,0, 0,0,-1⟩, ⟨1,0,0, 0,-1,0, 0,0,1⟩]]
  | .orthorhombic => [[⟨-1,0,0, 0,1,0, 0,0,-1⟩, ⟨1,0,0, 0,-1,0, 0,0,1⟩], [⟨-1,0,0, 0,-1,0, 0,0,1⟩, ⟨1,0,0, 0,1,0, 0,0,-1⟩]]
  | .tetragonal => [[⟨0,-1,0, 1,0,0, 0,0,1⟩, ⟨0,1,0, -1,0,0, 0,0,-1⟩]]
  | .cubic => [[⟨0,0,1, 1,0,0, 0,1,0⟩], [⟨-1,0,0, 0,-1,0, 0,0,1⟩, ⟨-1,0,0, 0,1,0, 0,0,-1⟩]]
  | _ => [[⟨0,-1,0, 1,-1,0, 0,0,1⟩]]

theorem invariant_eqs (p q r u v w : ℝ) (m : Mat) (h : Invariant (symm p q r u v w) m) :
    quad p q r u v w m.a m.d m.g m.a m.d m.g = p ∧
    quad p q r u v w m.b m.e m.h m.b m.e m.h = q ∧
    quad p q r u v w m.a m.d m.g m.b m.e m.h = u ∧
    quad p q r u v w m.a m.d m.g m.c m.f m.i = v ∧
    quad p q r u v w m.b m.e m.h m.c m.f m.i = w := by
  unfold Invariant at h
  have e := fun i j => congrFun (congrFun h i) j
  have e00 := e 0 0
  have e11 := e 1 1
  have e01 := e 0 1
  have e02 := e 0 2
  have e12 := e 1 2
  simp [symm, toReal, Matrix.mul_apply, Fin.sum_univ_three] at e00 e11 e01 e02 e12
  unfold quad
  exact ⟨by linear_combination e00, by linear_combination e11, by linear_combination e01,
    by linear_combination e02, by linear_combination e12⟩

theorem invariant_form (lt : LatticeType) (p q r u v w : ℝ)
    (h : ∀ k ∈ keyRots lt, ∃ m ∈ k, Invariant (symm p q r u v w) m) : Form lt p q r u v w := by
  cases lt
  all_goals simp only [keyRots, List.forall_mem_cons, List.not_mem_nil, false_imp_iff, implies_true, and_true] at h
  all_goals try simp only [List.mem_cons, List.not_mem_nil, or_false, exists_eq_or_imp, exists_eq_left] at h
  · trivial
  · rcases h with h | h <;> have := invariant_eqs _ _ _ _ _ _ _ h <;> norm_num [quad] at this <;>
      exact ⟨by linarith, by linarith⟩
  · obtain ⟨h | h, h' | h'⟩ := h <;> have := invariant_eqs _ _ _ _ _ _ _ h <;> have h2 := invariant_eqs _ _ _ _ _ _ _ h' <;>
      norm_num [quad] at this h2 <;> exact ⟨by linarith, by linarith, by linarith⟩
  · rcases h with h | h <;> have := invariant_eqs _ _ _ _ _ _ _ h <;> norm_num [quad] at this <;>
      exact ⟨by linarith, by linarith, by linarith, by linarith⟩
  · have := invariant_eqs _ _ _ _ _ _ _ h
    norm_num [quad] at this
    exact ⟨by linarith, by linarith, by linarith, by linarith⟩
  · have := invariant_eqs _ _ _ _ _ _ _ h
    norm_num [quad] at this
    exact ⟨by linarith, by linarith, by linarith, by linarith⟩
  · obtain ⟨h, h' | h'⟩ := h <;> have := invariant_eqs _ _ _ _ _ _ _ h <;> have h2 := invariant_eqs _ _ _ _ _ _ _ h' <;>
      norm_num [quad] at this h2 <;> exact ⟨by linarith, by linarith, by linarith, by linarith, by linarith⟩

/-- The generators of one space group have rotations of the lattice type, and enough of
them. -/
def rotsAt (setting sg : Nat) : Bool :=
  match (symGL[sg - 1]?).bind (fun s => makeGenerators s setting), latticeTypeZ sg with
  | some (gs, _), some lt =>
    gs.all (fun g => (allowedRot lt).any fun m => decide (g.r = m)) &&
    (keyRots lt).all fun k => k.any fun m => gs.any fun g => decide (g.r = m)
  | _, _ => false

set_option maxRecDepth 100000 in
theorem rotsRun0 : (List.range' 1 230).all (rotsAt 0) = true := by decide +kernel

set_option maxRecDepth 100000 in
theorem rotsRun1 : (List.range' 1 230).all (rotsAt 1) = true := by decide +kernel

/-- A symmetric matrix is invariant under the point group exactly if it has the form of the
lattice type. -/
theorem pg_invariant (sg setting : Nat) (h1 : 1 ≤ sg) (h2 : sg ≤ 230) :
    ∃ S lt, generateSGSym sg setting = some S ∧ latticeTypeZ sg = some lt ∧
      ∀ p q r u v w, Form lt p q r u v w ↔ ∀ m ∈ S.pg, Invariant (symm p q r u v w) m := by
  obtain ⟨S, gs, c0, e, hm, _, hgen, hin, _, _, hp, _⟩ := main sg setting h1 (by omega)
  have hr : rotsAt setting sg = true := by
    by_cases hk : setting = 0
    · rw [hk]; exact List.all_eq_true.1 rotsRun0 sg (List.mem_range'_1.2 (by omega))
    · have := List.all_eq_true.1 rotsRun1 sg (List.mem_range'_1.2 (by omega))
      unfold rotsAt at this ⊢
      have e2 : (symGL[sg - 1]?).bind (fun s => makeGenerators s setting) =
          (symGL[sg - 1]?).bind (fun s => makeGenerators s 1) := by
        cases symGL[sg - 1]? with
        | none => rfl
        | some s => exact makeGenerators_setting s setting hk
      rw [e2]; exact this
  unfold rotsAt at hr
  rw [hm] at hr
  cases el : latticeTypeZ sg with
  | none => rw [el] at hr; cases hr
  | some lt =>
  rw [el] at hr
  simp only [Bool.and_eq_true, List.all_eq_true, List.any_eq_true, decide_eq_true_eq] at hr
  refine ⟨S, lt, e, rfl, ?_⟩
  intro p q r u v w
  have hpg : ∀ m, m ∈ S.pg ↔ ∃ o ∈ S.ops, o.r = m := by rw [hp]; exact (pointGroup_spec S.ops).2.1
  constructor
  · intro hf m hmem
    obtain ⟨o, ho, rfl⟩ := (hpg m).1 hmem
    have key : ∀ z, Spec.Generated Op.comp gs z → Invariant (symm p q r u v w) z.r := by
      intro z hz
      induction hz with
      | gen g hg =>
        obtain ⟨m, hm', em⟩ := hr.1 g hg
        rw [em]
        exact form_invariant lt _ _ _ _ _ _ hf m hm'
      | mul x y _ _ ihx ihy => exact invariant_mul _ _ _ ihx ihy
    exact key _ (hgen o ho)
  · intro hi
    refine invariant_form lt p q r u v w ?_
    intro k hk
    obtain ⟨m, hmk, g, hg, em⟩ := hr.2 k hk
    exact ⟨m, hmk, hi m ((hpg m).2 ⟨g, hin g hg, em⟩)⟩

theorem cos_90 : Real.cos (radians 90) = 0 := by
  have : radians 90 = Real.pi / 2 := by rw [radians]; ring
  rw [this, Real.cos_pi_div_two]

theorem cos_120 : Real.cos (radians 120) = -1 / 2 := by
  have : radians 120 = Real.pi - Real.pi / 3 := by rw [radians]; ring
  rw [this, Real.cos_pi_sub, Real.cos_pi_div_three]
  norm_num

theorem dmt_symmForm (L : Cell) : L.dmt = symm (L.a ^ 2) (L.b ^ 2) (L.c ^ 2) (L.a * L.b * L.cg) (L.a * L.c * L.cb)
    (L.b * L.c * L.ca) := rfl

/-- The conditions on the lattice parameters give the form of the metric. -/
theorem conditions_form (lt : LatticeType) (L : Cell)
    (h : SpaceGroup.Spec.MetricConditions 90 120 lt L.a L.b L.c L.alpha L.beta L.gamma) :
    Form lt (L.a ^ 2) (L.b ^ 2) (L.c ^ 2) (L.a * L.b * L.cg) (L.a * L.c * L.cb) (L.b * L.c * L.ca) := by
  obtain ⟨a, b, c, al, be, ga⟩ := L
  cases lt <;> simp only [SpaceGroup.Spec.MetricConditions] at h <;> simp only [Form, ca, cb, cg]
  · obtain ⟨rfl, rfl⟩ := h; simp [cos_90]
  · obtain ⟨rfl, rfl, rfl⟩ := h; simp [cos_90]
  · obtain ⟨rfl, rfl, rfl, rfl⟩ := h; simp [cos_90]
  · obtain ⟨rfl, rfl, rfl, rfl⟩ := h; simp [cos_90, cos_120]; ring
  · obtain ⟨rfl, rfl, rfl, rfl⟩ := h; simp [cos_90, cos_120]; ring
  · obtain ⟨rfl, rfl, rfl, rfl, rfl⟩ := h; simp [cos_90]

/-- Rounding does nothing to integers. -/
theorem npRound_int (n : Int) : npRound (n : ℝ) = n := by simp [npRound]

theorem roundMat_toReal (m : Mat) : roundMat (toReal m) = m := by
  simp [roundMat, toReal, npRound_int]

end Hexrd.UnitCell
