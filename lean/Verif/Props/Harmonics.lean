import Verif.Spec.Harmonics
import Verif.Lemmas.Laue

namespace Hexrd.Texture
open Polynomial Spec Matrix Hexrd.Rotations Hexrd.Rotations.Quat Hexrd.Rotations.Spec

theorem derivative_neg (p : ℝ[X]) (k : ℕ) (x : ℝ) :
    (derivative^[k] (p.comp (-X))).eval x = (-1) ^ k * (derivative^[k] p).eval (-x) := by
  induction k generalizing p with
  | zero => simp
  | succ k ih =>
    rw [Function.iterate_succ_apply, Function.iterate_succ_apply]
    have : derivative (p.comp (-X)) = (-derivative p).comp (-X) := by
      rw [derivative_comp]; simp
    rw [this, ih, iterate_derivative_neg, eval_neg]
    ring

theorem legendre_neg (l m : ℕ) (x : ℝ) :
    (legendre l m).eval (-x) = (-1) ^ (l + m) * (legendre l m).eval x := by
  unfold legendre
  have h := derivative_neg ((X ^ 2 - 1) ^ l) (l + m) x
  have e : (((X : ℝ[X]) ^ 2 - 1) ^ l).comp (-X) = (X ^ 2 - 1) ^ l := by simp
  rw [e] at h
  rw [eval_mul, eval_mul, eval_C, eval_C, h, ← mul_assoc ((-1 : ℝ) ^ _), mul_comm ((-1 : ℝ) ^ _),
    mul_assoc, ← mul_assoc ((-1 : ℝ) ^ _), ← pow_add, Even.neg_one_pow ⟨_, rfl⟩, one_mul]

/-- The transverse part of a direction, as a complex number. -/
noncomputable def transverse (v : Fin 3 → ℝ) : ℂ := v 0 + v 1 * Complex.I

theorem transverse_norm (v : Fin 3 → ℝ) : ‖transverse v‖ ^ 2 = v 0 ^ 2 + v 1 ^ 2 := by
  unfold transverse
  rw [Complex.sq_norm, Complex.normSq_add_mul_I]

theorem sin_angles (v : Fin 3 → ℝ) (hv : IsUnit3 v) : Real.sin (angles v).1 = ‖transverse v‖ := by
  unfold angles
  simp only
  rw [Real.sin_arccos, ← Real.sqrt_sq (norm_nonneg (transverse v)), transverse_norm]
  congr 1
  unfold IsUnit3 at hv
  linarith

theorem cos_angles (v : Fin 3 → ℝ) (hv : IsUnit3 v) : Real.cos (angles v).1 = v 2 := by
  unfold IsUnit3 at hv
  exact Real.cos_arccos (by nlinarith [sq_nonneg (v 0), sq_nonneg (v 1), sq_nonneg (v 2 - 1)])
    (by nlinarith [sq_nonneg (v 0), sq_nonneg (v 1), sq_nonneg (v 2 + 1)])

/-- On a direction, a harmonic is a polynomial in the coordinates. -/
theorem harmNat_angles (l m : ℕ) (v : Fin 3 → ℝ) (hv : IsUnit3 v) :
    harmNat l m (angles v).1 (angles v).2 =
      (factor l m * (legendre l m).eval (v 2) : ℝ) * transverse v ^ m := by
  unfold harmNat
  rw [sin_angles v hv, cos_angles v hv]
  have e : transverse v = ‖transverse v‖ * Complex.exp ((angles v).2 * Complex.I) :=
    (Complex.norm_mul_exp_arg_mul_I _).symm
  conv_rhs => rw [e, mul_pow, ← Complex.exp_nat_mul]
  push_cast
  rw [mul_assoc (m : ℂ)]
  ring

/-- A direction `v'` is `v` turned about z by the phase `w`. -/
def Turned (w : ℂ) (v v' : Fin 3 → ℝ) : Prop := transverse v' = w * transverse v ∧ v' 2 = v 2

/-- A direction `v'` is `v` turned by half a turn about an axis normal to z. -/
def Flipped (w : ℂ) (v v' : Fin 3 → ℝ) : Prop :=
  transverse v' = w * (starRingEnd ℂ) (transverse v) ∧ v' 2 = -v 2

theorem harmNat_turned (l m : ℕ) (v v' : Fin 3 → ℝ) (hv : IsUnit3 v) (hv' : IsUnit3 v') (w : ℂ)
    (hw : w ^ m = 1) (h : Turned w v v') :
    harmNat l m (angles v').1 (angles v').2 = harmNat l m (angles v).1 (angles v).2 := by
  rw [harmNat_angles _ _ _ hv, harmNat_angles _ _ _ hv', h.1, h.2, mul_pow, hw, one_mul]

theorem harmNat_flipped (l m : ℕ) (v v' : Fin 3 → ℝ) (hv : IsUnit3 v) (hv' : IsUnit3 v') (w : ℂ)
    (hw : w ^ m = 1) (h : Flipped w v v') :
    harmNat l m (angles v').1 (angles v').2 =
      (-1) ^ (l + m) * (starRingEnd ℂ) (harmNat l m (angles v).1 (angles v).2) := by
  rw [harmNat_angles _ _ _ hv, harmNat_angles _ _ _ hv', h.1, h.2, mul_pow, hw, one_mul, legendre_neg, map_mul,
    Complex.conj_ofReal, map_pow]
  push_cast
  ring

theorem harmNat_inverted (l m : ℕ) (v : Fin 3 → ℝ) (hv : IsUnit3 v) :
    harmNat l m (angles (-v)).1 (angles (-v)).2 = (-1) ^ l * harmNat l m (angles v).1 (angles v).2 := by
  have hv' : IsUnit3 (-v) := by unfold IsUnit3 at *; simp only [Pi.neg_apply]; linarith
  have t : transverse (-v) = -transverse v := by unfold transverse; simp; ring
  rw [harmNat_angles _ _ _ hv, harmNat_angles _ _ _ hv', t, Pi.neg_apply, legendre_neg, neg_pow]
  push_cast
  rw [pow_add]
  have : ((-1 : ℂ) ^ m) * (-1) ^ m = 1 := by rw [← pow_add]; exact Even.neg_one_pow ⟨m, rfl⟩
  linear_combination ((factor l m : ℂ) * (-1) ^ l * ((legendre l m).eval (v 2) : ℝ) * transverse v ^ m) * this


theorem harm_turned (l : ℕ) (m : ℤ) (v v' : Fin 3 → ℝ) (hv : IsUnit3 v) (hv' : IsUnit3 v') (w : ℂ)
    (hw : w ^ m.natAbs = 1) (h : Turned w v v') :
    harm l m (angles v').1 (angles v').2 = harm l m (angles v).1 (angles v).2 := by
  unfold harm
  split
  · next h0 => exact harmNat_turned l _ v v' hv hv' w (by rwa [show m.toNat = m.natAbs by omega]) h
  · rw [harmNat_turned l _ v v' hv hv' w hw h]

theorem harm_flipped (l : ℕ) (m : ℤ) (v v' : Fin 3 → ℝ) (hv : IsUnit3 v) (hv' : IsUnit3 v') (w : ℂ)
    (hw : w ^ m.natAbs = 1) (h : Flipped w v v') :
    harm l m (angles v').1 (angles v').2 =
      (-1) ^ (l + m.natAbs) * (starRingEnd ℂ) (harm l m (angles v).1 (angles v).2) := by
  unfold harm
  split
  · next h0 =>
    have e : m.toNat = m.natAbs := by omega
    rw [e]
    exact harmNat_flipped l _ v v' hv hv' w hw h
  · rw [harmNat_flipped l _ v v' hv hv' w hw h]
    simp only [map_mul, map_pow, map_neg, map_one, Complex.conj_conj]
    ring

theorem harm_inverted (l : ℕ) (m : ℤ) (v : Fin 3 → ℝ) (hv : IsUnit3 v) :
    harm l m (angles (-v)).1 (angles (-v)).2 = (-1) ^ l * harm l m (angles v).1 (angles v).2 := by
  unfold harm
  split
  · exact harmNat_inverted l _ v hv
  · rw [harmNat_inverted l _ v hv]
    simp only [map_mul, map_pow, map_neg, map_one]
    ring

/-- The harmonic of the opposite order. -/
theorem harm_neg (l k : ℕ) (hk : k ≠ 0) (t f : ℝ) :
    harm l (-(k : ℤ)) t f = (-1) ^ k * (starRingEnd ℂ) (harm l k t f) := by
  unfold harm
  rw [if_neg (by omega), if_pos (by omega)]
  simp

/-- The harmonic of order zero is real. -/
theorem harm_zero_real (l : ℕ) (t f : ℝ) : (starRingEnd ℂ) (harm l 0 t f) = harm l 0 t f := by
  unfold harm harmNat
  simp [Complex.conj_ofReal]

theorem neg_one_even {n : ℕ} (h : n % 2 = 0) : (-1 : ℂ) ^ n = 1 := by
  rw [← Nat.even_iff] at h; exact h.neg_one_pow

theorem neg_one_odd {n : ℕ} (h : n % 2 ≠ 0) : (-1 : ℂ) ^ n = -1 := by
  rw [← Nat.odd_iff.trans (by omega : n % 2 = 1 ↔ n % 2 ≠ 0)] at h; exact h.neg_one_pow

/-- The symmetries with half a turn normal to z. -/
def dihedral : Sym → Bool
  | .d2h | .d3d | .d4h | .d6h | .orthorhombic | .axial => true
  | _ => false

theorem pow_fold {w : ℂ} {nf : ℕ} (hw : w ^ nf = 1) (k : ℤ) : w ^ ((nf : ℤ) * k).natAbs = 1 := by
  rw [Int.natAbs_mul, Int.natAbs_natCast, pow_mul, hw, one_pow]

/-- Turning by the fold of the symmetry about z changes no symmetrised harmonic. -/
theorem symHarm_turned (deg : ℕ) (sym : Sym) (v v' : Fin 3 → ℝ) (hv : IsUnit3 v) (hv' : IsUnit3 v') (w : ℂ)
    (hw : ∀ nf, nfold sym = some nf → w ^ nf = 1) (h : Turned w v v') :
    symHarm deg (angles v').1 (angles v').2 sym = symHarm deg (angles v).1 (angles v).2 sym := by
  have key : ∀ nf, nfold sym = some nf → ∀ k : ℤ,
      harm deg (nf * k) (angles v').1 (angles v').2 = harm deg (nf * k) (angles v).1 (angles v).2 :=
    fun nf hn k => harm_turned deg _ v v' hv hv' w (pow_fold (hw nf hn) k) h
  have key0 := harm_turned deg 0 v v' hv hv' w (by simp) h
  have cyc : ∀ nf, nfold sym = some nf → ∀ k : ℤ,
      cyclicColumn deg nf k (angles v').1 (angles v').2 = cyclicColumn deg nf k (angles v).1 (angles v).2 := by
    intro nf hn k
    unfold cyclicColumn
    rw [key nf hn]
  have cub : ∀ nf, nfold sym = some nf → ∀ n row,
      cubicColumn deg nf n row (angles v').1 (angles v').2 = cubicColumn deg nf n row (angles v).1 (angles v).2 := by
    intro nf hn n row
    unfold cubicColumn
    simp only [key nf hn]
  have dih : ∀ nf, nfold sym = some nf → ∀ ii : ℕ,
      dihedralColumn sym deg nf ii (angles v').1 (angles v').2 =
        dihedralColumn sym deg nf ii (angles v).1 (angles v).2 := by
    intro nf hn ii
    unfold dihedralColumn
    have e := key nf hn (-ii)
    rw [mul_neg] at e
    rw [key nf hn, e]
  unfold symHarm
  cases sym <;> simp only [nfold, Option.getD_some] <;>
    first
      | rw [key0]
      | simp only [cyc _ rfl]
      | simp only [dih _ rfl]
      | simp only [cub _ rfl]

theorem re_conj_even (z : ℂ) {n : ℕ} (h : n % 2 = 0) : ((-1) ^ n * (starRingEnd ℂ) z).re = z.re := by
  rw [neg_one_even h]; simp

/-- Half a turn normal to z changes no harmonic of a dihedral symmetry. -/
theorem symHarm_flipped (deg : ℕ) (sym : Sym) (hs : dihedral sym = true) (v v' : Fin 3 → ℝ) (hv : IsUnit3 v)
    (hv' : IsUnit3 v') (w : ℂ) (hw : ∀ nf, nfold sym = some nf → w ^ nf = 1) (h : Flipped w v v') :
    symHarm deg (angles v').1 (angles v').2 sym = symHarm deg (angles v).1 (angles v).2 sym := by
  by_cases hd : deg % 2 = 0
  swap
  · have : checkDegrees deg sym = none := by
      unfold checkDegrees
      rw [if_neg (by omega), if_pos (by omega)]
    unfold symHarm
    rw [this]
    rfl
  have key0 : (harm deg 0 (angles v').1 (angles v').2).re = (harm deg 0 (angles v).1 (angles v).2).re := by
    rw [harm_flipped deg 0 v v' hv hv' w (by simp) h]
    exact re_conj_even _ (by simpa using hd)
  have dih : ∀ nf, nfold sym = some nf → (nf % 2 = 0 ∧ sym ≠ .d3d ∨ nf = 3 ∧ sym = .d3d) → ∀ ii : ℕ,
      dihedralColumn sym deg nf ii (angles v').1 (angles v').2 =
        dihedralColumn sym deg nf ii (angles v).1 (angles v).2 := by
    intro nf hn hc ii
    have f := harm_flipped deg (nf * ii) v v' hv hv' w (pow_fold (hw nf hn) ii) h
    have e : ((nf : ℤ) * (ii : ℤ)).natAbs = nf * ii := by rw [← Nat.cast_mul, Int.natAbs_natCast]
    rw [e] at f
    unfold dihedralColumn
    by_cases h0 : ii = 0
    · rw [if_pos h0, if_pos h0]
      subst h0
      simpa using key0
    rw [if_neg h0, if_neg h0]
    have nf0 : nf ≠ 0 := by
      rintro rfl
      rcases hc with ⟨_, h3⟩ | ⟨h3, _⟩
      · cases sym <;> simp [nfold] at hn
      · omega
    have hk : nf * ii ≠ 0 := Nat.mul_ne_zero nf0 h0
    have cast : ((nf : ℤ) * (ii : ℤ)) = ((nf * ii : ℕ) : ℤ) := by push_cast; rfl
    rw [cast] at f ⊢
    rw [harm_neg _ _ hk, harm_neg _ _ hk, f]
    generalize harm deg ((nf * ii : ℕ) : ℤ) (angles v).1 (angles v).2 = z
    by_cases hodd : sym = .d3d ∧ ii % 2 ≠ 0
    · rw [if_pos hodd, if_pos hodd]
      have h3 : nf = 3 := by
        rcases hc with ⟨_, hx⟩ | ⟨hx, _⟩
        · exact absurd hodd.1 hx
        · exact hx
      have o1 : (nf * ii) % 2 ≠ 0 := by subst h3; omega
      have o2 : (deg + nf * ii) % 2 ≠ 0 := by omega
      rw [neg_one_odd o1, neg_one_odd o2]
      simp
    · rw [if_neg hodd, if_neg hodd]
      have o1 : (nf * ii) % 2 = 0 := by
        rcases hc with ⟨hx, _⟩ | ⟨hx, hy⟩
        · rw [Nat.mul_mod, hx]; simp
        · have : ii % 2 = 0 := by
            by_contra hne
            exact hodd ⟨hy, hne⟩
          rw [Nat.mul_mod, this]; simp
      have o2 : (deg + nf * ii) % 2 = 0 := by omega
      rw [neg_one_even o1, neg_one_even o2]
      simp
  unfold symHarm
  cases sym <;> simp only [dihedral, Bool.false_eq_true] at hs <;> simp only [nfold, Option.getD_some]
  · simp only [dih _ rfl (Or.inl ⟨rfl, by decide⟩)]
  · simp only [dih _ rfl (Or.inl ⟨rfl, by decide⟩)]
  · simp only [dih _ rfl (Or.inr ⟨rfl, rfl⟩)]
  · simp only [dih _ rfl (Or.inl ⟨rfl, by decide⟩)]
  · simp only [dih _ rfl (Or.inl ⟨rfl, by decide⟩)]
  · rw [key0]

/-- Opposite directions have the same symmetrised harmonics. -/
theorem symHarm_inverted (deg : ℕ) (sym : Sym) (v : Fin 3 → ℝ) (hv : IsUnit3 v) :
    symHarm deg (angles (-v)).1 (angles (-v)).2 sym = symHarm deg (angles v).1 (angles v).2 sym := by
  by_cases hd : deg % 2 = 0
  swap
  · have : checkDegrees deg sym = none := by
      unfold checkDegrees
      rw [if_neg (by omega), if_pos (by omega)]
    unfold symHarm
    rw [this]
    rfl
  have key : ∀ m : ℤ, harm deg m (angles (-v)).1 (angles (-v)).2 = harm deg m (angles v).1 (angles v).2 := by
    intro m
    rw [harm_inverted deg m v hv, neg_one_even hd, one_mul]
  unfold symHarm cyclicColumn cubicColumn dihedralColumn
  simp only [key]

/-- The form of a rotation that is about z, or half a turn normal to z. -/
def Axial (nf : ℕ) (flip : Bool) (M : Matrix (Fin 3) (Fin 3) ℝ) : Prop :=
  ((M 0 0 : ℂ) + M 1 0 * Complex.I) ^ nf = 1 ∧ M 0 2 = 0 ∧ M 1 2 = 0 ∧ M 2 0 = 0 ∧ M 2 1 = 0 ∧
    ((M 0 1 = -M 1 0 ∧ M 1 1 = M 0 0 ∧ M 2 2 = 1) ∨
      (flip = true ∧ M 0 1 = M 1 0 ∧ M 1 1 = -M 0 0 ∧ M 2 2 = -1))

theorem axial_table {d : ℤ} {h : 0 ≤ d} {L : List (Quat ℝ)} {T : List (Quat (ℤ√d))} {nf : ℕ} {flip : Bool}
    (hf : List.Forall₂ SameUpToSign L (T.map (evalQ h))) (hT : ∀ A ∈ T, Axial nf flip (rotMat (evalQ h A))) :
    ∀ q ∈ L, Axial nf flip (rotMat q) := by
  induction T generalizing L with
  | nil => cases hf; simp
  | cons a T ih =>
    cases hf with
    | cons h1 h2 =>
      intro q hq
      rcases List.mem_cons.1 hq with rfl | hq
      · rw [rotMat_same h1]; exact hT a List.mem_cons_self
      · exact ih h2 (fun A hA => hT A (List.mem_cons_of_mem _ hA)) q hq

macro "axial_tac" : tactic => `(tactic| (
  simp only [Axial, Complex.ext_iff]
  simp [rotMat, evalQ, Zsqrtd.toReal, pow_succ]
  try grind))

theorem axial_ci : ∀ A ∈ table_ci, Axial 1 false (rotMat (evalQ (d := 2) (by norm_num) A)) := by
  obtain ⟨s2, s3, -, -⟩ := sqrt_facts
  simp only [table_ci, List.mem_cons, List.not_mem_nil, or_false, forall_eq]
  axial_tac

theorem axial_d2h : ∀ A ∈ table_d2h, Axial 2 true (rotMat (evalQ (d := 2) (by norm_num) A)) := by
  obtain ⟨s2, s3, -, -⟩ := sqrt_facts
  simp only [table_d2h, List.mem_cons, List.not_mem_nil, or_false, forall_eq_or_imp, forall_eq]
  refine ⟨?_, ?_, ?_, ?_⟩ <;> axial_tac

theorem axial_c4h : ∀ A ∈ table_c4h, Axial 4 false (rotMat (evalQ (d := 2) (by norm_num) A)) := by
  obtain ⟨s2, s3, -, -⟩ := sqrt_facts
  simp only [table_c4h, List.mem_cons, List.not_mem_nil, or_false, forall_eq_or_imp, forall_eq]
  refine ⟨?_, ?_, ?_, ?_⟩ <;> axial_tac

theorem axial_d4h : ∀ A ∈ table_d4h, Axial 4 true (rotMat (evalQ (d := 2) (by norm_num) A)) := by
  obtain ⟨s2, s3, -, -⟩ := sqrt_facts
  simp only [table_d4h, List.mem_cons, List.not_mem_nil, or_false, forall_eq_or_imp, forall_eq]
  refine ⟨?_, ?_, ?_, ?_, ?_, ?_, ?_, ?_⟩ <;> axial_tac

theorem axial_c3i : ∀ A ∈ table_c3i, Axial 3 false (rotMat (evalQ (d := 3) (by norm_num) A)) := by
  obtain ⟨s2, s3, -, -⟩ := sqrt_facts
  simp only [table_c3i, List.mem_cons, List.not_mem_nil, or_false, forall_eq_or_imp, forall_eq]
  refine ⟨?_, ?_, ?_⟩ <;> axial_tac

theorem axial_d3d : ∀ A ∈ table_d3d, Axial 3 true (rotMat (evalQ (d := 3) (by norm_num) A)) := by
  obtain ⟨s2, s3, -, -⟩ := sqrt_facts
  simp only [table_d3d, List.mem_cons, List.not_mem_nil, or_false, forall_eq_or_imp, forall_eq]
  refine ⟨?_, ?_, ?_, ?_, ?_, ?_⟩ <;> axial_tac

theorem axial_c6h : ∀ A ∈ table_c6h, Axial 6 false (rotMat (evalQ (d := 3) (by norm_num) A)) := by
  obtain ⟨s2, s3, -, -⟩ := sqrt_facts
  simp only [table_c6h, List.mem_cons, List.not_mem_nil, or_false, forall_eq_or_imp, forall_eq]
  refine ⟨?_, ?_, ?_, ?_, ?_, ?_⟩ <;> axial_tac

theorem axial_d6h : ∀ A ∈ table_d6h, Axial 6 true (rotMat (evalQ (d := 3) (by norm_num) A)) := by
  obtain ⟨s2, s3, -, -⟩ := sqrt_facts
  simp only [table_d6h, List.mem_cons, List.not_mem_nil, or_false, forall_eq_or_imp, forall_eq]
  refine ⟨?_, ?_, ?_, ?_, ?_, ?_, ?_, ?_, ?_, ?_, ?_, ?_⟩ <;> axial_tac

/-- The symmetries whose harmonics have the axes of the Laue group. -/
def Aligned (sym : Sym) : Prop :=
  sym = .ci ∨ sym = .d2h ∨ sym = .c4h ∨ sym = .d4h ∨ sym = .s6 ∨ sym = .d3d ∨ sym = .c6h ∨ sym = .d6h

theorem aligned_axial (sigma : ℕ → ℝ) (hs : ∀ i, sigma i = 1 ∨ sigma i = -1) (sym : Sym) (ha : Aligned sym)
    (tag : LaueTag) (ht : laueTag sym = some tag) :
    ∃ nf, nfold sym = some nf ∧ nf ≠ 0 ∧ ∀ q ∈ quatOfLaueGroup sigma tag, Axial nf (dihedral sym) (rotMat q) := by
  rcases ha with rfl | rfl | rfl | rfl | rfl | rfl | rfl | rfl <;> simp only [laueTag, Option.some.injEq] at ht <;>
    subst ht
  · exact ⟨1, rfl, by decide, axial_table (forall2_ci sigma hs) axial_ci⟩
  · exact ⟨2, rfl, by decide, axial_table (forall2_d2h sigma hs) axial_d2h⟩
  · exact ⟨4, rfl, by decide, axial_table (forall2_c4h sigma hs) axial_c4h⟩
  · exact ⟨4, rfl, by decide, axial_table (forall2_d4h sigma hs) axial_d4h⟩
  · exact ⟨3, rfl, by decide, axial_table (forall2_c3i sigma hs) axial_c3i⟩
  · exact ⟨3, rfl, by decide, axial_table (forall2_d3d sigma hs) axial_d3d⟩
  · exact ⟨6, rfl, by decide, axial_table (forall2_c6h sigma hs) axial_c6h⟩
  · exact ⟨6, rfl, by decide, axial_table (forall2_d6h sigma hs) axial_d6h⟩

theorem transverse_mul (M : Matrix (Fin 3) (Fin 3) ℝ) (v : Fin 3 → ℝ) :
    (M *ᵥ v) 0 = M 0 0 * v 0 + M 0 1 * v 1 + M 0 2 * v 2 ∧ (M *ᵥ v) 1 = M 1 0 * v 0 + M 1 1 * v 1 + M 1 2 * v 2 ∧
      (M *ᵥ v) 2 = M 2 0 * v 0 + M 2 1 * v 1 + M 2 2 * v 2 := by
  refine ⟨?_, ?_, ?_⟩ <;> simp [Matrix.mulVec, dotProduct, Fin.sum_univ_three]

/-- What a rotation about z, or half a turn normal to z, does to a direction. -/
theorem axial_acts {nf : ℕ} {flip : Bool} {M : Matrix (Fin 3) (Fin 3) ℝ} (hn : nf ≠ 0) (hM : Axial nf flip M)
    (v : Fin 3 → ℝ) (hv : IsUnit3 v) :
    IsUnit3 (M *ᵥ v) ∧ ∃ w : ℂ, w ^ nf = 1 ∧ (Turned w v (M *ᵥ v) ∨ flip = true ∧ Flipped w v (M *ᵥ v)) := by
  obtain ⟨hw, h02, h12, h20, h21, hc⟩ := hM
  have nw : M 0 0 ^ 2 + M 1 0 ^ 2 = 1 := by
    have := congrArg (‖·‖) hw
    simp only [norm_pow, norm_one] at this
    replace this := (pow_eq_one_iff_of_nonneg (norm_nonneg _) hn).1 this
    rw [← Complex.normSq_add_mul_I, ← Complex.sq_norm, this, one_pow]
  obtain ⟨e0, e1, e2⟩ := transverse_mul M v
  rw [h02, zero_mul, add_zero] at e0
  rw [h12, zero_mul, add_zero] at e1
  rw [h20, h21, zero_mul, zero_mul, zero_add, zero_add] at e2
  unfold IsUnit3 at hv ⊢
  rcases hc with ⟨a1, a2, a3⟩ | ⟨hf, a1, a2, a3⟩
  · rw [a1] at e0
    rw [a2] at e1
    rw [a3, one_mul] at e2
    refine ⟨by rw [e0, e1, e2]; linear_combination hv + (v 0 ^ 2 + v 1 ^ 2) * nw, _, hw, Or.inl ⟨?_, e2⟩⟩
    unfold transverse
    rw [e0, e1]
    push_cast
    linear_combination (-(M 1 0 : ℂ) * v 1) * Complex.I_sq
  · rw [a1] at e0
    rw [a2] at e1
    rw [a3, neg_one_mul] at e2
    refine ⟨by rw [e0, e1, e2]; linear_combination hv + (v 0 ^ 2 + v 1 ^ 2) * nw, _, hw, Or.inr ⟨hf, ?_, e2⟩⟩
    unfold transverse
    rw [e0, e1]
    simp only [map_add, map_mul, Complex.conj_ofReal, Complex.conj_I]
    push_cast
    linear_combination ((M 1 0 : ℂ) * v 1) * Complex.I_sq

theorem unit_neg {v : Fin 3 → ℝ} (hv : IsUnit3 v) : IsUnit3 (-v) := by
  unfold IsUnit3 at *; simp only [Pi.neg_apply]; linarith

/-- C124: for the triclinic, orthorhombic, tetragonal, trigonal and hexagonal Laue groups, every symmetrised
harmonic of every degree has the same value on all the directions of a family. (Missing: the monoclinic and
the cubic groups, for which it is false.) -/
theorem harmonics_family_partial (sigma : ℕ → ℝ) (hs : ∀ i, sigma i = 1 ∨ sigma i = -1) (sym : Sym)
    (ha : Aligned sym) (tag : LaueTag) (ht : laueTag sym = some tag) (v w : Fin 3 → ℝ) (hv : IsUnit3 v)
    (h : SameFamily (quatOfLaueGroup sigma tag) v w) (deg : ℕ) :
    IsUnit3 w ∧ symHarm deg (angles w).1 (angles w).2 sym = symHarm deg (angles v).1 (angles v).2 sym := by
  obtain ⟨nf, hn, hn0, hg⟩ := aligned_axial sigma hs sym ha tag ht
  induction h with
  | refl => exact ⟨hv, rfl⟩
  | @rot w q hq _ ih =>
    obtain ⟨hu, x, hx, hc⟩ := axial_acts hn0 (hg q hq) w ih.1
    have hx' : ∀ n, nfold sym = some n → x ^ n = 1 := by
      intro n h'
      rw [hn] at h'
      cases h'
      exact hx
    refine ⟨hu, ?_⟩
    rw [← ih.2]
    rcases hc with hc | ⟨hf, hc⟩
    · exact symHarm_turned deg sym w _ ih.1 hu x hx' hc
    · exact symHarm_flipped deg sym hf w _ ih.1 hu x hx' hc
  | inv _ ih => exact ⟨unit_neg ih.1, by rw [symHarm_inverted deg sym _ ih.1, ih.2]⟩

/-- C124: so all the reflections of a family have the same pole figure. -/
theorem intensity_family_partial (sigma : ℕ → ℝ) (hs : ∀ i, sigma i = 1 ∨ sigma i = -1) (csym ssym : Sym)
    (ha : Aligned csym) (tag : LaueTag) (ht : laueTag csym = some tag) (v w : Fin 3 → ℝ) (hv : IsUnit3 v)
    (h : SameFamily (quatOfLaueGroup sigma tag) v w) (p : Params) (ellMax : ℕ) (s : ℝ × ℝ) :
    intensity p csym ssym ellMax (angles w) s = intensity p csym ssym ellMax (angles v) s := by
  unfold intensity seriesTerm
  simp only [(harmonics_family_partial sigma hs csym ha tag ht v w hv h _).2]

theorem turnZ_turned (a : ℝ) (v : Fin 3 → ℝ) :
    Turned (Real.cos a + Real.sin a * Complex.I) v (turnZ a *ᵥ v) := by
  obtain ⟨e0, e1, e2⟩ := transverse_mul (turnZ a) v
  refine ⟨?_, ?_⟩
  · unfold transverse
    rw [e0, e1]
    simp [turnZ]
    linear_combination (-(Complex.sin a : ℂ) * v 1) * Complex.I_sq
  · rw [e2]; simp [turnZ]

theorem turnZ_unit (a : ℝ) (v : Fin 3 → ℝ) (hv : IsUnit3 v) : IsUnit3 (turnZ a *ᵥ v) := by
  obtain ⟨e0, e1, e2⟩ := transverse_mul (turnZ a) v
  unfold IsUnit3 at *
  rw [e0, e1, e2]
  simp [turnZ]
  linear_combination hv + (v 0 ^ 2 + v 1 ^ 2) * Real.sin_sq_add_cos_sq a

theorem halfX_flipped (v : Fin 3 → ℝ) : Flipped 1 v (halfX *ᵥ v) := by
  obtain ⟨e0, e1, e2⟩ := transverse_mul halfX v
  refine ⟨?_, ?_⟩
  · unfold transverse; rw [e0, e1]; simp [halfX]
  · rw [e2]; simp [halfX]

theorem halfY_flipped (v : Fin 3 → ℝ) : Flipped (-1) v (halfY *ᵥ v) := by
  obtain ⟨e0, e1, e2⟩ := transverse_mul halfY v
  refine ⟨?_, ?_⟩
  · unfold transverse; rw [e0, e1]; simp [halfY]; ring
  · rw [e2]; simp [halfY]

theorem half_unit (v : Fin 3 → ℝ) (hv : IsUnit3 v) : IsUnit3 (halfX *ᵥ v) ∧ IsUnit3 (halfY *ᵥ v) := by
  obtain ⟨e0, e1, e2⟩ := transverse_mul halfX v
  obtain ⟨f0, f1, f2⟩ := transverse_mul halfY v
  unfold IsUnit3 at *
  rw [e0, e1, e2, f0, f1, f2]
  simp [halfX, halfY]
  exact hv

/-- C124: the pole figures have the symmetry of the sample, and the symmetry of inversion. -/
theorem intensity_sample (csym ssym : Sym) (M : Matrix (Fin 3) (Fin 3) ℝ)
    (hM : SampleOp ssym M) (v : Fin 3 → ℝ) (hv : IsUnit3 v) (p : Params) (ellMax : ℕ) (h : ℝ × ℝ) :
    intensity p csym ssym ellMax h (angles (M *ᵥ v)) = intensity p csym ssym ellMax h (angles v) ∧
      intensity p csym ssym ellMax h (angles (-v)) = intensity p csym ssym ellMax h (angles v) := by
  have key : ∀ deg, symHarm deg (angles (M *ᵥ v)).1 (angles (M *ᵥ v)).2 ssym =
      symHarm deg (angles v).1 (angles v).2 ssym := by
    intro deg
    have pi2 : ((Real.cos Real.pi : ℝ) + (Real.sin Real.pi : ℝ) * Complex.I : ℂ) ^ 2 = 1 := by simp
    cases ssym <;> simp only [SampleOp] at hM
    · subst hM
      refine symHarm_turned deg _ v _ hv (turnZ_unit _ v hv) _ ?_ (turnZ_turned _ v)
      intro nf hn; cases hn; exact pi2
    · rcases hM with rfl | rfl | rfl
      · refine symHarm_turned deg _ v _ hv (turnZ_unit _ v hv) _ ?_ (turnZ_turned _ v)
        intro nf hn; cases hn; exact pi2
      · refine symHarm_flipped deg _ rfl v _ hv (half_unit v hv).1 1 ?_ (halfX_flipped v)
        intro nf hn; simp
      · refine symHarm_flipped deg _ rfl v _ hv (half_unit v hv).2 (-1) ?_ (halfY_flipped v)
        intro nf hn; cases hn; simp
    · rcases hM with ⟨a, rfl⟩ | rfl
      · refine symHarm_turned deg _ v _ hv (turnZ_unit _ v hv) _ ?_ (turnZ_turned _ v)
        intro nf hn; cases hn
      · refine symHarm_flipped deg _ rfl v _ hv (half_unit v hv).1 1 ?_ (halfX_flipped v)
        intro nf hn; cases hn
  unfold intensity seriesTerm
  simp only [key, symHarm_inverted _ ssym v hv, and_self]

end Hexrd.Texture
