import Verif.Model.MatArrays
import Verif.Spec.MatArrays
import Mathlib.Algebra.BigOperators.Fin
import Mathlib.Algebra.BigOperators.Intervals
import Mathlib.LinearAlgebra.Matrix.NonsingularInverse
import Mathlib.Data.Real.Basic
import Mathlib.Tactic.Linarith
import Mathlib.Tactic.Ring
import Mathlib.Tactic.FinCases

/-!
# C162 and C163: arrays of matrices, and null spaces
-/
namespace Hexrd.MatArrays
open Finset

theorem sum_range_list {R : Type} [AddCommMonoid R] (n : ℕ) (f : ℕ → R) : ((List.range n).map f).sum = ∑ i ∈ range n, f i := by
  induction n with
  | zero => simp
  | succ n ih => rw [List.range_succ, List.map_append, List.sum_append, ih, sum_range_succ]; simp

section block
variable {R : Type} [CommRing R]

/-- **C162**: the sparse matrix is the block diagonal matrix: no entry is lost, none is written twice. -/
theorem blockSparse_eq (p m n : ℕ) (A : ℕ → ℕ → ℕ → R) (a b : ℕ) (ha : a < p * m) (hb : b < p * n) :
    blockSparse p m n A a b = Spec.blockDiag m n A a b := by
  have hm : 0 < m := Nat.pos_of_ne_zero fun h => by simp [h] at ha
  have hn : 0 < n := Nat.pos_of_ne_zero fun h => by simp [h] at hb
  unfold blockSparse Spec.blockDiag
  rw [sum_range_list]
  have hcond : ∀ t, (blockRow m n t = a ∧ blockCol m t = b) ↔ (t = b * m + a % m ∧ a / m = b / n) := by
    intro t
    unfold blockRow blockCol
    rw [← Nat.div_div_eq_div_mul]
    constructor
    · rintro ⟨h1, h2⟩
      rw [h2] at h1
      have hr : a % m = t % m := by rw [← h1, Nat.add_mul_mod_self_left, Nat.mod_mod]
      refine ⟨?_, ?_⟩
      · rw [hr, ← h2]; exact (Nat.div_add_mod' t m).symm
      · rw [← h1, Nat.add_mul_div_left _ _ hm, Nat.div_eq_of_lt (Nat.mod_lt _ hm), Nat.zero_add]
    · rintro ⟨rfl, h2⟩
      have h3 : (b * m + a % m) / m = b := by
        rw [Nat.add_comm, Nat.add_mul_div_right _ _ hm, Nat.div_eq_of_lt (Nat.mod_lt _ hm), Nat.zero_add]
      have h4 : (b * m + a % m) % m = a % m := by rw [Nat.mul_add_mod_self_right, Nat.mod_mod]
      refine ⟨?_, h3⟩
      rw [h3, h4, ← h2]
      exact Nat.mod_add_div a m
  have hlt : b * m + a % m < p * m * n := by
    have h1 : a % m < m := Nat.mod_lt _ hm
    have h2 : (b + 1) * m ≤ p * n * m := Nat.mul_le_mul_right m hb
    have h3 : p * n * m = p * m * n := by ring
    rw [← h3]; nlinarith
  by_cases hab : a / m = b / n
  · have : ∀ t ∈ range (p * m * n), (if blockRow m n t = a ∧ blockCol m t = b then blockData m n A t else 0)
        = if t = b * m + a % m then blockData m n A t else 0 := by
      intro t _
      congr 1
      rw [hcond]; simp [hab]
    rw [sum_congr rfl this, sum_ite_eq' _ _ (blockData m n A), if_pos (mem_range.mpr hlt), if_pos hab]
    unfold blockData
    have h3 : (b * m + a % m) / m = b := by
      rw [Nat.add_comm, Nat.add_mul_div_right _ _ hm, Nat.div_eq_of_lt (Nat.mod_lt _ hm), Nat.zero_add]
    have h4 : (b * m + a % m) % m = a % m := by rw [Nat.mul_add_mod_self_right, Nat.mod_mod]
    rw [Nat.mod_mul_left_mod, h4, Nat.mod_mul_left_div_self, h3, Nat.mul_comm n m, ← Nat.div_div_eq_div_mul, h3, hab]
  · rw [if_neg hab]
    apply sum_eq_zero
    intro t _
    rw [if_neg]
    rw [hcond]; tauto

/-- **C162**: entry by entry: inside its block the entry of its matrix, elsewhere zero. -/
theorem blockSparse_entry (p m n : ℕ) (A : ℕ → ℕ → ℕ → R) (l l' r c : ℕ) (hl : l < p) (hl' : l' < p) (hr : r < m) (hc : c < n) :
    blockSparse p m n A (l * m + r) (l' * n + c) = if l = l' then A l r c else 0 := by
  have key : ∀ (k q : ℕ) (x : ℕ), x < q → (k * q + x) / q = k ∧ (k * q + x) % q = x := by
    intro k q x hx
    have hq : 0 < q := by omega
    refine ⟨?_, ?_⟩
    · rw [Nat.add_comm, Nat.add_mul_div_right _ _ hq, Nat.div_eq_of_lt hx, Nat.zero_add]
    · rw [Nat.mul_add_mod_self_right, Nat.mod_eq_of_lt hx]
  have hbound : ∀ (k q x : ℕ), k < p → x < q → k * q + x < p * q := by
    intro k q x hk hx
    have : (k + 1) * q ≤ p * q := Nat.mul_le_mul_right q hk
    nlinarith
  rw [blockSparse_eq p m n A _ _ (hbound l m r hl hr) (hbound l' n c hl' hc)]
  unfold Spec.blockDiag
  rw [(key l m r hr).1, (key l' n c hc).1, (key l m r hr).2, (key l' n c hc).2]

theorem sum_blocks (p n : ℕ) (f : ℕ → ℕ → R) : ∑ b ∈ range (p * n), f (b / n) (b % n) = ∑ l ∈ range p, ∑ j ∈ range n, f l j := by
  induction p with
  | zero => simp
  | succ p ih =>
    rw [Nat.succ_mul, sum_range_add, ih, sum_range_succ]
    congr 1
    apply sum_congr rfl
    intro j hj
    have hj := mem_range.mp hj
    have hn : 0 < n := by omega
    rw [Nat.mul_add_mod_self_right, Nat.mod_eq_of_lt hj, Nat.add_comm, Nat.add_mul_div_right _ _ hn, Nat.div_eq_of_lt hj, Nat.zero_add]

/-- **C162**: the sparse matrix of the products is the product of the sparse matrices. -/
theorem blockSparse_mult (p m n k : ℕ) (A B : ℕ → ℕ → ℕ → R) (a c : ℕ) (ha : a < p * m) (hc : c < p * k) :
    blockSparse p m k (multMatArray n A B) a c = ∑ b ∈ range (p * n), blockSparse p m n A a b * blockSparse p n k B b c := by
  have hm : 0 < m := Nat.pos_of_ne_zero fun h => by simp [h] at ha
  rw [blockSparse_eq p m k _ a c ha hc]
  have : ∀ b ∈ range (p * n), blockSparse p m n A a b * blockSparse p n k B b c
      = (fun l j => (if a / m = l then A (a / m) (a % m) j else 0) * (if l = c / k then B l j (c % k) else 0)) (b / n) (b % n) := by
    intro b hb
    rw [blockSparse_eq p m n A a b ha (mem_range.mp hb), blockSparse_eq p n k B b c (mem_range.mp hb) hc]
    rfl
  rw [sum_congr rfl this, sum_blocks p n fun l j => (if a / m = l then A (a / m) (a % m) j else 0) * (if l = c / k then B l j (c % k) else 0)]
  rw [sum_eq_single (a / m)]
  · unfold Spec.blockDiag multMatArray
    by_cases h : a / m = c / k
    · simp only [h, if_true]; rw [sum_range_list]
    · simp [h]
  · intro l _ hl
    apply sum_eq_zero
    intro j _
    rw [if_neg (Ne.symm hl), zero_mul]
  · intro h
    exact absurd (mem_range.mpr (Nat.div_lt_of_lt_mul (by rwa [Nat.mul_comm] at ha))) h

theorem rankLoop_at (m1 : ℕ) (v1 v2 : ℕ → ℕ → R) (N i r k : ℕ) (hi : i < N) (hr : r < m1) :
    rankLoop m1 v1 v2 N (i * m1 + r) k = v1 r k * v2 i k := by
  induction N with
  | zero => omega
  | succ N ih =>
    unfold rankLoop
    by_cases h : i = N
    · subst h
      rw [if_pos ⟨by omega, by omega⟩, Nat.add_sub_cancel_left]
    · have h1 : (i + 1) * m1 ≤ N * m1 := Nat.mul_le_mul_right m1 (by omega)
      rw [if_neg (by rintro ⟨h2, -⟩; nlinarith), ih (by omega)]

/-- **C162**: the matrices are the products of a column of the first and a row of the second array. -/
theorem rankOne_entry (m1 m2 : ℕ) (v1 v2 : ℕ → ℕ → R) (k r i : ℕ) (hr : r < m1) (hi : i < m2) :
    rankOne m1 m2 v1 v2 k r i = v1 r k * v2 i k := by
  unfold rankOne
  have hb : i * m1 + r < m1 * m2 := by
    have : (i + 1) * m1 ≤ m2 * m1 := Nat.mul_le_mul_right m1 hi
    nlinarith
  have he : (k * m2 + i) * m1 + r = k * (m1 * m2) + (i * m1 + r) := by ring
  have hpos : 0 < m1 * m2 := by omega
  simp only [he]
  rw [Nat.mul_add_mod_self_right, Nat.mod_eq_of_lt hb, Nat.add_comm (k * (m1 * m2)), Nat.add_mul_div_right _ _ hpos,
    Nat.div_eq_of_lt hb, Nat.zero_add]
  exact rankLoop_at m1 v1 v2 m2 i r k hi hr

/-- **C162**: applied to a vector they give the column times the inner product with the other one. -/
theorem rankOne_apply (m1 m2 : ℕ) (v1 v2 : ℕ → ℕ → R) (k r : ℕ) (hr : r < m1) (x : ℕ → R) :
    ∑ i ∈ range m2, rankOne m1 m2 v1 v2 k r i * x i = v1 r k * ∑ i ∈ range m2, v2 i k * x i := by
  rw [mul_sum]
  apply sum_congr rfl
  intro i hi
  rw [rankOne_entry m1 m2 v1 v2 k r i hr (mem_range.mp hi)]; ring

end block

/-- A case: two blocks of two rows and three columns. -/
example : blockSparse 2 2 3 (fun l r c => (100 * l + 10 * r + c : ℤ)) 3 5 = 112 := by
  have := blockSparse_entry 2 2 3 (fun l r c => (100 * l + 10 * r + c : ℤ)) 1 1 1 2 (by decide) (by decide) (by decide) (by decide)
  simpa using this

section null
open Matrix
variable {n m : ℕ} {A : Matrix (Fin n) (Fin m) ℝ} {U : Matrix (Fin n) (Fin n) ℝ} {S : Fin n → ℝ} {V : Matrix (Fin m) (Fin m) ℝ}

theorem mem_nullRows {tol : ℝ} {r : Fin m → ℝ} : r ∈ nullRows tol S V ↔
    ∃ i : Fin m, (if h : i.1 < n then S ⟨i, h⟩ else 0) ≤ tol ∧ V i = r := by
  simp only [nullRows, List.mem_map, List.mem_filter, List.mem_finRange, true_and, decide_eq_true_eq]

theorem row_dot (h : Spec.IsSvd A U S V) (i j : Fin m) : V i ⬝ᵥ V j = if i = j then 1 else 0 := by
  have := congrFun (congrFun h.right i) j
  rw [Matrix.mul_apply, Matrix.one_apply] at this
  simpa [dotProduct, Matrix.transpose_apply] using this

/-- **C163**: the rows have unit length. -/
theorem nullRows_unit (h : Spec.IsSvd A U S V) (tol : ℝ) (r : Fin m → ℝ) (hr : r ∈ nullRows tol S V) : r ⬝ᵥ r = 1 := by
  obtain ⟨i, -, rfl⟩ := mem_nullRows.mp hr
  rw [row_dot h, if_pos rfl]

/-- **C163**: the rows are orthogonal to each other. -/
theorem nullRows_orthogonal (h : Spec.IsSvd A U S V) (tol : ℝ) : (nullRows tol S V).Pairwise fun r s => r ⬝ᵥ s = 0 := by
  unfold nullRows
  rw [List.pairwise_map]
  apply List.Pairwise.filter
  apply (List.nodup_finRange m).imp
  intro a b hab
  exact (row_dot h a b).trans (if_neg hab)

/-- **C163**: the matrix takes every row to a vector not longer than the tolerance. -/
theorem nullRows_small (h : Spec.IsSvd A U S V) (tol : ℝ) (r : Fin m → ℝ) (hr : r ∈ nullRows tol S V) :
    (A *ᵥ r) ⬝ᵥ (A *ᵥ r) ≤ tol ^ 2 := by
  obtain ⟨k, hk, rfl⟩ := mem_nullRows.mp hr
  set D : Matrix (Fin n) (Fin m) ℝ := Matrix.of fun i j => if i.1 = j.1 then S i else 0 with hD
  have hV : V *ᵥ V k = Pi.single k 1 := by
    funext i
    change V i ⬝ᵥ V k = _
    rw [row_dot h, Pi.single_apply]
  have hA : A *ᵥ V k = U *ᵥ (fun i => D i k) := by
    rw [h.prod, ← Matrix.mulVec_mulVec, hV, ← Matrix.mulVec_mulVec]
    congr 1
    funext i
    simp [D]
  have hU : (U *ᵥ fun i => D i k) ⬝ᵥ (U *ᵥ fun i => D i k) = (fun i => D i k) ⬝ᵥ (fun i => D i k) := by
    rw [Matrix.dotProduct_mulVec, Matrix.vecMul_mulVec, h.left, Matrix.vecMul_one]
  rw [hA, hU]
  by_cases hn : k.1 < n
  · rw [dif_pos hn] at hk
    have : ((fun i => D i k) ⬝ᵥ fun i => D i k) = S ⟨k, hn⟩ ^ 2 := by
      unfold dotProduct
      rw [Finset.sum_eq_single (⟨k, hn⟩ : Fin n)]
      · simp [D]; ring
      · intro b _ hb
        have : b.1 ≠ k.1 := fun h => hb (Fin.ext h)
        simp [D, this]
      · simp
    rw [this]
    exact pow_le_pow_left₀ (h.nonneg _) hk 2
  · have : ((fun i => D i k) ⬝ᵥ fun i => D i k) = 0 := by
      unfold dotProduct
      apply Finset.sum_eq_zero
      intro b _
      have : b.1 ≠ k.1 := fun h => hn (h ▸ b.2)
      simp [D, this]
    rw [this]; positivity

theorem sum_filter_list {ι M : Type} [AddCommMonoid M] (p : ι → Bool) (f : ι → M) (l : List ι) :
    ((l.filter p).map f).sum = (l.map fun a => if p a then f a else 0).sum := by
  induction l with
  | nil => simp
  | cons a l ih => by_cases h : p a <;> simp [h, ih]

/-- **C163**: of a matrix that is not taller than wide, every vector in the null space is the sum of its components along the rows:
with the two above, the rows span the null space. -/
theorem nullRows_complete (h : Spec.IsSvd A U S V) (tol : ℝ) (ht : 0 ≤ tol) (x : Fin m → ℝ) (hx : A *ᵥ x = 0) :
    x = ((nullRows tol S V).map fun r => (r ⬝ᵥ x) • r).sum := by
  set D : Matrix (Fin n) (Fin m) ℝ := Matrix.of fun i j => if i.1 = j.1 then S i else 0 with hD
  have hDy : D *ᵥ (V *ᵥ x) = 0 := by
    have h1 : U *ᵥ (D *ᵥ (V *ᵥ x)) = 0 := by
      rw [Matrix.mulVec_mulVec, Matrix.mulVec_mulVec, ← h.prod, hx]
    have h2 := congrArg (fun v => U.transpose *ᵥ v) h1
    simp only [Matrix.mulVec_mulVec, Matrix.mulVec_zero] at h2
    rwa [← Matrix.mul_assoc, ← Matrix.mul_assoc, h.left, Matrix.one_mul, ← Matrix.mulVec_mulVec] at h2
  have hzero : ∀ i : Fin m, ¬ (if h : i.1 < n then S ⟨i, h⟩ else 0) ≤ tol → (V i ⬝ᵥ x) = 0 := by
    intro i hi
    by_cases hn : i.1 < n
    · rw [dif_pos hn] at hi
      have h3 := congrFun hDy ⟨i, hn⟩
      have h4 : (D *ᵥ (V *ᵥ x)) ⟨i, hn⟩ = S ⟨i, hn⟩ * (V i ⬝ᵥ x) := by
        change ∑ j, D ⟨i, hn⟩ j * (V *ᵥ x) j = _
        rw [Finset.sum_eq_single i]
        · simp [D, Matrix.mulVec]
        · intro b _ hb
          have : i.1 ≠ b.1 := fun h => hb (Fin.ext h.symm)
          simp [D, this]
        · simp
      rw [h4] at h3
      have hS : S ⟨i, hn⟩ ≠ 0 := by linarith [not_le.mp hi] |> fun (h : 0 < S ⟨i, hn⟩) => ne_of_gt h
      exact (mul_eq_zero.mp h3).resolve_left hS
    · rw [dif_neg hn] at hi; exact absurd ht hi
  have hVV : V.transpose * V = 1 := mul_eq_one_comm.mp h.right
  have hxs : x = ∑ i, (V i ⬝ᵥ x) • V i := by
    have h5 : V.transpose *ᵥ (V *ᵥ x) = x := by rw [Matrix.mulVec_mulVec, hVV, Matrix.one_mulVec]
    funext j
    rw [Finset.sum_apply]
    conv_lhs => rw [← h5]
    change ∑ i, V i j * (V i ⬝ᵥ x) = _
    apply Finset.sum_congr rfl
    intro i _
    simp [mul_comm]
  unfold nullRows
  rw [List.map_map, sum_filter_list]
  conv_lhs => rw [hxs, Fin.sum_univ_def]
  congr 1
  apply List.map_congr_left
  intro i _
  by_cases hi : (if h : i.1 < n then S ⟨i, h⟩ else 0) ≤ tol
  · simp only [hi, decide_true, if_true, Function.comp]
  · simp only [hi, hzero i hi, decide_false, zero_smul]; rfl

/-- A decomposition of `[1 0]`. -/
theorem svd_row : Spec.IsSvd (!![1, 0] : Matrix (Fin 1) (Fin 2) ℝ) 1 (fun _ => 1) 1 where
  left := by simp
  right := by simp
  nonneg := fun _ => zero_le_one
  prod := by
    rw [Matrix.one_mul, Matrix.mul_one]
    ext i j
    fin_cases i; fin_cases j <;> simp

/-- The hypotheses are met: the null space of `[1 0]` is spanned by one row. -/
theorem svd_row_null : nullRows (1 / 2) (fun _ : Fin 1 => (1 : ℝ)) (1 : Matrix (Fin 2) (Fin 2) ℝ) = [![0, 1]] := by
  have h : ¬ ((1 : ℝ) ≤ 1 / 2) := by norm_num
  have h' : (0 : ℝ) ≤ 1 / 2 := by norm_num
  unfold nullRows
  rw [show List.finRange 2 = [0, 1] from rfl]
  simp only [List.filter_cons, List.filter_nil]
  have e0 : (if h : (0 : Fin 2).1 < 1 then (1 : ℝ) else 0) = 1 := by simp
  have e1 : (if h : (1 : Fin 2).1 < 1 then (1 : ℝ) else 0) = 0 := by simp
  simp only [e0, e1, h, h', decide_true, decide_false, if_true]
  simp only [Bool.false_eq_true, if_false, List.map_cons, List.map_nil]
  congr 1
  funext j
  fin_cases j <;> simp [Matrix.one_apply]

/-- **C163**: for a matrix that is not taller than wide the function returns these rows. -/
theorem nullSpace_wide (svd : ∀ {n m : ℕ}, Matrix (Fin n) (Fin m) ℝ → (Fin n → ℝ) × Matrix (Fin m) (Fin m) ℝ) (tol : ℝ)
    (hnm : n ≤ m) (w : List ℝ) : w ∈ nullSpace svd tol A ↔ ∃ r ∈ nullRows tol (svd A).1 (svd A).2, w = List.ofFn r := by
  unfold nullSpace
  rw [if_neg (not_lt.mpr hnm)]
  simp only [List.mem_map, eq_comm]

/-- **C163**, against the claim for taller matrices: the column of ones and zeros `[1; 0]` takes only zero to zero, but with a right
decomposition of `[1 0]` a row `[1]` is returned. -/
theorem nullSpace_tall_fails (svd : ∀ {n m : ℕ}, Matrix (Fin n) (Fin m) ℝ → (Fin n → ℝ) × Matrix (Fin m) (Fin m) ℝ)
    (h : svd (!![1, 0] : Matrix (Fin 1) (Fin 2) ℝ) = (fun _ => 1, 1)) :
    (∀ x : Fin 1 → ℝ, (!![1; 0] : Matrix (Fin 2) (Fin 1) ℝ) *ᵥ x = 0 → x = 0) ∧
      nullSpace svd (1 / 2) (!![1; 0] : Matrix (Fin 2) (Fin 1) ℝ) = [[0], [1]] := by
  constructor
  · intro x hx
    have := congrFun hx 0
    funext i
    fin_cases i
    simpa [Matrix.mulVec, dotProduct] using this
  · unfold nullSpace
    have ht : (!![1; 0] : Matrix (Fin 2) (Fin 1) ℝ).transpose = !![1, 0] := by
      ext i j; fin_cases i; fin_cases j <;> simp
    rw [if_pos (by norm_num), ht]
    simp only [h]
    rw [svd_row_null]
    unfold transposeRows
    rw [show List.finRange 2 = [0, 1] from rfl]
    simp

end null

end Hexrd.MatArrays
