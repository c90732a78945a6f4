import Verif.Spec.Quat
import Mathlib.Tactic.FinCases
import Mathlib.Tactic.Linarith
import Mathlib.Tactic.LinearCombination
import Mathlib.Tactic.FieldSimp

namespace Hexrd.Rotations

open Matrix Quat Spec

section Ring
variable {R : Type} [CommRing R]

theorem mul_assoc' (p q r : Quat R) : qmul (qmul p q) r = qmul p (qmul q r) := by
  ext <;> simp only [qmul] <;> ring

theorem norm2_mul (p q : Quat R) : norm2 (qmul p q) = norm2 p * norm2 q := by
  simp only [norm2, qmul]; ring

theorem one_mul' (q : Quat R) : qmul qone q = q := by
  ext <;> simp [qmul, qone]

theorem mul_one' (q : Quat R) : qmul q qone = q := by
  ext <;> simp [qmul, qone]

theorem neg_mul' (p q : Quat R) : qmul (qneg p) q = qneg (qmul p q) := by
  ext <;> simp only [qmul, qneg] <;> ring

theorem mul_neg' (p q : Quat R) : qmul p (qneg q) = qneg (qmul p q) := by
  ext <;> simp only [qmul, qneg] <;> ring

theorem neg_neg' (p : Quat R) : qneg (qneg p) = p := by
  ext <;> simp [qneg]

theorem mul_conj (q : Quat R) : qmul q (conj q) = ⟨norm2 q, 0, 0, 0⟩ := by
  ext <;> simp only [qmul, conj, norm2] <;> ring

theorem conj_mul (q : Quat R) : qmul (conj q) q = ⟨norm2 q, 0, 0, 0⟩ := by
  ext <;> simp only [qmul, conj, norm2] <;> ring

theorem norm2_conj (q : Quat R) : norm2 (conj q) = norm2 q := by simp [norm2, conj]

theorem norm2_neg (q : Quat R) : norm2 (qneg q) = norm2 q := by simp [norm2, qneg]

theorem norm2_smul (c : R) (q : Quat R) : norm2 (qsmul c q) = c ^ 2 * norm2 q := by
  simp only [norm2, qsmul]; ring

theorem rotMat_mul_aux (p q : Quat R) : rotMat (qmul p q) = rotMat p * rotMat q := by
  ext i j
  fin_cases i <;> fin_cases j <;>
    simp only [rotMat, qmul, Matrix.mul_apply, Fin.sum_univ_three, Fin.isValue, Fin.zero_eta, Fin.mk_one,
      Fin.reduceFinMk, Matrix.of_apply, Matrix.cons_val', Matrix.cons_val] <;> ring

theorem rotMat_smul (c : R) (q : Quat R) : rotMat (qsmul c q) = c ^ 2 • rotMat q := by
  ext i j
  fin_cases i <;> fin_cases j <;>
    simp only [rotMat, qsmul, Fin.isValue, Fin.zero_eta, Fin.mk_one, Matrix.smul_apply, smul_eq_mul,
      Fin.reduceFinMk, Matrix.of_apply, Matrix.cons_val', Matrix.cons_val] <;> ring

theorem rotMat_conj (q : Quat R) : rotMat (conj q) = (rotMat q)ᵀ := by
  ext i j
  fin_cases i <;> fin_cases j <;>
    simp only [rotMat, conj, Fin.isValue, Fin.zero_eta, Fin.mk_one, Matrix.transpose_apply,
      Fin.reduceFinMk, Matrix.of_apply, Matrix.cons_val', Matrix.cons_val] <;> ring

theorem rotMat_scalar (c : R) : rotMat (⟨c, 0, 0, 0⟩ : Quat R) = c ^ 2 • (1 : Matrix (Fin 3) (Fin 3) R) := by
  ext i j
  fin_cases i <;> fin_cases j <;> simp [rotMat]

theorem rotMat_det (q : Quat R) : (rotMat q).det = norm2 q ^ 3 := by
  rw [Matrix.det_fin_three]
  simp only [rotMat, norm2, Fin.isValue, Matrix.of_apply, Matrix.cons_val', Matrix.cons_val]
  ring

theorem prodRight_aux (h q : Quat R) : prodMatRight h *ᵥ vec q = vec (qmul q h) := by
  funext i
  fin_cases i <;>
    simp [prodMatRight, columnMajor, Matrix.mulVec, dotProduct, Fin.sum_univ_succ, vec, qmul] <;> ring

theorem prodLeft_aux (h q : Quat R) : prodMatLeft h *ᵥ vec q = vec (qmul h q) := by
  funext i
  fin_cases i <;>
    simp [prodMatLeft, columnMajor, Matrix.mulVec, dotProduct, Fin.sum_univ_succ, vec, qmul] <;> ring

omit [CommRing R] in
theorem ofVec_vec (q : Quat R) : ofVec (vec q) = q := rfl

theorem sameUpToSign_symm {p q : Quat R} (h : SameUpToSign p q) : SameUpToSign q p := by
  rcases h with rfl | rfl
  · exact Or.inl rfl
  · exact Or.inr (neg_neg' _).symm

theorem sameUpToSign_trans {p q r : Quat R} (h : SameUpToSign p q) (h' : SameUpToSign q r) : SameUpToSign p r := by
  rcases h with rfl | rfl <;> rcases h' with rfl | rfl
  · exact Or.inl rfl
  · exact Or.inr rfl
  · exact Or.inr rfl
  · exact Or.inl (neg_neg' _)

theorem sameUpToSign_mul {p q : Quat R} (h : SameUpToSign p q) (r : Quat R) :
    SameUpToSign (qmul p r) (qmul q r) ∧ SameUpToSign (qmul r p) (qmul r q) := by
  rcases h with rfl | rfl
  · exact ⟨Or.inl rfl, Or.inl rfl⟩
  · exact ⟨Or.inr (neg_mul' _ _), Or.inr (mul_neg' _ _)⟩

theorem sameUpToSign_norm {p q : Quat R} (h : SameUpToSign p q) : norm2 p = norm2 q := by
  rcases h with rfl | rfl
  · rfl
  · exact norm2_neg _

end Ring

theorem sameUpToSign_abs {p q : Quat ℝ} (h : SameUpToSign p q) : |p.w| = |q.w| := by
  rcases h with rfl | rfl
  · rfl
  · simp [qneg]

theorem norm2_nonneg (q : Quat ℝ) : 0 ≤ norm2 q := by unfold norm2; positivity

theorem tenEps_lt_one : tenEps < 1 := by unfold tenEps; norm_num

/-- Unit quaternions are not changed by normalising. -/
theorem unitVector_unit {q : Quat ℝ} (h : UnitQ q) : unitVector q = q := by
  have : √(norm2 q) = 1 := by rw [h]; exact Real.sqrt_one
  unfold unitVector
  simp only [this, if_neg (not_le.2 tenEps_lt_one)]
  ext <;> simp [qsmul]

theorem fixQuat_unit {q : Quat ℝ} (h : UnitQ q) :
    SameUpToSign (fixQuat q) q ∧ 0 ≤ (fixQuat q).w ∧ (fixQuat q).w = |q.w| := by
  unfold fixQuat
  rw [unitVector_unit h]
  simp only
  split
  · rename_i hn
    refine ⟨Or.inr rfl, ?_, ?_⟩
    · simp only [qneg]; linarith
    · simp only [qneg]; rw [abs_of_neg hn]
  · rename_i hn
    exact ⟨Or.inl rfl, not_lt.1 hn, (abs_of_nonneg (not_lt.1 hn)).symm⟩

theorem argmaxW_spec (l : List (Quat ℝ)) :
    (argmaxW l = none ↔ l = []) ∧ ∀ r, argmaxW l = some r → r ∈ l ∧ ∀ q ∈ l, q.w ≤ r.w := by
  induction l with
  | nil => simp [argmaxW]
  | cons q l ih =>
    unfold argmaxW
    cases h : argmaxW l with
    | none =>
      have hl := ih.1.1 h
      subst hl
      simp
    | some r =>
      obtain ⟨hr, hm⟩ := ih.2 r h
      refine ⟨⟨?_, by simp⟩, ?_⟩
      · simp only; split <;> simp
      · intro r'
        simp only
        split
        · rename_i hle
          intro e; cases e
          refine ⟨by simp, ?_⟩
          intro x hx
          rcases List.mem_cons.1 hx with rfl | hx
          · exact le_rfl
          · exact (hm x hx).trans hle
        · rename_i hlt
          intro e; cases e
          refine ⟨List.mem_cons_of_mem _ hr, ?_⟩
          intro x hx
          rcases List.mem_cons.1 hx with rfl | hx
          · exact (not_le.1 hlt).le
          · exact hm x hx

theorem rotMat_neg (q : Quat ℝ) : rotMat (qneg q) = rotMat q := by
  have : qneg q = qsmul (-1) q := by ext <;> simp [qneg, qsmul]
  rw [this, rotMat_smul]; norm_num

theorem rotMat_same {p q : Quat ℝ} (h : SameUpToSign p q) : rotMat p = rotMat q := by
  rcases h with rfl | rfl
  · rfl
  · exact rotMat_neg q

theorem conj_qmul {R : Type} [CommRing R] (p q : Quat R) : conj (qmul p q) = qmul (conj q) (conj p) := by
  ext <;> simp only [conj, qmul] <;> ring

theorem same_conj {R : Type} [CommRing R] {p q : Quat R} (h : SameUpToSign p q) : SameUpToSign (conj p) (conj q) := by
  rcases h with rfl | rfl
  · exact Or.inl rfl
  · exact Or.inr (by ext <;> simp [conj, qneg])

theorem w_comm {R : Type} [CommRing R] (p q : Quat R) : (qmul p q).w = (qmul q p).w := by
  simp only [qmul]; ring

theorem unit_mul {p q : Quat ℝ} (hp : UnitQ p) (hq : UnitQ q) : UnitQ (qmul p q) := by
  unfold UnitQ; rw [norm2_mul, hp, hq, one_mul]

theorem unit_conj {p : Quat ℝ} (hp : UnitQ p) : UnitQ (conj p) := by
  unfold UnitQ; rw [norm2_conj]; exact hp

theorem w_sq_le {p : Quat ℝ} (hp : UnitQ p) : p.w ^ 2 ≤ 1 := by
  unfold UnitQ norm2 at hp; nlinarith [sq_nonneg p.x, sq_nonneg p.y, sq_nonneg p.z]

theorem cosHalf_le_one {p q : Quat ℝ} (hp : UnitQ p) (hq : UnitQ q) : cosHalf p q ≤ 1 := by
  have := w_sq_le (unit_mul (unit_conj hp) hq)
  exact abs_le_one_iff_mul_self_le_one.2 (by rw [← sq]; exact this)

theorem unit_conj_mul {p : Quat ℝ} (hp : UnitQ p) (q : Quat ℝ) : qmul (conj p) (qmul p q) = q := by
  have e : norm2 p = 1 := hp
  rw [← mul_assoc', conj_mul, e]; exact one_mul' q

theorem unit_mul_conj {p : Quat ℝ} (hp : UnitQ p) (q : Quat ℝ) : qmul p (qmul (conj p) q) = q := by
  have e : norm2 p = 1 := hp
  rw [← mul_assoc', mul_conj, e]; exact one_mul' q

/-- Unit quaternions at angle zero are the same rotation. -/
theorem same_of_cosHalf {p q : Quat ℝ} (hp : UnitQ p) (hq : UnitQ q) (h : cosHalf p q = 1) : SameUpToSign p q := by
  have hu : UnitQ (qmul (conj p) q) := unit_mul (unit_conj hp) hq
  have e1 : qmul p (qmul (conj p) q) = q := unit_mul_conj hp q
  unfold cosHalf at h
  generalize qmul (conj p) q = r at hu e1 h
  obtain ⟨w, x, y, z⟩ := r
  unfold UnitQ norm2 at hu
  simp only at hu h
  have hw : w ^ 2 = 1 := by rw [← sq_abs, h, one_pow]
  have hx : x = 0 := by apply pow_eq_zero_iff two_ne_zero |>.1; nlinarith [sq_nonneg x, sq_nonneg y, sq_nonneg z]
  have hy : y = 0 := by apply pow_eq_zero_iff two_ne_zero |>.1; nlinarith [sq_nonneg x, sq_nonneg y, sq_nonneg z]
  have hz : z = 0 := by apply pow_eq_zero_iff two_ne_zero |>.1; nlinarith [sq_nonneg x, sq_nonneg y, sq_nonneg z]
  subst hx hy hz
  rcases eq_or_eq_neg_of_abs_eq h with rfl | rfl
  · left; rw [← e1]; exact (mul_one' p).symm
  · right; rw [← e1]; ext <;> simp [qmul, qneg]

theorem cosHalf_congr {p q r : Quat ℝ} (h : SameUpToSign q r) : cosHalf p q = cosHalf p r :=
  sameUpToSign_abs (sameUpToSign_mul h (conj p)).2

theorem cosHalf_comm (p q : Quat ℝ) : cosHalf p q = cosHalf q p := by
  unfold cosHalf
  congr 1
  simp only [qmul, conj]; ring

theorem cosHalf_mul_right {p q g : Quat ℝ} (hg : UnitQ g) : cosHalf (qmul p g) (qmul q g) = cosHalf p q := by
  unfold cosHalf
  have e : norm2 g = 1 := hg
  rw [conj_qmul, mul_assoc', w_comm, ← mul_assoc', mul_assoc', mul_conj, e]
  congr 2
  exact mul_one' _

theorem cosHalf_same {p q : Quat ℝ} (hp : UnitQ p) (h : SameUpToSign p q) : cosHalf p q = 1 := by
  rw [cosHalf_congr (sameUpToSign_symm h)]
  unfold cosHalf
  rw [conj_mul]
  have e : norm2 p = 1 := hp
  simp [e]

theorem equivalent_unit {G : List (Quat ℝ)} (hG : IsRotGroup G) {p q : Quat ℝ} (hq : UnitQ q)
    (h : Equivalent G p q) : UnitQ p := by
  obtain ⟨g, hg, hs⟩ := h
  unfold UnitQ; rw [sameUpToSign_norm hs, norm2_mul, hq, hG.unit g hg, one_mul]

theorem equivalent_trans {G : List (Quat ℝ)} (hG : IsRotGroup G) {p q r : Quat ℝ} (h : Equivalent G p q)
    (h' : Equivalent G q r) : Equivalent G p r := by
  obtain ⟨g, hg, hs⟩ := h
  obtain ⟨k, hk, ht⟩ := h'
  obtain ⟨l, hl, hu⟩ := hG.mul k hk g hg
  refine ⟨l, hl, sameUpToSign_trans hs ?_⟩
  refine sameUpToSign_trans (sameUpToSign_mul ht g).1 ?_
  rw [mul_assoc']
  exact sameUpToSign_symm (sameUpToSign_mul hu r).2

theorem equivalent_symm {G : List (Quat ℝ)} (hG : IsRotGroup G) {p q : Quat ℝ} (h : Equivalent G p q) :
    Equivalent G q p := by
  obtain ⟨g, hg, hs⟩ := h
  obtain ⟨k, hk, ht⟩ := hG.inv g hg
  refine ⟨k, hk, sameUpToSign_symm ?_⟩
  refine sameUpToSign_trans (sameUpToSign_mul hs k).1 ?_
  refine sameUpToSign_trans (sameUpToSign_mul ht (qmul q g)).2 ?_
  left
  have e : norm2 g = 1 := hG.unit g hg
  rw [mul_assoc', mul_conj, e]; exact mul_one' q

theorem best_unique {G : List (Quat ℝ)} {p q : Quat ℝ} {m n : ℝ} (h : Best G p q m) (h' : Best G p q n) : m = n := by
  obtain ⟨⟨g, hg, rfl⟩, a⟩ := h
  obtain ⟨⟨k, hk, rfl⟩, b⟩ := h'
  exact le_antisymm (b g hg) (a k hk)

theorem best_equiv {G : List (Quat ℝ)} (hG : IsRotGroup G) {p q q' : Quat ℝ} {m : ℝ} (h : Equivalent G q' q)
    (hb : Best G p q m) : Best G p q' m := by
  have key : ∀ {a b : Quat ℝ}, Equivalent G a b → ∀ g ∈ G, ∃ k ∈ G, cosHalf p (qmul a g) = cosHalf p (qmul b k) := by
    rintro a b ⟨c, hc, hs⟩ g hg
    obtain ⟨k, hk, hu⟩ := hG.mul c hc g hg
    refine ⟨k, hk, ?_⟩
    rw [cosHalf_congr (sameUpToSign_mul hs g).1, mul_assoc', cosHalf_congr (sameUpToSign_mul hu b).2]
  obtain ⟨⟨g, hg, rfl⟩, a⟩ := hb
  refine ⟨?_, fun g hg => ?_⟩
  · obtain ⟨k, hk, e⟩ := key (equivalent_symm hG h) g hg
    exact ⟨k, hk, e⟩
  · obtain ⟨k, hk, e⟩ := key h g hg
    rw [e]; exact a k hk

theorem best_symm {G : List (Quat ℝ)} (hG : IsRotGroup G) {p q : Quat ℝ} {m : ℝ} (hb : Best G p q m) :
    Best G q p m := by
  have key : ∀ {a b : Quat ℝ}, ∀ g ∈ G, ∃ k ∈ G, cosHalf a (qmul b g) = cosHalf b (qmul a k) := by
    intro a b g hg
    obtain ⟨k, hk, hs⟩ := hG.inv g hg
    refine ⟨k, hk, ?_⟩
    have uk : UnitQ k := by unfold UnitQ; rw [sameUpToSign_norm hs, norm2_conj]; exact hG.unit g hg
    have e : norm2 g = 1 := hG.unit g hg
    rw [cosHalf_comm, ← cosHalf_mul_right uk]
    rw [cosHalf_comm (qmul (qmul b g) k), cosHalf_comm b]
    refine cosHalf_congr ?_
    refine sameUpToSign_trans (sameUpToSign_mul hs _).2 (Or.inl ?_)
    rw [mul_assoc', mul_conj, e]; exact mul_one' b
  obtain ⟨⟨g, hg, rfl⟩, a⟩ := hb
  refine ⟨?_, fun g hg => ?_⟩
  · obtain ⟨k, hk, e⟩ := key g hg
    exact ⟨k, hk, e⟩
  · obtain ⟨k, hk, e⟩ := key g hg
    rw [e]; exact a k hk

theorem invertQuat_same {q : Quat ℝ} (h : UnitQ q) : SameUpToSign (invertQuat q) (conj q) := by
  have hu : UnitQ (⟨-q.w, q.x, q.y, q.z⟩ : Quat ℝ) := by
    unfold UnitQ norm2 at h ⊢; simp only [neg_sq]; exact h
  refine sameUpToSign_trans (fixQuat_unit hu).1 (Or.inr ?_)
  ext <;> simp [conj, qneg]

theorem fundamental_aux (G : List (Quat ℝ)) (hne : G ≠ []) (hG : ∀ g ∈ G, UnitQ g) (q : Quat ℝ) (hq : UnitQ q) :
    ∃ r, toFundamentalRegion G q = some r ∧ ∃ g ∈ G, SameUpToSign r (qmul q g) ∧ 0 ≤ r.w ∧
      ∀ g ∈ G, |(qmul q g).w| ≤ r.w := by
  unfold toFundamentalRegion
  obtain ⟨hn, hsp⟩ := argmaxW_spec (G.map fun g => fixQuat (ofVec (prodMatRight g *ᵥ vec q)))
  cases hr : argmaxW (G.map fun g => fixQuat (ofVec (prodMatRight g *ᵥ vec q))) with
  | none => exact absurd (List.map_eq_nil_iff.1 (hn.1 hr)) hne
  | some r =>
    obtain ⟨hm, hmax⟩ := hsp r hr
    obtain ⟨g, hg, rfl⟩ := List.mem_map.1 hm
    refine ⟨_, rfl, g, hg, ?_⟩
    have f := fun k (hk : k ∈ G) => fixQuat_unit (unit_mul hq (hG k hk))
    rw [prodRight_aux, ofVec_vec] at *
    refine ⟨(f g hg).1, (f g hg).2.1, fun k hk => ?_⟩
    rw [← (f k hk).2.2]
    refine hmax _ (List.mem_map.2 ⟨k, hk, ?_⟩)
    rw [prodRight_aux, ofVec_vec]

/-- The loop of `quat_distance` finds the largest value. -/
theorem foldl_max_spec {α : Type} (f : α → ℝ) (l : List α) (m : ℝ) :
    let r := l.foldl (fun m a => if m < f a then f a else m) m
    m ≤ r ∧ (∀ a ∈ l, f a ≤ r) ∧ (r = m ∨ ∃ a ∈ l, r = f a) := by
  induction l generalizing m with
  | nil => simp
  | cons a l ih =>
    simp only [List.foldl_cons]
    by_cases h : m < f a
    · simp only [if_pos h]
      obtain ⟨h1, h2, h3⟩ := ih (f a)
      refine ⟨by linarith, ?_, ?_⟩
      · intro b hb
        rcases List.mem_cons.1 hb with rfl | hb
        · exact h1
        · exact h2 b hb
      · rcases h3 with h3 | ⟨b, hb, h3⟩
        · exact Or.inr ⟨a, by simp, h3⟩
        · exact Or.inr ⟨b, by simp [hb], h3⟩
    · simp only [if_neg h]
      obtain ⟨h1, h2, h3⟩ := ih m
      refine ⟨h1, ?_, ?_⟩
      · intro b hb
        rcases List.mem_cons.1 hb with rfl | hb
        · linarith
        · exact h2 b hb
      · rcases h3 with h3 | ⟨b, hb, h3⟩
        · exact Or.inl h3
        · exact Or.inr ⟨b, by simp [hb], h3⟩

theorem distance_best {G : List (Quat ℝ)} (hG : IsRotGroup G) {p q : Quat ℝ} (hp : UnitQ p) (hq : UnitQ q) :
    ∃ m, Best G p q m ∧ quatDistance p q G = some (2 * Real.arccos m) := by
  obtain ⟨h0, hle, hmem⟩ := foldl_max_spec (fun g => cosHalf p (qmul q g)) G 0
  have hb : Best G p q (G.foldl (fun m g => if m < cosHalf p (qmul q g) then cosHalf p (qmul q g) else m) 0) := by
    refine ⟨?_, hle⟩
    rcases hmem with h | ⟨g, hg, h⟩
    · obtain ⟨e, he, -⟩ := hG.one
      exact ⟨e, he, le_antisymm (by rw [h]; exact abs_nonneg _) (hle e he)⟩
    · exact ⟨g, hg, h⟩
  refine ⟨_, hb, ?_⟩
  have hle1 : G.foldl (fun m g => if m < cosHalf p (qmul q g) then cosHalf p (qmul q g) else m) 0 ≤ 1 := by
    obtain ⟨⟨g, hg, e⟩, -⟩ := hb
    rw [e]; exact cosHalf_le_one hp (unit_mul hq (hG.unit g hg))
  have e : (fun (m : ℝ) (g : Quat ℝ) => if m < cosHalf p (qmul q g) then cosHalf p (qmul q g) else m) =
      (fun m qs =>
        let q2s : Quat ℝ :=
          ⟨q.w * qs.w - q.x * qs.x - q.y * qs.y - q.z * qs.z,
           q.x * qs.w + q.w * qs.x - q.z * qs.y + q.y * qs.z,
           q.y * qs.w + q.z * qs.x + q.w * qs.y - q.x * qs.z,
           q.z * qs.w - q.y * qs.x + q.x * qs.y + q.w * qs.z⟩
        let absq0 := |p.w * q2s.w + p.x * q2s.x + p.y * q2s.y + p.z * q2s.z|
        if m < absq0 then absq0 else m) := by
    funext m g
    have : cosHalf p (qmul q g) = |p.w * (q.w * g.w - q.x * g.x - q.y * g.y - q.z * g.z) +
        p.x * (q.x * g.w + q.w * g.x - q.z * g.y + q.y * g.z) +
        p.y * (q.y * g.w + q.z * g.x + q.w * g.y - q.x * g.z) +
        p.z * (q.z * g.w - q.y * g.x + q.x * g.y + q.w * g.z)| := by
      unfold cosHalf; congr 1; simp only [qmul, conj]; ring
    simp only [← this]
  rw [e] at hle1 ⊢
  unfold quatDistance
  simp only
  rw [if_pos hle1]

theorem misorientation_best {G : List (Quat ℝ)} (hG : IsRotGroup G) {p q : Quat ℝ} (hp : UnitQ p) (hq : UnitQ q) :
    ∃ m, Best G p q m ∧ misorientationAngle p q G [qone] = some (2 * Real.arccos m) := by
  have hG0 : G ≠ [] := by obtain ⟨e, he, -⟩ := hG.one; exact List.ne_nil_of_mem he
  have hi := invertQuat_same hp
  have ui : UnitQ (invertQuat p) := by unfold UnitQ; rw [sameUpToSign_norm hi, norm2_conj]; exact hp
  have el : (G.flatMap fun g => [qone].map fun s =>
      fixQuat (ofVec (prodMatRight (invertQuat p) *ᵥ (prodMatLeft s *ᵥ (prodMatRight g *ᵥ vec q))))) =
      G.map fun g => fixQuat (qmul (qmul q g) (invertQuat p)) := by
    rw [List.map_eq_flatMap]
    simp only [List.map_cons, List.map_nil, prodRight_aux, prodLeft_aux, one_mul', ofVec_vec]
  have hw : ∀ g ∈ G, (fixQuat (qmul (qmul q g) (invertQuat p))).w = cosHalf p (qmul q g) := by
    intro g hg
    rw [(fixQuat_unit (unit_mul (unit_mul hq (hG.unit g hg)) ui)).2.2, w_comm]
    exact sameUpToSign_abs (sameUpToSign_mul hi _).1
  unfold misorientationAngle
  rw [el]
  obtain ⟨hn, hsp⟩ := argmaxW_spec (G.map fun g => fixQuat (qmul (qmul q g) (invertQuat p)))
  cases hr : argmaxW (G.map fun g => fixQuat (qmul (qmul q g) (invertQuat p))) with
  | none => exact absurd (List.map_eq_nil_iff.1 (hn.1 hr)) hG0
  | some r =>
    obtain ⟨hm, hmax⟩ := hsp r hr
    obtain ⟨g, hg, rfl⟩ := List.mem_map.1 hm
    have h1 := cosHalf_le_one hp (unit_mul hq (hG.unit g hg))
    have h0 : 0 ≤ cosHalf p (qmul q g) := abs_nonneg _
    refine ⟨cosHalf p (qmul q g), ⟨⟨g, hg, rfl⟩, fun k hk => ?_⟩, ?_⟩
    · rw [← hw g hg, ← hw k hk]
      exact hmax _ (List.mem_map.2 ⟨k, hk, rfl⟩)
    · simp only [hr, Option.bind_eq_bind, Option.bind_some, hw g hg]
      rw [if_neg (by rw [abs_of_nonneg h0]; linarith), min_eq_right h1, max_eq_right (by linarith)]
      rfl

/-- Triangle inequality for the half angles of unit quaternions. -/
theorem arccos_triangle {p q r : Quat ℝ} (hp : UnitQ p) (hq : UnitQ q) (hr : UnitQ r) :
    Real.arccos (cosHalf p r) ≤ Real.arccos (cosHalf p q) + Real.arccos (cosHalf q r) := by
  have ha := unit_mul (unit_conj hp) hq
  have hb := unit_mul (unit_conj hq) hr
  have e : qmul (conj p) r = qmul (qmul (conj p) q) (qmul (conj q) r) := by
    rw [mul_assoc', unit_mul_conj hq]
  unfold cosHalf
  rw [e]
  generalize qmul (conj p) q = a at ha
  generalize qmul (conj q) r = b at hb
  have wa : |a.w| ≤ 1 := abs_le_one_iff_mul_self_le_one.2 (by rw [← sq]; exact w_sq_le ha)
  have wb : |b.w| ≤ 1 := abs_le_one_iff_mul_self_le_one.2 (by rw [← sq]; exact w_sq_le hb)
  have ca : -1 ≤ |a.w| := by have := abs_nonneg a.w; linarith
  have cb : -1 ≤ |b.w| := by have := abs_nonneg b.w; linarith
  have la : Real.arccos |a.w| ≤ Real.pi / 2 := Real.arccos_le_pi_div_two.2 (abs_nonneg _)
  have lb : Real.arccos |b.w| ≤ Real.pi / 2 := Real.arccos_le_pi_div_two.2 (abs_nonneg _)
  have ka := Real.arccos_nonneg |a.w|
  have kb := Real.arccos_nonneg |b.w|
  have key : Real.cos (Real.arccos |a.w| + Real.arccos |b.w|) ≤ |(qmul a b).w| := by
    rw [Real.cos_add, Real.cos_arccos ca wa, Real.cos_arccos cb wb, Real.sin_arccos, Real.sin_arccos,
      ← Real.sqrt_mul (by rw [sq_abs]; linarith [w_sq_le ha])]
    have hs : |a.x * b.x + a.y * b.y + a.z * b.z| ≤ √((1 - |a.w| ^ 2) * (1 - |b.w| ^ 2)) := by
      apply Real.abs_le_sqrt
      rw [sq_abs, sq_abs]
      unfold UnitQ norm2 at ha hb
      have e1 : 1 - a.w ^ 2 = a.x ^ 2 + a.y ^ 2 + a.z ^ 2 := by linarith
      have e2 : 1 - b.w ^ 2 = b.x ^ 2 + b.y ^ 2 + b.z ^ 2 := by linarith
      rw [e1, e2]
      nlinarith [sq_nonneg (a.x * b.y - a.y * b.x), sq_nonneg (a.x * b.z - a.z * b.x),
        sq_nonneg (a.y * b.z - a.z * b.y)]
    have ew : (qmul a b).w = a.w * b.w - (a.x * b.x + a.y * b.y + a.z * b.z) := by simp only [qmul]; ring
    rw [ew, ← abs_mul]
    have := abs_sub_abs_le_abs_sub (a.w * b.w) (a.x * b.x + a.y * b.y + a.z * b.z)
    linarith
  calc Real.arccos |(qmul a b).w| ≤ Real.arccos (Real.cos (Real.arccos |a.w| + Real.arccos |b.w|)) :=
        Real.arccos_le_arccos key
    _ = _ := Real.arccos_cos (by linarith) (by linarith)

end Hexrd.Rotations
