import Verif.Model.ApplySym
import Verif.Props.DupVectors
import Mathlib.Logic.Relation
import Mathlib.Data.List.Forall2
import Mathlib.Tactic.FinCases

/-!
# Symmetric equivalents of a vector (C61) and unique vectors (C37)
-/
namespace Hexrd.DupVectors

open Matrix

/-! ## C37: `uniqueVectors` -/

/-- Values in one row that are linked by steps of at most the tolerance. -/
def Linked (tol : ℝ) (v : ℕ → ℝ) (n : ℕ) : ℕ → ℕ → Prop :=
  Relation.ReflTransGen fun a b => a < n ∧ b < n ∧ |v a - v b| ≤ tol

theorem labelLoop_fst (v : ℕ → ℝ) (tol : ℝ) (l : List ℕ) (w : ℝ) (c : ℕ) : (labelLoop v tol l w c).map Prod.fst = l := by
  induction l generalizing w c with
  | nil => rfl
  | cons a l ih => simp only [labelLoop, List.map_cons, ih]

theorem labelLoop_spec (v : ℕ → ℝ) (tol : ℝ) (n : ℕ) (l : List ℕ) (p c0 : ℕ) (hn : ∀ i ∈ p :: l, i < n)
    (hs : (p :: l).Pairwise fun i j => v i ≤ v j) : ∀ e ∈ labelLoop v tol l (v p) c0,
      c0 ≤ e.2 ∧ (c0 < e.2 → v p + tol < v e.1) ∧ (e.2 = c0 → Linked tol v n p e.1) := by
  induction l generalizing p c0 with
  | nil => simp [labelLoop]
  | cons a l ih =>
    have hpa : v p ≤ v a := (List.pairwise_cons.1 hs).1 a (by simp)
    have hs' := (List.pairwise_cons.1 hs).2
    have ha : |v a - v p| = v a - v p := abs_of_nonneg (by linarith)
    have step : ¬ tol < |v a - v p| → Linked tol v n p a := fun h =>
      Relation.ReflTransGen.single ⟨hn p (by simp), hn a (by simp), by rw [abs_sub_comm]; exact not_lt.1 h⟩
    intro e he
    unfold labelLoop at he
    rcases List.mem_cons.1 he with rfl | he
    · by_cases h : tol < |v a - v p|
      · simp only [if_pos h]
        exact ⟨by omega, fun _ => by rw [ha] at h; linarith, fun h' => by omega⟩
      · simp only [if_neg h]
        exact ⟨le_rfl, fun h' => by omega, fun _ => step h⟩
    · have hge : v a ≤ v e.1 := by
        have hm : e.1 ∈ l := by
          have := List.mem_map_of_mem (f := Prod.fst) he
          rwa [labelLoop_fst] at this
        exact (List.pairwise_cons.1 hs').1 _ hm
      obtain ⟨h1, h2, h3⟩ := ih a _ (fun i hi => hn i (List.mem_cons_of_mem _ hi)) hs' e he
      by_cases h : tol < |v a - v p|
      · simp only [if_pos h] at h1 h2 h3
        exact ⟨by omega, fun _ => by rw [ha] at h; linarith, fun h' => by omega⟩
      · simp only [if_neg h] at h1 h2 h3
        exact ⟨h1, fun h' => by have := h2 h'; linarith, fun h' => (step h).trans (h3 h')⟩

theorem labelLoop_pairwise (v : ℕ → ℝ) (tol : ℝ) (n : ℕ) (l : List ℕ) (w : ℝ) (c0 : ℕ) (hn : ∀ i ∈ l, i < n)
    (hs : l.Pairwise fun i j => v i ≤ v j) : (labelLoop v tol l w c0).Pairwise fun e f =>
      (e.2 ≠ f.2 → tol < v f.1 - v e.1) ∧ (e.2 = f.2 → Linked tol v n e.1 f.1) := by
  induction l generalizing w c0 with
  | nil => simp [labelLoop]
  | cons a l ih =>
    unfold labelLoop
    rw [List.pairwise_cons]
    refine ⟨fun e he => ?_, ih _ _ (fun i hi => hn i (List.mem_cons_of_mem _ hi)) (List.pairwise_cons.1 hs).2⟩
    obtain ⟨h1, h2, h3⟩ := labelLoop_spec v tol n l a _ hn hs e he
    exact ⟨fun h => by have := h2 (by omega); linarith, fun h => h3 h.symm⟩

theorem rowLabels_pairwise (v : ℕ → ℝ) (tol : ℝ) (n : ℕ) (l : List ℕ) (hn : ∀ i ∈ l, i < n)
    (hs : l.Pairwise fun i j => v i ≤ v j) : (rowLabels v tol l).Pairwise fun e f =>
      (e.2 ≠ f.2 → tol < v f.1 - v e.1) ∧ (e.2 = f.2 → Linked tol v n e.1 f.1) := by
  cases l with
  | nil => simp [rowLabels]
  | cons a l =>
    unfold rowLabels
    rw [List.pairwise_cons]
    refine ⟨fun e he => ?_, labelLoop_pairwise v tol n l _ _ (fun i hi => hn i (List.mem_cons_of_mem _ hi)) (List.pairwise_cons.1 hs).2⟩
    obtain ⟨h1, h2, h3⟩ := labelLoop_spec v tol n l a _ hn hs e he
    exact ⟨fun h => by have := h2 (by omega); linarith, fun h => h3 h.symm⟩

theorem lookup_of_mem {L : List (ℕ × ℕ)} (h : (L.map Prod.fst).Nodup) {i c : ℕ} (hm : (i, c) ∈ L) :
    L.lookup i = some c := by
  induction L with
  | nil => simp at hm
  | cons e L ih =>
    obtain ⟨a, b⟩ := e
    simp only [List.map_cons, List.nodup_cons] at h
    rw [List.lookup_cons]
    rcases List.mem_cons.1 hm with h' | h'
    · cases h'; simp
    · have : i ≠ a := by
        rintro rfl
        exact h.1 (List.mem_map.2 ⟨_, h', rfl⟩)
      have hb : (i == a) = false := by simpa using this
      rw [hb]
      exact ih h.2 h'

/-- Labels of a sorted row: different labels are farther apart than the tolerance, equal labels are linked. -/
theorem label_spec (v : ℕ → ℝ) (tol : ℝ) (n : ℕ) (ord : List ℕ) (hp : ord.Perm (List.range n))
    (hs : ord.Pairwise fun i j => v i ≤ v j) (i j : ℕ) (hi : i < n) (hj : j < n) :
    (label v tol ord i ≠ label v tol ord j → tol < |v i - v j|) ∧
      (label v tol ord i = label v tol ord j → Linked tol v n i j) := by
  have hn : ∀ i ∈ ord, i < n := fun i h => List.mem_range.1 (hp.mem_iff.1 h)
  have hf : (rowLabels v tol ord).map Prod.fst = ord := by
    cases ord with
    | nil => rfl
    | cons a l => simp only [rowLabels, List.map_cons, labelLoop_fst]
  have hnd : ((rowLabels v tol ord).map Prod.fst).Nodup := by
    rw [hf]; exact hp.nodup_iff.2 List.nodup_range
  have get : ∀ i < n, (i, label v tol ord i) ∈ rowLabels v tol ord := by
    intro i hi
    have : i ∈ (rowLabels v tol ord).map Prod.fst := by rw [hf]; exact hp.mem_iff.2 (List.mem_range.2 hi)
    obtain ⟨⟨a, c⟩, hm, rfl⟩ := List.mem_map.1 this
    unfold label
    rw [lookup_of_mem hnd hm]
    exact hm
  have pw := rowLabels_pairwise v tol n ord hn hs
  have lsymm : ∀ a b, Linked tol v n a b → Linked tol v n b a := by
    intro a b h
    induction h with
    | refl => exact .refl
    | tail _ h ih => exact .head ⟨h.2.1, h.1, by rw [abs_sub_comm]; exact h.2.2⟩ ih
  by_cases hij : i = j
  · subst hij; exact ⟨fun h => absurd rfl h, fun _ => .refl⟩
  have hne : (i, label v tol ord i) ≠ (j, label v tol ord j) := fun h => hij (congrArg Prod.fst h)
  have sym := (pw.imp (S := fun e f => (e.2 ≠ f.2 → tol < |v f.1 - v e.1|) ∧
    (e.2 = f.2 → Linked tol v n e.1 f.1)) (fun h => ⟨fun h' => lt_of_lt_of_le (h.1 h') (le_abs_self _), h.2⟩))
  have : Std.Symm (fun e f : ℕ × ℕ => (e.2 ≠ f.2 → tol < |v f.1 - v e.1|) ∧
      (e.2 = f.2 → Linked tol v n e.1 f.1)) := ⟨fun _ _ h => ⟨fun h' => by rw [abs_sub_comm]; exact h.1 (Ne.symm h'), fun h' => lsymm _ _ (h.2 h'.symm)⟩⟩
  have sym := sym.forall (get i hi) (get j hj) hne
  exact ⟨fun h => by rw [abs_sub_comm]; exact sym.1 h, sym.2⟩

theorem dedupAux_spec {α : Type} [PartialOrder α] [DecidableEq α] (lab : ℕ → α) (l : List ℕ) (p : α)
    (hp : ∀ j ∈ l, p ≤ lab j) (hs : l.Pairwise fun i j => lab i ≤ lab j) :
    (∀ j ∈ dedupAux lab p l, j ∈ l ∧ p < lab j) ∧
    (dedupAux lab p l).Pairwise (fun i j => lab i < lab j) ∧
    ∀ j ∈ l, lab j = p ∨ ∃ k ∈ dedupAux lab p l, lab k = lab j := by
  induction l generalizing p with
  | nil => simp [dedupAux]
  | cons a l ih =>
    obtain ⟨h1, h2⟩ := List.pairwise_cons.1 hs
    obtain ⟨i1, i2, i3⟩ := ih (lab a) h1 h2
    have hpa := hp a (by simp)
    unfold dedupAux
    by_cases h : lab a = p
    · rw [if_neg (by simpa using h)]
      rw [h] at i1 i2 i3 ⊢
      refine ⟨fun j hj => ⟨List.mem_cons_of_mem _ (i1 j hj).1, (i1 j hj).2⟩, i2, fun j hj => ?_⟩
      rcases List.mem_cons.1 hj with rfl | hj
      · exact Or.inl h
      · exact i3 j hj
    · rw [if_pos h]
      have hlt : p < lab a := lt_of_le_of_ne hpa (Ne.symm h)
      refine ⟨fun j hj => ?_, ?_, fun j hj => ?_⟩
      · rcases List.mem_cons.1 hj with rfl | hj
        · exact ⟨by simp, hlt⟩
        · exact ⟨List.mem_cons_of_mem _ (i1 j hj).1, lt_trans hlt (i1 j hj).2⟩
      · rw [List.pairwise_cons]; exact ⟨fun j hj => (i1 j hj).2, i2⟩
      · right
        rcases List.mem_cons.1 hj with rfl | hj
        · exact ⟨j, by simp, rfl⟩
        · rcases i3 j hj with h | ⟨k, hk, e⟩
          · exact ⟨a, by simp, h.symm⟩
          · exact ⟨k, List.mem_cons_of_mem _ hk, e⟩

theorem dedup_spec {α : Type} [PartialOrder α] [DecidableEq α] (lab : ℕ → α) (l : List ℕ)
    (hs : l.Pairwise fun i j => lab i ≤ lab j) :
    (∀ j ∈ dedup lab l, j ∈ l) ∧ (dedup lab l).Pairwise (fun i j => lab i < lab j) ∧
    ∀ j ∈ l, ∃ k ∈ dedup lab l, lab k = lab j := by
  cases l with
  | nil => simp [dedup]
  | cons a l =>
    obtain ⟨h1, h2⟩ := List.pairwise_cons.1 hs
    obtain ⟨i1, i2, i3⟩ := dedupAux_spec lab l (lab a) h1 h2
    unfold dedup
    refine ⟨fun j hj => ?_, ?_, fun j hj => ?_⟩
    · rcases List.mem_cons.1 hj with rfl | hj
      · simp
      · exact List.mem_cons_of_mem _ (i1 j hj).1
    · rw [List.pairwise_cons]; exact ⟨fun j hj => (i1 j hj).2, i2⟩
    · rcases List.mem_cons.1 hj with rfl | hj
      · exact ⟨j, by simp, rfl⟩
      · rcases i3 j hj with h | ⟨k, hk, e⟩
        · exact ⟨a, by simp, h.symm⟩
        · exact ⟨k, List.mem_cons_of_mem _ hk, e⟩

/-- What `np.argsort` returns: a permutation of the columns that sorts each row. -/
def Sorts (n : ℕ) (v : List (ℕ → ℝ)) (ords : List (List ℕ)) : Prop :=
  List.Forall₂ (fun r o => o.Perm (List.range n) ∧ o.Pairwise fun i j => r i ≤ r j) v ords

/-- C37: any two columns kept by `uniqueVectors` differ by more than the tolerance in some row. -/
theorem unique_apart (n : ℕ) (tol : ℝ) (v : List (ℕ → ℝ)) (ords : List (List ℕ)) (iNum : List ℕ) (ho : Sorts n v ords)
    (hp : iNum.Perm (List.range n)) (hs : iNum.Pairwise fun i j => key tol v ords i ≤ key tol v ords j) :
    (∀ i ∈ uniqueVectors tol v ords iNum, i < n) ∧
    (uniqueVectors tol v ords iNum).Pairwise fun i j => ∃ r ∈ v, tol < |r i - r j| := by
  obtain ⟨h1, h2, -⟩ := dedup_spec (key tol v ords) iNum hs
  have hn : ∀ i ∈ uniqueVectors tol v ords iNum, i < n := fun i hi =>
    List.mem_range.1 (hp.mem_iff.1 (h1 i hi))
  refine ⟨hn, ?_⟩
  refine h2.imp_of_mem (fun {i j} hi hj hlt => ?_)
  by_contra hc
  push Not at hc
  refine absurd ?_ hlt.ne
  unfold key
  congr 1
  clear h1 h2 hlt hs hp
  have hi' := hn i hi
  have hj' := hn j hj
  clear hi hj hn
  induction ho with
  | nil => rfl
  | cons h _ ih =>
    simp only [List.zip_cons_cons, List.map_cons]
    congr 1
    · by_contra hne
      have := (label_spec _ tol n _ h.1 h.2 i j hi' hj').1 hne
      exact absurd (hc _ List.mem_cons_self) (not_le.2 this)
    · exact ih (fun r hr => hc r (List.mem_cons_of_mem _ hr))

/-- C37: every column is linked, row by row, with a kept column by steps of at most the tolerance. -/
theorem unique_covers (n : ℕ) (tol : ℝ) (v : List (ℕ → ℝ)) (ords : List (List ℕ)) (iNum : List ℕ) (ho : Sorts n v ords)
    (hp : iNum.Perm (List.range n)) (hs : iNum.Pairwise fun i j => key tol v ords i ≤ key tol v ords j) (i : ℕ)
    (hi : i < n) : ∃ k ∈ uniqueVectors tol v ords iNum, ∀ r ∈ v, Linked tol r n k i := by
  obtain ⟨h1, -, h3⟩ := dedup_spec (key tol v ords) iNum hs
  obtain ⟨k, hk, e⟩ := h3 i (hp.mem_iff.2 (List.mem_range.2 hi))
  have hkn : k < n := List.mem_range.1 (hp.mem_iff.1 (h1 k hk))
  refine ⟨k, hk, ?_⟩
  unfold key at e
  rw [List.reverse_inj] at e
  clear h1 h3 hs hp hk
  induction ho with
  | nil => simp
  | cons h _ ih =>
    simp only [List.zip_cons_cons, List.map_cons, List.cons.injEq] at e
    intro r hr
    rcases List.mem_cons.1 hr with rfl | hr
    · exact (label_spec _ tol n _ h.1 h.2 k i hkn hi).2 e.1
    · exact ih e.2 r hr

/-- Non-vacuity: three columns with one row, the second equal to the first. -/
example : Sorts 3 [fun i => if i = 2 then 1 else 0] [[0, 1, 2]] := by
  refine .cons ⟨List.Perm.refl _, ?_⟩ .nil
  norm_num

/-! ## C61: `applySym` -/

theorem uid_sorted {d : ℕ} (tol : ℝ) (pm : Bool) (vec : List (Fin d → ℝ)) : (uid tol pm vec).Pairwise (· < ·) :=
  (List.pairwise_lt_range).filter _

theorem applySym_mem {sym : List (Rotations.Quat ℝ)} {cs pm : Bool} {tol : ℝ} {v x : Fin 3 → ℝ}
    (h : x ∈ applySym sym cs pm tol v) : ∃ i ∈ uid tol pm (allHkl sym cs v), (allHkl sym cs v)[i]? = some x := by
  unfold applySym at h
  simpa using List.mem_filterMap.1 h

/-- C61: every vector returned is an image of the given one under a symmetry, or, with the centrosymmetry flag, the
opposite of one. -/
theorem applySym_sound (sym : List (Rotations.Quat ℝ)) (cs pm : Bool) (tol : ℝ) (v x : Fin 3 → ℝ)
    (h : x ∈ applySym sym cs pm tol v) :
    ∃ q ∈ sym, x = Rotations.rotMat q *ᵥ v ∨ (cs = true ∧ x = -(Rotations.rotMat q *ᵥ v)) := by
  obtain ⟨i, -, hx⟩ := applySym_mem h
  have := List.mem_of_getElem? hx
  unfold allHkl at this
  cases cs
  · simp only [Bool.false_eq_true, if_false, List.mem_map] at this
    obtain ⟨q, hq, rfl⟩ := this
    exact ⟨q, hq, Or.inl rfl⟩
  · simp only [if_true, List.mem_append, List.mem_map] at this
    rcases this with ⟨q, hq, rfl⟩ | ⟨y, ⟨q, hq, rfl⟩, rfl⟩
    · exact ⟨q, hq, Or.inl rfl⟩
    · exact ⟨q, hq, Or.inr ⟨rfl, rfl⟩⟩

/-- C61: the vectors returned are pairwise not within the tolerance. -/
theorem applySym_apart (sym : List (Rotations.Quat ℝ)) (cs pm : Bool) (tol : ℝ) (v : Fin 3 → ℝ) :
    (applySym sym cs pm tol v).Pairwise fun a b => ¬ Near tol pm a b := by
  unfold applySym
  rw [List.pairwise_filterMap]
  refine (uid_sorted tol pm (allHkl sym cs v)).imp_of_mem (fun {i j} _ hj hij => ?_)
  intro a ha b hb
  exact kept_apart tol pm (allHkl sym cs v) i j hij hj a b ha hb

/-- C61: if images that are within the tolerance are equal (up to sign with `cullPM`), then every image is
returned, up to sign with `cullPM`. -/
theorem applySym_complete (sym : List (Rotations.Quat ℝ)) (cs pm : Bool) (tol : ℝ) (v : Fin 3 → ℝ)
    (hsep : ∀ a ∈ allHkl sym cs v, ∀ b ∈ allHkl sym cs v, Near tol pm a b → a = b ∨ (pm = true ∧ a = -b))
    (x : Fin 3 → ℝ) (hx : x ∈ allHkl sym cs v) :
    x ∈ applySym sym cs pm tol v ∨ (pm = true ∧ -x ∈ applySym sym cs pm tol v) := by
  obtain ⟨j, hj⟩ := List.mem_iff_getElem?.1 hx
  have mem : ∀ i ∈ uid tol pm (allHkl sym cs v), ∀ a, (allHkl sym cs v)[i]? = some a → a ∈ applySym sym cs pm tol v :=
    fun i hi a ha => List.mem_filterMap.2 ⟨i, hi, ha⟩
  have hjl : j < (allHkl sym cs v).length := by
    by_contra h
    rw [List.getElem?_eq_none (by omega)] at hj; simp at hj
  have key : ∀ j, ∀ x, (allHkl sym cs v)[j]? = some x → j < (allHkl sym cs v).length →
      x ∈ applySym sym cs pm tol v ∨ (pm = true ∧ -x ∈ applySym sym cs pm tol v) := by
    intro j
    induction j using Nat.strong_induction_on with
    | _ j ih =>
      intro x hj hjl
      by_cases hu : j ∈ uid tol pm (allHkl sym cs v)
      · exact Or.inl (mem j hu x hj)
      · obtain ⟨i, hij, -, -, -, -, a, b, ha, hb, hn⟩ := (dropped_near_earlier tol pm (allHkl sym cs v)).2.2 j hjl hu
        rw [hj] at hb; cases hb
        have hi := ih i hij a ha (by omega)
        rcases hsep a (List.mem_of_getElem? ha) x (List.mem_of_getElem? hj) hn with rfl | ⟨hpm, rfl⟩
        · exact hi
        · rcases hi with hi | ⟨-, hi⟩
          · exact Or.inr ⟨hpm, hi⟩
          · rw [neg_neg] at hi; exact Or.inl hi
  exact key j x hj hjl

/-- C61: under the same condition and with a positive tolerance, the result lists the images exactly once each. -/
theorem applySym_orbit (sym : List (Rotations.Quat ℝ)) (cs : Bool) (tol : ℝ) (htol : 0 < tol) (v : Fin 3 → ℝ)
    (hsep : ∀ a ∈ allHkl sym cs v, ∀ b ∈ allHkl sym cs v, Near tol false a b → a = b) :
    (applySym sym cs false tol v).Nodup ∧ ∀ x, x ∈ applySym sym cs false tol v ↔ x ∈ allHkl sym cs v := by
  constructor
  · refine (applySym_apart sym cs false tol v).imp (fun {a b} h => ?_)
    rintro rfl
    exact h (Or.inl (by simpa using htol))
  · intro x
    constructor
    · intro h
      obtain ⟨i, -, hi⟩ := applySym_mem h
      exact List.mem_of_getElem? hi
    · intro h
      rcases applySym_complete sym cs false tol v (fun a ha b hb hn => Or.inl (hsep a ha b hb hn)) x h with h | ⟨h, -⟩
      · exact h
      · simp at h

/-- Non-vacuity of the separation condition: the identity and half a turn about z, applied to (1, 2, 3). -/
example : ∀ a ∈ allHkl [⟨1, 0, 0, 0⟩, ⟨0, 0, 0, 1⟩] false ![1, 2, 3], ∀ b ∈ allHkl [⟨1, 0, 0, 0⟩, ⟨0, 0, 0, 1⟩] false ![1, 2, 3],
    Near 1 false a b → a = b := by
  have h1 : Rotations.rotMat (⟨1, 0, 0, 0⟩ : Rotations.Quat ℝ) *ᵥ ![1, 2, 3] = ![1, 2, 3] := by
    funext i; fin_cases i <;> simp [Rotations.rotMat, Matrix.mulVec, dotProduct, Fin.sum_univ_succ]
  have h2 : Rotations.rotMat (⟨0, 0, 0, 1⟩ : Rotations.Quat ℝ) *ᵥ ![1, 2, 3] = ![-1, -2, 3] := by
    funext i; fin_cases i <;> simp [Rotations.rotMat, Matrix.mulVec, dotProduct, Fin.sum_univ_succ]
  have e : allHkl [⟨1, 0, 0, 0⟩, ⟨0, 0, 0, 1⟩] false ![1, 2, 3] = [![1, 2, 3], ![-1, -2, 3]] := by
    simp only [allHkl, Bool.false_eq_true, if_false, List.map_cons, List.map_nil, h1, h2]
  rw [e]
  intro a ha b hb
  simp only [List.mem_cons, List.not_mem_nil, or_false] at ha hb
  rcases ha with rfl | rfl <;> rcases hb with rfl | rfl <;> intro h
  · rfl
  · exfalso; simp [Near, Fin.sum_univ_succ] at h; norm_num at h; try linarith
  · exfalso; simp [Near, Fin.sum_univ_succ] at h; norm_num at h; try linarith
  · rfl

end Hexrd.DupVectors
