import Verif.Model.Tasks
/-! Helper lemmas for `Hexrd.Tasks`. -/
namespace Hexrd.Tasks

/-- Closed form of the ranges still to be produced. -/
def chunks (tpw : Nat) : Nat → Nat → Nat → List (Nat × Nat)
  | 0, _, _ => []
  | k+1, prev, rem =>
    if rem ≠ 0 then (prev, prev + (tpw + 1)) :: chunks tpw k (prev + (tpw + 1)) (rem - 1)
    else if tpw = 0 then []
    else (prev, prev + tpw) :: chunks tpw k (prev + tpw) 0

theorem foldl_broke (n tpw : Nat) (s : St) (h : s.broke = true) (l : List Nat) :
    (l.foldl (step n tpw) s) = s := by
  induction l with
  | nil => rfl
  | cons a l ih => simp [List.foldl_cons, step, h, ih]

theorem foldl_eq_chunks (n tpw : Nat) : ∀ (k i : Nat) (s : St), s.broke = false →
    (s.result = [] → i = 0) → (i = 0 → s.assigned = 0) →
    (0 < i → s.result.getLast?.map Prod.snd = some s.assigned) →
    s.rem ≤ k → s.assigned + k * tpw + s.rem = n →
    ((List.range' i k).foldl (step n tpw) s).result = s.result ++ chunks tpw k s.assigned s.rem := by
  intro k
  induction k with
  | zero => intro i s _ _ _ _ _ _; simp [chunks]
  | succ k ih =>
    intro i s hb hr hi hl hrem hn
    rw [List.range'_succ, List.foldl_cons]
    have hprev : (if i = 0 then 0 else (s.result.getLast?.map Prod.snd).getD 0) = s.assigned := by
      by_cases h0 : i = 0
      · simp [h0, hi h0]
      · simp [h0, hl (by omega)]
    by_cases hrem0 : s.rem = 0
    · by_cases htpw : tpw = 0
      · have : s.assigned = n := by subst htpw; rw [hrem0] at hn; simpa using hn
        have hs : step n tpw s i = { s with broke := true } := by simp [step, hb, this]
        rw [hs, foldl_broke _ _ _ rfl]; simp [chunks, hrem0, htpw]
      · have hne : s.assigned ≠ n := by
          have : 0 < (k+1) * tpw := Nat.mul_pos (by omega) (by omega)
          omega
        have hs : step n tpw s i = { result := s.result ++ [(s.assigned, s.assigned + tpw)], assigned := s.assigned + tpw, rem := 0, broke := false } := by
          simp only [step, hb, hne, hrem0, hprev]; simp
        rw [hs, ih (i+1) _ rfl (by simp) (by simp) (by simp) (by simp)]
        · simp [chunks, hrem0, htpw]
        · simp only; rw [Nat.succ_mul] at hn; omega
    · have hne : s.assigned ≠ n := by
          have := hn; omega
      have hs : step n tpw s i = { result := s.result ++ [(s.assigned, s.assigned + (tpw+1))], assigned := s.assigned + (tpw+1), rem := s.rem - 1, broke := false } := by
        simp only [step, hb, hne, hprev]; simp [hrem0]
      rw [hs, ih (i+1) _ rfl (by simp) (by simp) (by simp) (by simp; omega)]
      · simp [chunks, hrem0]
      · simp only; rw [Nat.succ_mul] at hn; omega

theorem distribute_eq (n w : Nat) (hw : 0 < w) :
    distributeTasks n w = some (chunks (n / w) w 0 (n % w)) := by
  unfold distributeTasks
  rw [if_neg (by omega)]
  rw [List.range_eq_range', foldl_eq_chunks n (n/w) w 0 _ rfl (by simp) (by simp) (by simp)
    (Nat.le_of_lt (Nat.mod_lt _ hw))]
  · simp
  · simp only; have := Nat.div_add_mod n w; omega

end Hexrd.Tasks
