import Verif.Spec.Scoped
import Mathlib.Order.Lattice

/-! # C169: limits of threads and captured output -/
namespace Hexrd.Scoped

theorem setNum_some {total n : ℤ} {s s' : State} (h : setNum total n s = some s') : (1 ≤ n ∧ n ≤ total) ∧ s' = { s with threads := n } := by
  unfold setNum at h
  split at h
  · rename_i hn; simp only [Option.some.injEq] at h; exact ⟨hn, h.symm⟩
  · simp at h

theorem setNum_valid {total n : ℤ} (s : State) (h : 1 ≤ n ∧ n ≤ total) : setNum total n s = some { s with threads := n } := by
  simp [setNum, h]

/-- **C169** a function with a limit leaves the number of threads as it was, whatever it does, also if it raises an exception. -/
theorem limit_restores (total m : ℤ) (p : Prog) (s : State) (hs : Spec.Valid total s) : (run total (.limit m p) s).1.threads = s.threads := by
  unfold run
  cases h : setNum total (min s.threads m) s with
  | none => rfl
  | some s' => simp [setNum_valid _ hs]

/-- **C169** what a function with a limit returns or raises is what the function itself does with that number of threads. -/
theorem limit_result (total m : ℤ) (p : Prog) (s : State) (hs : Spec.Valid total s) (hm : 1 ≤ m) :
    (run total (.limit m p) s).2 = (run total p { s with threads := min s.threads m }).2 ∧
    (run total (.limit m p) s).1.out = (run total p { s with threads := min s.threads m }).1.out ∧
    (run total (.limit m p) s).1.used = (run total p { s with threads := min s.threads m }).1.used ∧
    (run total (.limit m p) s).1.records = (run total p { s with threads := min s.threads m }).1.records := by
  obtain ⟨h1, h2⟩ := hs
  have h : setNum total (min s.threads m) s = some { s with threads := min s.threads m } := setNum_valid s (by omega)
  have e : run total (.limit m p) s = ({ (run total p { s with threads := min s.threads m }).1 with threads := s.threads },
      (run total p { s with threads := min s.threads m }).2) := by
    rw [run, h]; simp [setNum_valid _ ⟨h1, h2⟩]
  rw [e]
  exact ⟨rfl, rfl, rfl, rfl⟩

/-- **C169** a limit below one is refused: the function is not called. -/
theorem limit_refused (total m : ℤ) (p : Prog) (s : State) (hm : m < 1) : run total (.limit m p) s = (s, false) := by
  have : setNum total (min s.threads m) s = none := by
    unfold setNum; rw [if_neg (by omega)]
  rw [run, this]

/-- A program that does not set the number of threads leaves it, and never uses more. -/
theorem noSet_run (total : ℤ) (p : Prog) : ∀ s : State, Spec.NoSet p → Spec.Valid total s →
    (run total p s).1.threads = s.threads ∧ ∃ l, (run total p s).1.used = s.used ++ l ∧ ∀ n ∈ l, 1 ≤ n ∧ n ≤ s.threads := by
  induction p with
  | work => intro s _ hs; exact ⟨rfl, [s.threads], rfl, by simp [hs.1]⟩
  | print t => intro s _ _; exact ⟨rfl, [], by simp [run], by simp⟩
  | raise => intro s _ _; exact ⟨rfl, [], by simp [run], by simp⟩
  | setThreads n => intro s h _; exact h.elim
  | seq p q ihp ihq =>
    intro s h hs
    obtain ⟨h1, l, h2, h3⟩ := ihp s h.1 hs
    rw [run]
    rcases hr : run total p s with ⟨s', ok⟩
    rw [hr] at h1 h2
    cases ok with
    | false => exact ⟨h1, l, h2, h3⟩
    | true =>
      have hs' : Spec.Valid total s' := by unfold Spec.Valid at hs ⊢; simp only at h1; rw [h1]; exact hs
      obtain ⟨g1, l', g2, g3⟩ := ihq s' h.2 hs'
      simp only at h1 h2 g1 g2 ⊢
      refine ⟨g1.trans h1, l ++ l', by rw [g2, h2, List.append_assoc], fun n hn => ?_⟩
      rw [List.mem_append] at hn
      rcases hn with hn | hn
      · exact h3 n hn
      · have := g3 n hn; rw [h1] at this; exact this
  | attempt p ih => intro s h hs; exact ih s h hs
  | limit m p ih =>
    intro s h hs
    refine ⟨limit_restores total m p s hs, ?_⟩
    by_cases hm : 1 ≤ m
    · obtain ⟨-, l, g2, g3⟩ := ih { s with threads := min s.threads m } h (by
        obtain ⟨a, b⟩ := hs; constructor <;> (simp only; omega))
      refine ⟨l, by rw [(limit_result total m p s hs hm).2.2.1, g2], fun n hn => ?_⟩
      have := g3 n hn
      simp only at this
      omega
    · rw [limit_refused total m p s (by omega)]; exact ⟨[], by simp, by simp⟩
  | logged p ih =>
    intro s h hs
    obtain ⟨h1, l, h2, h3⟩ := ih { s with out := [] } h hs
    rw [run]
    simp only
    split
    · exact ⟨h1, l, h2, h3⟩
    · exact ⟨h1, l, h2, h3⟩

/-- **C169** within a function with a limit no work uses more threads than the limit, nor more than there were, however deep the calls. -/
theorem limit_respected (total m : ℤ) (p : Prog) (s : State) (hp : Spec.NoSet p) (hs : Spec.Valid total s) :
    ∃ l, (run total (.limit m p) s).1.used = s.used ++ l ∧ ∀ n ∈ l, 1 ≤ n ∧ n ≤ m ∧ n ≤ s.threads := by
  by_cases hm : 1 ≤ m
  · obtain ⟨-, l, g2, g3⟩ := noSet_run total p { s with threads := min s.threads m } hp (by
      obtain ⟨a, b⟩ := hs; constructor <;> (simp only; omega))
    refine ⟨l, by rw [(limit_result total m p s hs hm).2.2.1, g2], fun n hn => ?_⟩
    have := g3 n hn
    simp only at this
    omega
  · rw [limit_refused total m p s (by omega)]; exact ⟨[], by simp, by simp⟩

/-- **C169** nothing that is printed in a block that is logged reaches the standard output. -/
theorem logged_silent (total : ℤ) (p : Prog) (s : State) : (run total (.logged p) s).1.out = s.out := by
  rw [run]; simp only; split <;> rfl

theorem plain_run (total : ℤ) (p : Prog) : ∀ s : State, Spec.Plain p → (run total p s).1.out = s.out ++ (Spec.prints p).1 ∧
    (run total p s).2 = (Spec.prints p).2 ∧ (run total p s).1.records = s.records := by
  induction p with
  | work => intro s _; simp [run, Spec.prints]
  | print t => intro s _; simp [run, Spec.prints]
  | raise => intro s _; simp [run, Spec.prints]
  | setThreads n => intro s h; exact h.elim
  | limit m p _ => intro s h; exact h.elim
  | logged p _ => intro s h; exact h.elim
  | attempt p ih =>
    intro s h
    obtain ⟨h1, h2, h3⟩ := ih s h
    exact ⟨by simpa [run, Spec.prints] using h1, by simp [run, Spec.prints], by simpa [run] using h3⟩
  | seq p q ihp ihq =>
    intro s h
    obtain ⟨h1, h2, h3⟩ := ihp s h.1
    rw [run]
    rcases hr : run total p s with ⟨s', ok⟩
    rw [hr] at h1 h2 h3
    simp only at h1 h2 h3
    cases ok with
    | false => simp [Spec.prints, ← h2, h1, h3]
    | true =>
      obtain ⟨g1, g2, g3⟩ := ihq s' h.2
      simp [Spec.prints, ← h2, g1, g2, g3, h1, h3]

/-- **C169** if a block ends normally, all it printed is one record of the logger. -/
theorem logged_record_partial (total : ℤ) (p : Prog) (s : State) (hp : Spec.Plain p) (h : (Spec.prints p).2 = true) :
    (run total (.logged p) s).1.records = s.records ++ [(Spec.prints p).1] ∧ (run total (.logged p) s).2 = true := by
  obtain ⟨h1, h2, h3⟩ := plain_run total p { s with out := [] } hp
  rw [run]
  simp only [h2, h, if_true]
  exact ⟨by rw [h3, h1]; rfl, trivial⟩

/-- **C169 is false** for a block that raises an exception: what it printed is neither logged nor printed. -/
theorem logged_lost_fails (total : ℤ) (p : Prog) (s : State) (hp : Spec.Plain p) (h : (Spec.prints p).2 = false) :
    (run total (.logged p) s).1.records = s.records ∧ (run total (.logged p) s).1.out = s.out := by
  obtain ⟨h1, h2, h3⟩ := plain_run total p { s with out := [] } hp
  refine ⟨?_, logged_silent total p s⟩
  rw [run]
  simp only [h2, h]
  exact h3

/-- Nested limits, with an exception inside: the work sees 8, 4, 2 and again 8 threads. -/
example : run 8 (.seq .work (.seq (.attempt (.limit 4 (.seq .work (.limit 2 (.seq .work .raise))))) .work)) ⟨8, [], [], []⟩ =
    (⟨8, [8, 4, 2, 8], [], []⟩, true) := by decide

/-- What is printed before an exception is lost. -/
example : run 8 (.logged (.seq (.print ['a']) .raise)) ⟨8, [], [], []⟩ = (⟨8, [], [], []⟩, false) := by decide

end Hexrd.Scoped
