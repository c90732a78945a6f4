import Verif.Model.Multiproc
import Mathlib.Tactic.Linarith
import Mathlib.Data.List.Perm.Basic
import Mathlib.Data.List.Nodup

/-!
# Parallel execution (C45)
-/
namespace Hexrd.Multiproc

variable {R : Type}

/-- The positions in a worker's hands. -/
def Worker.task : Worker → List Nat
  | .busy i => [i]
  | _ => []

/-- The position in `q_in`. -/
def inTask : Option (Option Nat) → List Nat
  | some (some i) => [i]
  | _ => []

def Worker.gone : Worker → Nat
  | .exited => 1
  | _ => 0

/-- Every position that has not been lost, and where it is: not yet put, in `q_in`, with a worker, in `q_out`, received. -/
def places (n : Nat) (s : St R) : List Nat :=
  (List.range n).drop s.puts ++ inTask s.inq ++ s.workers.flatMap Worker.task ++ s.outq.map Prod.fst ++ s.received

/-- The value a delivering outcome delivers. -/
def Outcome.value : Outcome R → Option R
  | .ok r => some r
  | .badLog r => some r
  | .raises => none

theorem set_flatMap_perm {α β : Type} (l : List α) (g : α → List β) (k : Nat) (a b : α) (h : l[k]? = some a) :
    (g a ++ (l.set k b).flatMap g).Perm (g b ++ l.flatMap g) := by
  induction l generalizing k with
  | nil => simp at h
  | cons x l ih =>
    cases k with
    | zero =>
      simp only [List.getElem?_cons_zero, Option.some.injEq] at h
      subst h
      simp only [List.set_cons_zero, List.flatMap_cons]
      rw [← List.append_assoc, ← List.append_assoc]
      exact List.Perm.append_right _ List.perm_append_comm
    | succ k =>
      simp only [List.getElem?_cons_succ] at h
      simp only [List.set_cons_succ, List.flatMap_cons]
      have := ih k h
      calc (g a ++ (g x ++ (l.set k b).flatMap g)).Perm (g x ++ (g a ++ (l.set k b).flatMap g)) := by
            rw [← List.append_assoc, ← List.append_assoc]; exact List.Perm.append_right _ List.perm_append_comm
        _ |>.Perm (g x ++ (g b ++ l.flatMap g)) := List.Perm.append_left _ this
        _ |>.Perm (g b ++ (g x ++ l.flatMap g)) := by
            rw [← List.append_assoc, ← List.append_assoc]; exact List.Perm.append_right _ List.perm_append_comm

structure Inv (n w : Nat) (f : Nat → Outcome R) (s : St R) : Prop where
  once : ∀ i, (places n s).count i ≤ if i < n then 1 else 0
  kept : ∀ i r, (f i).value = some r → (places n s).count i = if i < n then 1 else 0
  len : s.results.length = n
  out : ∀ p ∈ s.outq, (f p.1).value = some p.2
  res : ∀ i ∈ s.received, ∃ r, (f i).value = some r ∧ s.results[i]? = some (some r)
  wlen : s.workers.length = w
  inq : ∀ i, s.inq = some (some i) → s.puts = i + 1 ∧ i < n
  ends : (s.workers.map Worker.gone).sum + (if s.inq = some none then 1 else 0) = s.puts - n
  puts : s.puts ≤ n + w
  live : (∀ i, ∃ r, f i = .ok r) → .crashed ∉ s.workers

theorem count_set (l : List Worker) (k i : Nat) (a b : Worker) (h : l[k]? = some a) :
    a.task.count i + ((l.set k b).flatMap Worker.task).count i = b.task.count i + (l.flatMap Worker.task).count i := by
  have := (set_flatMap_perm l Worker.task k a b h).count_eq i
  simpa [List.count_append] using this

theorem gone_set (l : List Worker) (k : Nat) (a b : Worker) (h : l[k]? = some a) :
    a.gone + ((l.set k b).map Worker.gone).sum = b.gone + (l.map Worker.gone).sum := by
  induction l generalizing k with
  | nil => simp at h
  | cons x l ih =>
    cases k with
    | zero =>
      simp only [List.getElem?_cons_zero, Option.some.injEq] at h
      subst h
      simp; omega
    | succ k =>
      simp only [List.getElem?_cons_succ] at h
      have := ih k h
      simp only [List.set_cons_succ, List.map_cons, List.sum_cons]
      omega

theorem count_places (n i : Nat) (s : St R) : (places n s).count i = ((List.range n).drop s.puts).count i +
    (inTask s.inq).count i + (s.workers.flatMap Worker.task).count i + (s.outq.map Prod.fst).count i +
    s.received.count i := by
  simp [places, List.count_append]; omega

theorem inv_init (n w : Nat) (f : Nat → Outcome R) : Inv n w f (init R n w) := by
  have hw : (List.replicate w Worker.idle).flatMap Worker.task = [] := by
    induction w with
    | zero => rfl
    | succ w ih => rw [List.replicate_succ, List.flatMap_cons, ih]; rfl
  have hp : places n (init R n w) = List.range n := by
    simp [places, init, hw, inTask]
  have hc : ∀ i, (List.range n).count i = if i < n then 1 else 0 := by
    intro i
    by_cases h : i < n
    · rw [if_pos h]; exact List.count_eq_one_of_mem List.nodup_range (List.mem_range.2 h)
    · rw [if_neg h]; exact List.count_eq_zero_of_not_mem (by simpa using h)
  refine ⟨fun i => by rw [hp, hc], fun i r _ => by rw [hp, hc], by simp [init], by simp [init], by simp [init],
    by simp [init], by simp [init], ?_, by simp [init], by simp [init, List.mem_replicate]⟩
  simp [init, Worker.gone]

theorem drop_range (n k : Nat) (h : k < n) : (List.range n).drop k = k :: (List.range n).drop (k + 1) := by
  rw [List.drop_eq_getElem_cons (by simpa using h)]; simp

theorem inv_step {n w : Nat} {f : Nat → Outcome R} {s s' : St R} (hi : Inv n w f s) (st : Step n w f s s') :
    Inv n w f s' := by
  cases st with
  | put h he =>
    have hc : ∀ i, (places n { s with puts := s.puts + 1, inq := some (item n s.puts) }).count i =
        (places n s).count i := by
      intro i
      rw [count_places, count_places]
      simp only [he]
      by_cases hn : s.puts < n
      · rw [item, if_pos hn, drop_range n s.puts hn]
        simp only [inTask, List.count_cons, List.count_nil]
        omega
      · rw [item, if_neg hn, List.drop_eq_nil_of_le (by simp; omega), List.drop_eq_nil_of_le (by simp; omega)]
        rfl
    refine ⟨fun i => by rw [hc]; exact hi.once i, fun i r hr => by rw [hc]; exact hi.kept i r hr, hi.len, hi.out,
      hi.res, hi.wlen, ?_, ?_, h, hi.live⟩
    · intro i hx
      simp only [Option.some.injEq, item] at hx
      split at hx
      · simp only [Option.some.injEq] at hx; subst hx; exact ⟨rfl, by assumption⟩
      · cases hx
    · have := hi.ends
      rw [he] at this
      simp only [Option.some.injEq, item, reduceCtorEq, if_false] at this ⊢
      by_cases hn : s.puts < n
      · simp only [if_pos hn, reduceCtorEq, if_false]; omega
      · simp only [if_neg hn, if_true]; omega
  | take k x hk hx =>
    have hc : ∀ i, (places n { s with inq := none, workers := s.workers.set k (gets x) }).count i =
        (places n s).count i := by
      intro i
      rw [count_places, count_places]
      have := count_set s.workers k i .idle (gets x) hk
      simp only [hx]
      have h2 : (inTask (some x)).count i = (gets x).task.count i := by cases x <;> rfl
      simp only [Worker.task, List.count_nil, inTask] at this h2 ⊢
      omega
    refine ⟨fun i => by rw [hc]; exact hi.once i, fun i r hr => by rw [hc]; exact hi.kept i r hr, hi.len, hi.out,
      hi.res, by simpa using hi.wlen, by simp, ?_, hi.puts, ?_⟩
    · have h1 := hi.ends
      have h2 := gone_set s.workers k .idle (gets x) hk
      rw [hx] at h1
      simp only [Worker.gone, reduceCtorEq, if_false] at h2 ⊢
      cases x with
      | none => simp only [gets, Worker.gone, if_true] at h1 h2 ⊢; omega
      | some i =>
        simp only [gets, Worker.gone, Option.some.injEq, reduceCtorEq, if_false] at h1 h2 ⊢; omega
    · intro hok hm
      rcases List.mem_or_eq_of_mem_set hm with h | h
      · exact hi.live hok h
      · cases x <;> cases h
  | finish k j hk =>
    have hcnt := fun i => count_set s.workers k i (.busy j) (finishes j (f j)).1 hk
    have hc : ∀ i, (places n { s with workers := s.workers.set k (finishes j (f j)).1, outq := s.outq ++ (finishes j (f j)).2 }).count i + (if (f j).value = none then [j].count i else 0) =
        (places n s).count i := by
      intro i
      have h1 := hcnt i
      rw [count_places, count_places]
      simp only [List.map_append, List.count_append]
      rcases hf : f j with r | r | _
      all_goals
        rw [hf] at h1
        simp only [finishes, Worker.task, List.map_cons, List.map_nil, List.count_nil, Outcome.value, reduceCtorEq, if_false, if_true] at h1 ⊢
        omega
    refine ⟨fun i => le_trans ?_ (hi.once i), fun i r hr => ?_, hi.len, ?_, hi.res, by simpa using hi.wlen, hi.inq, ?_,
      hi.puts, ?_⟩
    · have := hc i; omega
    · have h1 := hc i
      rw [← hi.kept i r hr, ← h1]
      by_cases hv : (f j).value = none
      · rw [if_pos hv, List.count_eq_zero_of_not_mem (a := i) (l := [j]), Nat.add_zero]
        rw [List.mem_singleton]; rintro rfl; rw [hr] at hv; cases hv
      · rw [if_neg hv, Nat.add_zero]
    · intro p hp
      rcases List.mem_append.1 hp with hp | hp
      · exact hi.out p hp
      · rcases hf : f j with r | r | _ <;> rw [hf] at hp <;> simp only [finishes, List.mem_singleton, List.not_mem_nil] at hp
        · rw [hp]; simp [hf, Outcome.value]
        · rw [hp]; simp [hf, Outcome.value]
    · have h2 := gone_set s.workers k (.busy j) (finishes j (f j)).1 hk
      have h3 : (finishes j (f j)).1.gone = 0 := by cases f j <;> rfl
      have h1 := hi.ends
      rw [h3, show (Worker.busy j).gone = 0 from rfl] at h2
      simp only
      omega
    · intro hok hm
      rcases List.mem_or_eq_of_mem_set hm with h | h
      · exact hi.live hok h
      · obtain ⟨r, hr⟩ := hok j
        rw [hr] at h; cases h
  | get l l' j r h hr hq =>
    have hc : ∀ i, (places n { s with outq := l ++ l', received := j :: s.received, results := s.results.set j (some r) }).count i = (places n s).count i := by
      intro i
      rw [count_places, count_places]
      simp only [hq, List.map_append, List.map_cons, List.count_append, List.count_cons]
      omega
    have hj : j < n := by
      have h1 : 0 < (places n s).count j := by
        rw [count_places, hq]; simp [List.count_append]
      have h2 := hi.once j
      by_contra hn
      rw [if_neg hn] at h2; omega
    refine ⟨fun i => by rw [hc]; exact hi.once i, fun i r hr => by rw [hc]; exact hi.kept i r hr, by simp [hi.len], ?_,
      ?_, hi.wlen, hi.inq, hi.ends, hi.puts, hi.live⟩
    · intro p hp
      apply hi.out
      rw [hq]
      rcases List.mem_append.1 hp with hp | hp <;> simp [hp]
    · have hv : (f j).value = some r := hi.out (j, r) (by rw [hq]; simp)
      intro i hmem
      by_cases hij : i = j
      · subst hij
        exact ⟨r, hv, by simp [hi.len, hj]⟩
      · have hmem := (List.mem_cons.1 hmem).resolve_left hij
        obtain ⟨r', h1, h2⟩ := hi.res i hmem
        exact ⟨r', h1, by simp only; rw [List.getElem?_set_ne (Ne.symm hij)]; exact h2⟩

theorem inv_run {n w : Nat} {f : Nat → Outcome R} {s : St R} (h : Run n w f s) : Inv n w f s := by
  induction h with
  | start => exact inv_init n w f
  | step _ st ih => exact inv_step ih st

/-- C45: whenever the call returns, under any schedule and number of workers, its list of results is the function's
value on each argument, in the order of the arguments. -/
theorem results_in_order {n w : Nat} {f : Nat → Outcome R} {s : St R} (h : Run n w f s) (hr : Returned n w s) :
    s.results = (List.range n).map fun i => (f i).value := by
  have hi := inv_run h
  have hnd : s.received.Nodup := by
    rw [List.nodup_iff_count_le_one]
    intro i
    have := hi.once i
    rw [count_places] at this
    split at this <;> omega
  have hsub : s.received ⊆ List.range n := by
    intro i hmem
    have h1 := hi.once i
    rw [count_places] at h1
    have h2 : 0 < s.received.count i := List.count_pos_iff.2 hmem
    rw [List.mem_range]
    by_contra hn
    rw [if_neg hn] at h1; omega
  have hperm : s.received.Perm (List.range n) :=
    (List.subperm_of_subset hnd hsub).perm_of_length_le (by rw [hr.2.1]; simp)
  apply List.ext_getElem?
  intro i
  by_cases hin : i < n
  · obtain ⟨r, h1, h2⟩ := hi.res i (hperm.mem_iff.2 (List.mem_range.2 hin))
    rw [h2, List.getElem?_map, List.getElem?_range hin, Option.map_some, h1]
  · rw [List.getElem?_eq_none (by rw [hi.len]; omega), List.getElem?_eq_none (by simp; omega)]

/-- How much is left to do. -/
def todo (n w : Nat) (s : St R) : Nat :=
  4 * (n + w - s.puts) + (if s.inq.isSome then 3 else 0) + 2 * (s.workers.flatMap Worker.task).length + s.outq.length

theorem len_set (l : List Worker) (k : Nat) (a b : Worker) (h : l[k]? = some a) :
    a.task.length + ((l.set k b).flatMap Worker.task).length = b.task.length + (l.flatMap Worker.task).length := by
  have := (set_flatMap_perm l Worker.task k a b h).length_eq
  simpa using this

/-- C45: every step makes progress, so every schedule comes to an end (there are no infinite runs). -/
theorem step_todo {n w : Nat} {f : Nat → Outcome R} {s s' : St R} (st : Step n w f s s') : todo n w s' < todo n w s := by
  cases st with
  | put h he => simp [todo, he]; omega
  | take k x hk hx =>
    have := len_set s.workers k .idle (gets x) hk
    have h2 : (gets x).task.length ≤ 1 := by cases x <;> simp [gets, Worker.task]
    rw [show Worker.idle.task.length = 0 from rfl] at this
    simp only [todo, hx, Option.isSome_some, Option.isSome_none, if_true, Bool.false_eq_true, if_false]
    omega
  | finish k j hk =>
    have := len_set s.workers k (.busy j) (finishes j (f j)).1 hk
    have h2 : (finishes j (f j)).1.task.length = 0 := by cases f j <;> rfl
    have h3 : (finishes j (f j)).2.length ≤ 1 := by cases f j <;> simp [finishes]
    rw [show (Worker.busy j).task.length = 1 from rfl] at this
    simp only [todo, List.length_append]
    omega
  | get l l' j r h hr hq =>
    simp only [todo, hq, List.length_append, List.length_cons]
    omega

theorem all_gone {l : List Worker} (h : (l.map Worker.gone).sum = l.length) : ∀ x ∈ l, x = .exited := by
  have hle : ∀ l : List Worker, (l.map Worker.gone).sum ≤ l.length := by
    intro l
    induction l with
    | nil => simp
    | cons a l ih => cases a <;> simp [Worker.gone] <;> omega
  induction l with
  | nil => simp
  | cons a l ih =>
    have := hle l
    cases a with
    | exited => 
      simp only [List.map_cons, Worker.gone, List.sum_cons, List.length_cons] at h
      rw [List.forall_mem_cons]
      exact ⟨rfl, ih (by omega)⟩
    | _ => simp [Worker.gone] at h; omega

theorem gone_of_all {l : List Worker} (h : ∀ x ∈ l, x = .exited) : (l.map Worker.gone).sum = l.length := by
  induction l with
  | nil => rfl
  | cons a l ih =>
    rw [List.forall_mem_cons] at h
    rw [List.map_cons, List.sum_cons, ih h.2, h.1, List.length_cons]; simp [Worker.gone]; omega

/-- C45: with at least one worker and a function that never fails, a run that has not returned can go on: no schedule
gets stuck, and with `step_todo` every schedule ends by returning. -/
theorem never_stuck {n w : Nat} {f : Nat → Outcome R} {s : St R} (hw : 0 < w) (hf : ∀ i, ∃ r, f i = .ok r)
    (h : Run n w f s) (hr : ¬ Returned n w s) : ∃ s', Step n w f s s' := by
  have hi := inv_run h
  by_cases hb : ∃ i, Worker.busy i ∈ s.workers
  · obtain ⟨i, hb⟩ := hb
    obtain ⟨k, hk⟩ := List.mem_iff_getElem?.1 hb
    exact ⟨_, .finish s k i hk⟩
  have hkind : ∀ x ∈ s.workers, x = .idle ∨ x = .exited := by
    intro x hx
    cases x with
    | idle => exact Or.inl rfl
    | busy i => exact absurd ⟨i, hx⟩ hb
    | exited => exact Or.inr rfl
    | crashed => exact absurd hx (hi.live hf)
  have hends := hi.ends
  have hputs := hi.puts
  cases hq : s.inq with
  | some x =>
    by_cases hid : Worker.idle ∈ s.workers
    · obtain ⟨k, hk⟩ := List.mem_iff_getElem?.1 hid
      exact ⟨_, .take s k x hk hq⟩
    · exfalso
      have hall : ∀ x ∈ s.workers, x = .exited := fun x hx => (hkind x hx).resolve_left (by rintro rfl; exact hid hx)
      have hg := gone_of_all hall
      rw [hi.wlen] at hg
      rw [hg, hq] at hends
      cases x with
      | none => simp only [if_true] at hends; omega
      | some i =>
        obtain ⟨h1, h2⟩ := hi.inq i hq
        simp only [Option.some.injEq, reduceCtorEq, if_false] at hends
        omega
  | none =>
    by_cases hp : s.puts < n + w
    · exact ⟨_, .put s hp hq⟩
    have hp : s.puts = n + w := by omega
    have hgone : ∀ x ∈ s.workers, x = .exited := by
      apply all_gone
      rw [hq] at hends
      simp only [reduceCtorEq, if_false] at hends
      rw [hi.wlen]; omega
    have htask : s.workers.flatMap Worker.task = [] := by
      rw [List.flatMap_eq_nil_iff]
      intro x hx; rw [hgone x hx]; rfl
    have hlen : s.received.length ≠ n := fun hl => hr ⟨hp, hl, fun x hx => Or.inl (hgone x hx)⟩
    have hcount : ∀ i, (s.outq.map Prod.fst).count i + s.received.count i = if i < n then 1 else 0 := by
      intro i
      obtain ⟨r, hr⟩ := hf i
      have := hi.kept i r (by rw [hr]; rfl)
      rw [count_places, htask, hq, List.drop_eq_nil_of_le (by simp; omega)] at this
      simpa [inTask] using this
    have hperm : (s.outq.map Prod.fst ++ s.received).Perm (List.range n) := by
      rw [List.perm_iff_count]
      intro i
      rw [List.count_append, hcount]
      by_cases h : i < n
      · rw [if_pos h]; exact (List.count_eq_one_of_mem List.nodup_range (List.mem_range.2 h)).symm
      · rw [if_neg h]; exact (List.count_eq_zero_of_not_mem (by simpa using h)).symm
    have hsum := hperm.length_eq
    simp only [List.length_append, List.length_map, List.length_range] at hsum
    cases ho : s.outq with
    | nil => rw [ho] at hsum; simp at hsum; exact absurd hsum hlen
    | cons p l =>
      rw [ho, List.length_cons] at hsum
      exact ⟨_, .get s [] l p.1 p.2 hp (by omega) ho⟩

/-- C45 fails when the log message cannot be made from a result (`res[2]` raises after the result was put): with one
processor and two arguments the run reaches a state in which nothing can happen and the call never returns. -/
theorem stuck_after_log_error (r : R) : ∃ s : St R, Run 2 1 (fun _ => .badLog r) s ∧ ¬ Returned 2 1 s ∧
    ∀ s', ¬ Step 2 1 (fun _ => .badLog r) s s' := by
  refine ⟨⟨2, some (some 1), [.crashed], [(0, r)], [], [none, none]⟩, ?_, ?_, ?_⟩
  · have h0 : Run 2 1 (fun _ => .badLog r) (init R 2 1) := .start
    have h1 := h0.step (.put _ (by simp [init]) rfl)
    have h2 := h1.step (.take _ 0 (some 0) rfl rfl)
    have h3 := h2.step (.finish _ 0 0 rfl)
    exact h3.step (.put _ (by simp [init]) rfl)
  · rintro ⟨h, _⟩; cases h
  · intro s' st
    cases st with
    | put h he => cases he
    | take k x hk hx =>
      cases k with
      | zero => cases hk
      | succ k => cases hk
    | finish k j hk =>
      cases k with
      | zero => cases hk
      | succ k => cases hk
    | get l l' j r h hr hq => cases h

/-- C45 fails for extra positional arguments: they are not passed on to the function. -/
theorem args_dropped {V A K : Type} (func : V → List A → K → Outcome R) (var : List V) (args : List A) (kwargs : K) :
    outcome func var args kwargs = outcome func var [] kwargs := rfl

/-- C45: without extra positional arguments, the values are those of the function on each argument. -/
theorem call_values_partial {V A K : Type} (func : V → List A → K → Outcome R) (var : List V) (kwargs : K) {w : Nat} {s : St R}
    (h : Run var.length w (outcome func var [] kwargs) s) (hr : Returned var.length w s) :
    s.results = var.map fun v => (func v [] kwargs).value := by
  rw [results_in_order h hr]
  apply List.ext_getElem?
  intro i
  by_cases hi : i < var.length
  · simp [outcome, hi]
  · rw [List.getElem?_eq_none (by simp; omega), List.getElem?_eq_none (by simp; omega)]

/-- Non-vacuity: one worker, one argument, a full run. -/
example : ∃ s : St Nat, Run 1 1 (fun _ => .ok 7) s ∧ Returned 1 1 s ∧ s.results = [some 7] := by
  have h0 : Run 1 1 (fun _ => .ok 7) (init Nat 1 1) := .start
  have h1 := h0.step (.put _ (by simp [init]) rfl)
  have h2 := h1.step (.take _ 0 (some 0) rfl rfl)
  have h3 := h2.step (.finish _ 0 0 rfl)
  have h4 := h3.step (.put _ (by simp [init]) rfl)
  have h5 := h4.step (.take _ 0 none rfl rfl)
  have h6 := h5.step (.get _ [] [] 0 7 rfl (by simp [init]) rfl)
  exact ⟨_, h6, ⟨rfl, rfl, by simp [init, gets, finishes]⟩, rfl⟩

end Hexrd.Multiproc
