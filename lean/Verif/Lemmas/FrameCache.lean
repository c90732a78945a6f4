import Verif.Model.FrameCache
namespace Hexrd.FrameCache
variable {V : Type}

def task : Pc → Option Nat
  | .idle => none
  | .extracted i => some i
  | .reserved i _ _ => some i
  | .wroteData i _ _ => some i
  | .wroteIdx i _ _ => some i
  | .wroteStart i _ _ => some i

def DataOk (ents : Nat → List (Entry V)) (s : St V) (i a : Nat) : Prop :=
  ∀ k e, (ents i)[k]? = some e → s.data (a + k) = some e.val
def IdxOk (ents : Nat → List (Entry V)) (s : St V) (i a : Nat) : Prop :=
  ∀ k e, (ents i)[k]? = some e → s.idx (a + k) = some (e.row, e.col)

def ThreadOk (ents : Nat → List (Entry V)) (s : St V) (R : Nat → Option Nat) (t : Nat) : Prop :=
  match s.pc t with
  | .idle => True
  | .extracted i => i < s.next ∧ R i = none ∧ s.buf t = ents i
  | .reserved i a e => i < s.next ∧ R i = some a ∧ e = a + (ents i).length ∧ s.buf t = ents i
  | .wroteData i a e => i < s.next ∧ R i = some a ∧ e = a + (ents i).length ∧ s.buf t = ents i ∧ DataOk ents s i a
  | .wroteIdx i a e => i < s.next ∧ R i = some a ∧ e = a + (ents i).length ∧ DataOk ents s i a ∧ IdxOk ents s i a
  | .wroteStart i a e => i < s.next ∧ R i = some a ∧ e = a + (ents i).length ∧ DataOk ents s i a ∧ IdxOk ents s i a
      ∧ s.fid (2*i) = a

def resSum (R : Nat → Option Nat) (ents : Nat → List (Entry V)) : Nat → Nat
  | 0 => 0
  | n+1 => resSum R ents n + (if (R n).isSome then (ents n).length else 0)

structure Inv (n : Nat) (ents : Nat → List (Entry V)) (s : St V) (R : Nat → Option Nat) : Prop where
  nextle : s.next ≤ n
  tot : s.total = s.filePos
  pos : s.filePos = resSum R ents n
  rlt : ∀ i a, R i = some a → i < s.next ∧ a + (ents i).length ≤ s.filePos
  disj : ∀ i j a b, i ≠ j → R i = some a → R j = some b →
    a + (ents i).length ≤ b ∨ b + (ents j).length ≤ a
  thr : ∀ t, ThreadOk ents s R t
  uniq : ∀ t t' i, task (s.pc t) = some i → task (s.pc t') = some i → t = t'
  done : ∀ i, i < s.next → (∀ t, task (s.pc t) ≠ some i) →
    ∃ a, R i = some a ∧ DataOk ents s i a ∧ IdxOk ents s i a ∧ s.fid (2*i) = a ∧
      s.fid (2*i+1) = a + (ents i).length

theorem resSum_none (ents : Nat → List (Entry V)) : ∀ n, resSum (fun _ => none) ents n = 0 := by
  intro n; induction n with
  | zero => rfl
  | succ n ih => simp [resSum, ih]

theorem inv_init (n : Nat) (ents : Nat → List (Entry V)) (junk : Nat → Nat) :
    Inv n ents (initSt junk) (fun _ => none) := by
  refine ⟨by simp [initSt], rfl, by simp [initSt, resSum_none], by simp, by simp, fun t => trivial, ?_, ?_⟩
  · intro t t' i h; simp [initSt, task] at h
  · intro i hi; simp [initSt] at hi

theorem resSum_upd (ents : Nat → List (Entry V)) (R : Nat → Option Nat) (i a : Nat) (hR : R i = none) :
    ∀ n, resSum (upd R i (some a)) ents n = resSum R ents n + (if i < n then (ents i).length else 0) := by
  intro n; induction n with
  | zero => simp [resSum]
  | succ n ih =>
    simp only [resSum, ih]
    by_cases h : n = i
    · subst h; simp [upd, hR]
    · by_cases h2 : i < n
      · simp [upd, h, h2, show i < n + 1 by omega]; omega
      · simp [upd, h, h2, show ¬ i < n + 1 by omega]

theorem writeSlice_inside {β : Type} (f : Nat → Option β) (s : Nat) (vals : List β) (k : Nat) (v : β)
    (h : vals[k]? = some v) : writeSlice f s vals (s + k) = some v := by
  have hk : k < vals.length := by
    rw [List.getElem?_eq_some_iff] at h; exact h.1
  unfold writeSlice
  rw [if_pos (by omega), show s + k - s = k by omega, h]

theorem writeSlice_outside {β : Type} (f : Nat → Option β) (s : Nat) (vals : List β) (x : Nat)
    (h : x < s ∨ s + vals.length ≤ x) : writeSlice f s vals x = f x := by
  unfold writeSlice
  rw [if_neg (by omega)]

theorem getElem?_lt {α : Type} {l : List α} {k : Nat} {e : α} (h : l[k]? = some e) : k < l.length := by
  rw [List.getElem?_eq_some_iff] at h; exact h.1

/-- Thread facts that mention only unchanged components carry over. -/
theorem ThreadOk_congr {ents : Nat → List (Entry V)} {s s' : St V} {R R' : Nat → Option Nat} {t : Nat}
    (hpc : s'.pc t = s.pc t) (hbuf : s'.buf t = s.buf t) (hnext : s.next ≤ s'.next)
    (hR : ∀ i, task (s.pc t) = some i → R' i = R i)
    (hD : ∀ i a, task (s.pc t) = some i → R i = some a → DataOk ents s i a → DataOk ents s' i a)
    (hI : ∀ i a, task (s.pc t) = some i → R i = some a → IdxOk ents s i a → IdxOk ents s' i a)
    (hF : ∀ i, task (s.pc t) = some i → s'.fid (2*i) = s.fid (2*i))
    (h : ThreadOk ents s R t) : ThreadOk ents s' R' t := by
  unfold ThreadOk at h ⊢
  rw [hpc, hbuf]
  split at h
  · trivial
  · rename_i i hp
    have ht : task (s.pc t) = some i := by rw [hp]; rfl
    exact ⟨Nat.lt_of_lt_of_le h.1 hnext, by rw [hR i ht]; exact h.2.1, h.2.2⟩
  · rename_i i a e hp
    have ht : task (s.pc t) = some i := by rw [hp]; rfl
    exact ⟨Nat.lt_of_lt_of_le h.1 hnext, by rw [hR i ht]; exact h.2.1, h.2.2⟩
  · rename_i i a e hp
    have ht : task (s.pc t) = some i := by rw [hp]; rfl
    exact ⟨Nat.lt_of_lt_of_le h.1 hnext, by rw [hR i ht]; exact h.2.1, h.2.2.1, h.2.2.2.1, hD i a ht h.2.1 h.2.2.2.2⟩
  · rename_i i a e hp
    have ht : task (s.pc t) = some i := by rw [hp]; rfl
    exact ⟨Nat.lt_of_lt_of_le h.1 hnext, by rw [hR i ht]; exact h.2.1, h.2.2.1, hD i a ht h.2.1 h.2.2.2.1, hI i a ht h.2.1 h.2.2.2.2⟩
  · rename_i i a e hp
    have ht : task (s.pc t) = some i := by rw [hp]; rfl
    exact ⟨Nat.lt_of_lt_of_le h.1 hnext, by rw [hR i ht]; exact h.2.1, h.2.2.1, hD i a ht h.2.1 h.2.2.2.1, hI i a ht h.2.1 h.2.2.2.2.1,
      by rw [hF i ht]; exact h.2.2.2.2.2⟩

theorem upd_same {β : Type} (f : Nat → β) (a : Nat) (b : β) : upd f a b a = b := by simp [upd]
theorem upd_ne {β : Type} (f : Nat → β) {a x : Nat} (b : β) (h : x ≠ a) : upd f a b x = f x := by simp [upd, h]

/-- Steps that keep the thread on the same task. -/
theorem uniq_same {n : Nat} {ents : Nat → List (Entry V)} {s : St V} {R : Nat → Option Nat}
    (hI : Inv n ents s R) (t : Nat) (p : Pc) (hp : task p = task (s.pc t)) :
    ∀ u u' i, task (upd s.pc t p u) = some i → task (upd s.pc t p u') = some i → u = u' := by
  have key : ∀ u, task (upd s.pc t p u) = task (s.pc u) := by
    intro u; by_cases h : u = t
    · subst h; rw [upd_same, hp]
    · rw [upd_ne _ _ h]
  intro u u' i h1 h2
  rw [key] at h1 h2
  exact hI.uniq u u' i h1 h2

theorem task_upd_same {s : St V} (t : Nat) (p : Pc) (hp : task p = task (s.pc t)) (u : Nat) :
    task (upd s.pc t p u) = task (s.pc u) := by
  by_cases h : u = t
  · subst h; rw [upd_same, hp]
  · rw [upd_ne _ _ h]

theorem inv_step {n : Nat} {ents : Nat → List (Entry V)} {s : St V} {R : Nat → Option Nat}
    (hI : Inv n ents s R) (t : Nat) : ∃ R', Inv n ents (step n ents s t) R' := by
  have hT := hI.thr t
  unfold step
  unfold ThreadOk at hT
  split
  · -- idle: take a task
    rename_i hp
    split
    · rename_i hlt
      refine ⟨R, hlt, hI.tot, hI.pos, ?_, hI.disj, ?_, ?_, ?_⟩
      · intro i a h; have := hI.rlt i a h; exact ⟨by simp only; omega, this.2⟩
      · intro u
        by_cases hu : u = t
        · subst hu
          unfold ThreadOk; simp only [upd_same]
          refine ⟨by omega, ?_, trivial⟩
          cases hR : R s.next with
          | none => rfl
          | some a => have := (hI.rlt _ _ hR).1; omega
        · exact ThreadOk_congr (s := s) (R := R) (by simp [upd, hu]) (by simp [upd, hu]) (by simp) (fun _ _ => rfl)
            (fun _ _ _ _ h => h) (fun _ _ _ _ h => h) (fun _ _ => rfl) (hI.thr u)
      · intro u u' i h1 h2
        have notask : ∀ u, task (s.pc u) ≠ some s.next := by
          intro u hu
          have := hI.thr u
          unfold ThreadOk at this
          split at this <;> simp_all [task]
        by_cases hu : u = t <;> by_cases hu' : u' = t
        · rw [hu, hu']
        · simp only [hu, upd_same, task, Option.some.injEq] at h1
          subst h1; simp only [upd_ne _ _ hu'] at h2; exact absurd h2 (notask u')
        · simp only [hu', upd_same, task, Option.some.injEq] at h2
          subst h2; simp only [upd_ne _ _ hu] at h1; exact absurd h1 (notask u)
        · simp only [upd_ne _ _ hu, upd_ne _ _ hu'] at h1 h2; exact hI.uniq u u' i h1 h2
      · intro i hi hno
        simp only at hi hno
        have hin : i ≠ s.next := by
          intro h; have := hno t; simp [upd_same, task, h] at this
        exact hI.done i (by omega) fun u => by
          have := hno u
          by_cases hu : u = t
          · subst hu; simp [hp, task]
          · rwa [upd_ne _ _ hu] at this
    · exact ⟨R, hI⟩
  · -- extracted: reserve
    rename_i i hp
    rw [hp] at hT; simp only at hT
    obtain ⟨hin, hRi, hb⟩ := hT
    have htask : task (s.pc t) = some i := by rw [hp]; rfl
    have hRne : ∀ j a, R j = some a → j ≠ i := by
      intro j a h hj; subst hj; rw [hRi] at h; cases h
    refine ⟨upd R i (some s.filePos), hI.nextle, ?_, ?_, ?_, ?_, ?_, ?_, ?_⟩
    · simp only [hI.tot]; omega
    · rw [resSum_upd ents R i _ hRi, if_pos (by have := hI.nextle; omega), ← hI.pos]; simp [hb]
    · intro j a h
      by_cases hj : j = i
      · subst hj; rw [upd_same] at h; cases h; exact ⟨hin, by simp [hb]⟩
      · rw [upd_ne _ _ hj] at h; have := hI.rlt j a h; exact ⟨this.1, by simp only; omega⟩
    · intro j k a b hjk h1 h2
      by_cases hj : j = i <;> by_cases hk : k = i
      · omega
      · subst hj; rw [upd_same] at h1; rw [upd_ne _ _ hk] at h2; cases h1
        exact Or.inr (hI.rlt k b h2).2
      · subst hk; rw [upd_same] at h2; rw [upd_ne _ _ hj] at h1; cases h2
        exact Or.inl (hI.rlt j a h1).2
      · rw [upd_ne _ _ hj] at h1; rw [upd_ne _ _ hk] at h2; exact hI.disj j k a b hjk h1 h2
    · intro u
      by_cases hu : u = t
      · subst hu
        unfold ThreadOk; simp only [upd_same]
        exact ⟨hin, trivial, by rw [hb], hb⟩
      · refine ThreadOk_congr (s := s) (R := R) (by simp [upd, hu]) rfl (Nat.le_refl _) ?_ (fun _ _ _ _ h => h) (fun _ _ _ _ h => h) (fun _ _ => rfl) (hI.thr u)
        intro j hj
        have : j ≠ i := by intro h; subst h; exact hu (hI.uniq u t j hj htask)
        rw [upd_ne _ _ this]
    · exact uniq_same hI t _ (by rw [htask]; rfl)
    · intro j hj hno
      obtain ⟨a, h1, h2⟩ := hI.done j hj fun u => by
        have := hno u
        rwa [task_upd_same t _ (by rw [htask]; rfl)] at this
      exact ⟨a, by rw [upd_ne _ _ (hRne j a h1)]; exact h1, h2⟩
  · -- reserved: write data
    rename_i i a e hp
    rw [hp] at hT; simp only at hT
    obtain ⟨hin, hRi, he, hb⟩ := hT
    have htask : task (s.pc t) = some i := by rw [hp]; rfl
    have other : ∀ j b, j ≠ i → R j = some b → DataOk ents s j b →
        ∀ k x, (ents j)[k]? = some x → writeSlice s.data a ((s.buf t).map Entry.val) (b + k) = some x.val := by
      intro j b hj hRj hd k x hx
      rw [writeSlice_outside, hd k x hx]
      have := hI.disj i j a b (Ne.symm hj) hRi hRj
      have := getElem?_lt hx
      rw [List.length_map, hb]; omega
    refine ⟨R, hI.nextle, hI.tot, hI.pos, hI.rlt, hI.disj, ?_, ?_, ?_⟩
    · intro u
      by_cases hu : u = t
      · subst hu
        unfold ThreadOk; simp only [upd_same]
        refine ⟨hin, hRi, he, hb, ?_⟩
        intro k x hx
        simp only
        apply writeSlice_inside
        rw [List.getElem?_map, hb, hx]; rfl
      · refine ThreadOk_congr (s := s) (R := R) (by simp [upd, hu]) rfl (Nat.le_refl _) (fun _ _ => rfl) ?_ (fun _ _ _ _ h => h) (fun _ _ => rfl) (hI.thr u)
        intro j b hj hRj hd
        have : j ≠ i := by intro h; subst h; exact hu (hI.uniq u t j hj htask)
        exact other j b this hRj hd
    · exact uniq_same hI t _ (by rw [htask]; rfl)
    · intro j hj hno
      have hno' : ∀ u, task (s.pc u) ≠ some j := fun u => by
        have := hno u
        rwa [task_upd_same t _ (by rw [htask]; rfl)] at this
      obtain ⟨b, h1, h2, h3⟩ := hI.done j hj hno'
      have hji : j ≠ i := by intro h; subst h; exact hno' t htask
      exact ⟨b, h1, other j b hji h1 h2, h3⟩
  · -- wroteData: write indices
    rename_i i a e hp
    rw [hp] at hT; simp only at hT
    obtain ⟨hin, hRi, he, hb, hd⟩ := hT
    have htask : task (s.pc t) = some i := by rw [hp]; rfl
    have other : ∀ j b, j ≠ i → R j = some b → IdxOk ents s j b →
        ∀ k x, (ents j)[k]? = some x → writeSlice s.idx a ((s.buf t).map fun x => (x.row, x.col)) (b + k) = some (x.row, x.col) := by
      intro j b hj hRj hd k x hx
      rw [writeSlice_outside, hd k x hx]
      have := hI.disj i j a b (Ne.symm hj) hRi hRj
      have := getElem?_lt hx
      rw [List.length_map, hb]; omega
    refine ⟨R, hI.nextle, hI.tot, hI.pos, hI.rlt, hI.disj, ?_, ?_, ?_⟩
    · intro u
      by_cases hu : u = t
      · subst hu
        unfold ThreadOk; simp only [upd_same]
        refine ⟨hin, hRi, he, hd, ?_⟩
        intro k x hx
        simp only
        apply writeSlice_inside
        rw [List.getElem?_map, hb, hx]; rfl
      · refine ThreadOk_congr (s := s) (R := R) (by simp [upd, hu]) rfl (Nat.le_refl _) (fun _ _ => rfl) (fun _ _ _ _ h => h) ?_ (fun _ _ => rfl) (hI.thr u)
        intro j b hj hRj hd
        have : j ≠ i := by intro h; subst h; exact hu (hI.uniq u t j hj htask)
        exact other j b this hRj hd
    · exact uniq_same hI t _ (by rw [htask]; rfl)
    · intro j hj hno
      have hno' : ∀ u, task (s.pc u) ≠ some j := fun u => by
        have := hno u
        rwa [task_upd_same t _ (by rw [htask]; rfl)] at this
      obtain ⟨b, h1, h2, h3, h4⟩ := hI.done j hj hno'
      have hji : j ≠ i := by intro h; subst h; exact hno' t htask
      exact ⟨b, h1, h2, other j b hji h1 h3, h4⟩
  · -- wroteIdx: write start
    rename_i i a e hp
    rw [hp] at hT; simp only at hT
    obtain ⟨hin, hRi, he, hd, hi⟩ := hT
    have htask : task (s.pc t) = some i := by rw [hp]; rfl
    refine ⟨R, hI.nextle, hI.tot, hI.pos, hI.rlt, hI.disj, ?_, ?_, ?_⟩
    · intro u
      by_cases hu : u = t
      · subst hu
        unfold ThreadOk; simp only [upd_same]
        exact ⟨hin, hRi, he, hd, hi, trivial⟩
      · refine ThreadOk_congr (s := s) (R := R) (by simp [upd, hu]) rfl (Nat.le_refl _) (fun _ _ => rfl) (fun _ _ _ _ h => h) (fun _ _ _ _ h => h) ?_ (hI.thr u)
        intro j hj
        have : j ≠ i := by intro h; subst h; exact hu (hI.uniq u t j hj htask)
        simp only
        rw [upd_ne _ _ (by omega)]
    · exact uniq_same hI t _ (by rw [htask]; rfl)
    · intro j hj hno
      have hno' : ∀ u, task (s.pc u) ≠ some j := fun u => by
        have := hno u
        rwa [task_upd_same t _ (by rw [htask]; rfl)] at this
      obtain ⟨b, h1, h2, h3, h4, h5⟩ := hI.done j hj hno'
      have hji : j ≠ i := by intro h; subst h; exact hno' t htask
      refine ⟨b, h1, h2, h3, ?_, ?_⟩
      · simp only; rw [upd_ne _ _ (by omega)]; exact h4
      · simp only; rw [upd_ne _ _ (by omega)]; exact h5
  · -- wroteStart: write end, finish
    rename_i i a e hp
    rw [hp] at hT; simp only at hT
    obtain ⟨hin, hRi, he, hd, hi, hf⟩ := hT
    have htask : task (s.pc t) = some i := by rw [hp]; rfl
    refine ⟨R, hI.nextle, hI.tot, hI.pos, hI.rlt, hI.disj, ?_, ?_, ?_⟩
    · intro u
      by_cases hu : u = t
      · subst hu
        unfold ThreadOk; simp only [upd_same]
      · refine ThreadOk_congr (s := s) (R := R) (by simp [upd, hu]) rfl (Nat.le_refl _) (fun _ _ => rfl) (fun _ _ _ _ h => h) (fun _ _ _ _ h => h) ?_ (hI.thr u)
        intro j hj
        have : j ≠ i := by intro h; subst h; exact hu (hI.uniq u t j hj htask)
        simp only
        rw [upd_ne _ _ (by omega)]
    · intro u u' j h1 h2
      by_cases hu : u = t
      · subst hu; simp only [upd_same, task] at h1; cases h1
      · by_cases hu' : u' = t
        · subst hu'; simp only [upd_same, task] at h2; cases h2
        · simp only [upd_ne _ _ hu, upd_ne _ _ hu'] at h1 h2; exact hI.uniq u u' j h1 h2
    · intro j hj hno
      by_cases hji : j = i
      · subst hji
        exact ⟨a, hRi, hd, hi, by simp only; rw [upd_ne _ _ (by omega)]; exact hf, by simp only [upd_same]; exact he⟩
      · obtain ⟨b, h1, h2, h3, h4, h5⟩ := hI.done j hj fun u => by
          by_cases hu : u = t
          · subst hu; rw [htask]; intro h; cases h; exact hji rfl
          · have := hno u; simp only [upd_ne _ _ hu] at this; exact this
        refine ⟨b, h1, h2, h3, ?_, ?_⟩
        · simp only; rw [upd_ne _ _ (by omega)]; exact h4
        · simp only; rw [upd_ne _ _ (by omega)]; exact h5

theorem inv_run (n : Nat) (ents : Nat → List (Entry V)) : ∀ (sched : List Nat) (s : St V) (R : Nat → Option Nat),
    Inv n ents s R → ∃ R', Inv n ents (runSched n ents s sched) R' := by
  intro sched
  induction sched with
  | nil => intro s R h; exact ⟨R, h⟩
  | cons t ts ih =>
    intro s R h
    obtain ⟨R', h'⟩ := inv_step h t
    exact ih _ R' h'

theorem resSum_le (R : Nat → Option Nat) (ents : Nat → List (Entry V)) (M : Nat)
    (h : ∀ i, (ents i).length ≤ M) : ∀ n, resSum R ents n ≤ n * M := by
  intro n; induction n with
  | zero => simp [resSum]
  | succ n ih =>
    simp only [resSum, Nat.succ_mul]
    have := h n
    split <;> omega

/-! ## extraction -/

theorem flatMap_range_none {β : Type} (f : Nat → List β) :
    ∀ w, (∀ i, i < w → f i = []) → (List.range w).flatMap f = [] := by
  intro w h
  rw [List.flatMap_eq_nil_iff]
  intro x hx; exact h x (List.mem_range.1 hx)

theorem flatMap_range_single {β : Type} (f : Nat → List β) (r : Nat) :
    ∀ w, (∀ i, i < w → i ≠ r → f i = []) → r < w → (List.range w).flatMap f = f r := by
  intro w
  induction w with
  | zero => intro _ h; omega
  | succ w ih =>
    intro h hr
    rw [List.range_succ, List.flatMap_append]
    by_cases hw : r = w
    · subst hw
      rw [flatMap_range_none f r (fun i hi => h i (by omega) (by omega))]; simp
    · rw [ih (fun i hi hne => h i (by omega) hne) (by omega)]
      simp [h w (by omega) (Ne.symm hw)]

theorem filterMap_eq_flatMap {α β : Type} (f : α → Option β) (l : List α) :
    l.filterMap f = l.flatMap fun x => (f x).toList := by
  induction l with
  | nil => rfl
  | cons a l ih => cases h : f a <;> simp [h, ih]

/-- The entries of the extraction at a given stored index. -/
theorem extract_filter (above : V → Bool) (w h : Nat) (im : Nat → Nat → V)
    (hw : w ≤ 65536) (hh : h ≤ 65536) (r c : Nat) (hr : r < w) (hc : c < h) :
    (extract above w h im).filter (fun e => decide (e.row = r ∧ e.col = c))
      = if above (im r c) then [⟨r, c, im r c⟩] else [] := by
  unfold extract
  rw [List.filter_flatMap]
  have inner : ∀ i, ((List.range h).filterMap fun j =>
      if above (im i j) then some (⟨i % 65536, j % 65536, im i j⟩ : Entry V) else none).filter
        (fun e => decide (e.row = r ∧ e.col = c))
      = (List.range h).flatMap fun j => if above (im i j) ∧ i % 65536 = r ∧ j % 65536 = c then
          [(⟨i % 65536, j % 65536, im i j⟩ : Entry V)] else [] := by
    intro i
    rw [filterMap_eq_flatMap, List.filter_flatMap]
    congr 1; funext j
    by_cases ha : above (im i j) <;> by_cases hb : i % 65536 = r ∧ j % 65536 = c <;> simp [ha, hb]
  have e1 : ∀ i, i < w → i % 65536 = i := fun i hi => Nat.mod_eq_of_lt (by omega)
  rw [flatMap_range_single _ r w ?_ hr]
  · simp only [inner]
    rw [flatMap_range_single _ c h ?_ hc]
    · rw [e1 r hr, Nat.mod_eq_of_lt (show c < 65536 by omega)]; simp
    · intro j hj hne
      rw [Nat.mod_eq_of_lt (show j < 65536 by omega)]; simp [hne]
  · intro i hi hne
    simp only [inner]
    apply flatMap_range_none
    intro j _
    rw [e1 i hi]; simp [hne]

/-! ## npz -/

def ntask : NPc → Option Nat
  | .idle => none
  | .extracted i => some i
  | .wroteRow i => some i
  | .wroteCol i => some i

structure NInv (n : Nat) (ents : Nat → List (Entry V)) (s : NSt V) : Prop where
  nextle : s.next ≤ n
  lt : ∀ t i, ntask (s.pc t) = some i → i < s.next
  uniq : ∀ t t' i, ntask (s.pc t) = some i → ntask (s.pc t') = some i → t = t'
  buf : ∀ t i, ntask (s.pc t) = some i → s.buf t = ents i
  keys : ∀ k, (∃ i, s.next ≤ i ∧ (k = .row i ∨ k = .col i ∨ k = .data i)) ∨ k = .shape ∨ k = .nframes ∨ k = .dtype
      ∨ (∃ x, k = .other x) → s.arrd k = none
  row : ∀ t i, (s.pc t = .wroteRow i ∨ s.pc t = .wroteCol i) → s.arrd (.row i) = some (.nats ((ents i).map Entry.row))
  col : ∀ t i, s.pc t = .wroteCol i → s.arrd (.col i) = some (.nats ((ents i).map Entry.col))
  done : ∀ i, i < s.next → (∀ t, ntask (s.pc t) ≠ some i) →
    s.arrd (.row i) = some (.nats ((ents i).map Entry.row)) ∧
    s.arrd (.col i) = some (.nats ((ents i).map Entry.col)) ∧
    s.arrd (.data i) = some (.vals ((ents i).map Entry.val))

theorem ninv_init (n : Nat) (ents : Nat → List (Entry V)) : NInv n ents (npzInit : NSt V) := by
  constructor <;> simp [npzInit, ntask]

theorem ntask_upd {pc : Nat → NPc} {t : Nat} {p : NPc} (h : ntask p = ntask (pc t)) (u : Nat) :
    ntask (if u = t then p else pc u) = ntask (pc u) := by
  split
  · rename_i hu; subst hu; exact h
  · rfl

theorem ninv_step {n : Nat} {ents : Nat → List (Entry V)} {s : NSt V} (hI : NInv n ents s) (t : Nat) :
    NInv n ents (npzStep n ents s t) := by
  unfold npzStep
  split
  · rename_i hp
    split
    · rename_i hlt
      refine ⟨hlt, ?_, ?_, ?_, ?_, ?_, ?_, ?_⟩
      · intro u i h; simp only at h ⊢
        split at h
        · simp [ntask] at h; omega
        · have := hI.lt u i h; omega
      · intro u u' i h h'; simp only at h h'
        split at h <;> split at h'
        · omega
        · simp [ntask] at h; have := hI.lt u' i h'; omega
        · simp [ntask] at h'; have := hI.lt u i h; omega
        · exact hI.uniq u u' i h h'
      · intro u i h; simp only at h ⊢
        split at h
        · rename_i hu; subst hu; simp [ntask] at h; subst h; rw [upd_same]
        · rename_i hu; rw [upd_ne _ _ hu]; exact hI.buf u i h
      · intro k hk
        apply hI.keys
        rcases hk with ⟨i, hi, h⟩ | h
        · exact Or.inl ⟨i, by simp only at hi; omega, h⟩
        · exact Or.inr h
      · intro u i h; simp only at h ⊢
        apply hI.row u i
        rcases h with h | h <;> split at h <;> simp_all
      · intro u i h; simp only at h ⊢
        apply hI.col u i
        split at h <;> simp_all
      · intro i hi hno; simp only at hi hno ⊢
        have h1 : i ≠ s.next := by
          intro h; have := hno t; simp [ntask, h] at this
        apply hI.done i (by omega)
        intro u hu
        have := hno u
        split at this
        · rename_i h; subst h; rw [hp] at hu; simp [ntask] at hu
        · exact this hu
    · exact hI
  · rename_i i hp
    have ht : ntask (s.pc t) = some i := by rw [hp]; rfl
    have tk := ntask_upd (pc := s.pc) (t := t) (p := .wroteRow i) (by rw [ht]; rfl)
    have hlt := hI.lt t i ht
    refine ⟨hI.nextle, ?_, ?_, ?_, ?_, ?_, ?_, ?_⟩
    · intro u j h; exact hI.lt u j (by rw [← tk u]; exact h)
    · intro u u' j h h'; exact hI.uniq u u' j (by rw [← tk u]; exact h) (by rw [← tk u']; exact h')
    · intro u j h; exact hI.buf u j (by rw [← tk u]; exact h)
    · intro k hk
      simp only [updK]
      split
      · rename_i h; subst h; simp at hk; omega
      · exact hI.keys k hk
    · intro u j h
      simp only [updK] at h ⊢
      by_cases hji : j = i
      · subst hji; simp [hI.buf t j ht]
      · rw [if_neg (by simp [hji])]
        apply hI.row u j
        rcases h with h | h <;> split at h <;> simp_all
    · intro u j h
      simp only [updK] at h ⊢
      simp only [reduceCtorEq, if_false]
      apply hI.col u j
      split at h <;> simp_all
    · intro j hj hno
      simp only [updK] at hj hno ⊢
      have hno' : ∀ u, ntask (s.pc u) ≠ some j := fun u => by rw [← tk u]; exact hno u
      have hji : j ≠ i := by intro h; subst h; exact hno' t ht
      simp only [NKey.row.injEq, hji, reduceCtorEq, if_false]
      exact hI.done j hj hno'
  · rename_i i hp
    have ht : ntask (s.pc t) = some i := by rw [hp]; rfl
    have tk := ntask_upd (pc := s.pc) (t := t) (p := .wroteCol i) (by rw [ht]; rfl)
    have hlt := hI.lt t i ht
    refine ⟨hI.nextle, ?_, ?_, ?_, ?_, ?_, ?_, ?_⟩
    · intro u j h; exact hI.lt u j (by rw [← tk u]; exact h)
    · intro u u' j h h'; exact hI.uniq u u' j (by rw [← tk u]; exact h) (by rw [← tk u']; exact h')
    · intro u j h; exact hI.buf u j (by rw [← tk u]; exact h)
    · intro k hk
      simp only [updK]
      split
      · rename_i h; subst h; simp at hk; omega
      · exact hI.keys k hk
    · intro u j h
      simp only [updK] at h ⊢
      simp only [reduceCtorEq, if_false]
      by_cases hu : u = t
      · subst hu; simp at h; subst h; exact hI.row u i (Or.inl hp)
      · simp only [hu, if_false] at h; exact hI.row u j h
    · intro u j h
      simp only [updK] at h ⊢
      by_cases hji : j = i
      · subst hji; simp [hI.buf t j ht]
      · rw [if_neg (by simp [hji])]
        by_cases hu : u = t
        · subst hu; simp at h; omega
        · simp only [hu, if_false] at h; exact hI.col u j h
    · intro j hj hno
      simp only [updK] at hj hno ⊢
      have hno' : ∀ u, ntask (s.pc u) ≠ some j := fun u => by rw [← tk u]; exact hno u
      have hji : j ≠ i := by intro h; subst h; exact hno' t ht
      simp only [NKey.col.injEq, hji, reduceCtorEq, if_false]
      exact hI.done j hj hno'
  · rename_i i hp
    have ht : ntask (s.pc t) = some i := by rw [hp]; rfl
    have hlt := hI.lt t i ht
    have tk : ∀ u j, ntask (if u = t then .idle else s.pc u) = some j → ntask (s.pc u) = some j ∧ j ≠ i := by
      intro u j h
      split at h
      · simp [ntask] at h
      · rename_i hu
        refine ⟨h, ?_⟩
        intro hji; subst hji; exact hu (hI.uniq u t j h ht)
    refine ⟨hI.nextle, ?_, ?_, ?_, ?_, ?_, ?_, ?_⟩
    · intro u j h; exact hI.lt u j (tk u j h).1
    · intro u u' j h h'; exact hI.uniq u u' j (tk u j h).1 (tk u' j h').1
    · intro u j h; exact hI.buf u j (tk u j h).1
    · intro k hk
      simp only [updK]
      split
      · rename_i h; subst h; simp at hk; omega
      · exact hI.keys k hk
    · intro u j h
      simp only [updK] at h ⊢
      simp only [reduceCtorEq, if_false]
      apply hI.row u j
      rcases h with h | h <;> split at h <;> simp_all
    · intro u j h
      simp only [updK] at h ⊢
      simp only [reduceCtorEq, if_false]
      apply hI.col u j
      split at h <;> simp_all
    · intro j hj hno
      simp only [updK] at hj hno ⊢
      simp only [NKey.data.injEq, reduceCtorEq, if_false]
      by_cases hji : j = i
      · subst hji
        refine ⟨hI.row t j (Or.inr hp), hI.col t j hp, ?_⟩
        simp [hI.buf t j ht]
      · rw [if_neg hji]
        apply hI.done j hj
        intro u hu
        have := hno u
        split at this
        · rename_i h; subst h; rw [ht] at hu; cases hu; exact hji rfl
        · exact this hu

theorem ninv_run (n : Nat) (ents : Nat → List (Entry V)) : ∀ (sched : List Nat) (s : NSt V),
    NInv n ents s → NInv n ents (npzRun n ents s sched) := by
  intro sched
  induction sched with
  | nil => intro s h; exact h
  | cons t ts ih => intro s h; exact ih _ (ninv_step h t)

theorem npzUpdate_notMem (md : List (NKey × NVal V)) (k : NKey) :
    ∀ (d : NKey → Option (NVal V)), (∀ kv ∈ md, kv.1 ≠ k) → npzUpdate d md k = d k := by
  induction md with
  | nil => intro d _; rfl
  | cons kv md ih =>
    intro d h
    show npzUpdate _ md k = d k
    rw [ih _ (fun kv' h' => h kv' (List.mem_cons_of_mem _ h'))]
    simp [Ne.symm (h kv List.mem_cons_self)]

theorem npzUpdate_mem (md : List (NKey × NVal V)) (k : NKey) (v : NVal V)
    (hnd : (md.map Prod.fst).Nodup) :
    ∀ (d : NKey → Option (NVal V)), (k, v) ∈ md → npzUpdate d md k = some v := by
  induction md with
  | nil => intro d h; simp at h
  | cons kv md ih =>
    intro d h
    show npzUpdate _ md k = some v
    simp only [List.map_cons, List.nodup_cons] at hnd
    rcases List.mem_cons.1 h with h | h
    · subst h
      rw [npzUpdate_notMem]
      · simp
      · intro kv' h' he; exact hnd.1 (List.mem_map.2 ⟨kv', h', he⟩)
    · exact ih hnd.2 _ h

theorem zip_entries (l : List (Entry V)) :
    ((l.map Entry.row).zip ((l.map Entry.col).zip (l.map Entry.val))).map (fun p => (⟨p.1, p.2.1, p.2.2⟩ : Entry V)) = l := by
  induction l with
  | nil => rfl
  | cons e l ih => simp [ih]

/-! ## the lock -/

def inCrit : LPc → Bool
  | .locked | .loading | .loaded | .release => true
  | _ => false

structure LInv {F : Type} (content : F) (s : LSt F) : Prop where
  crit : ∀ t, inCrit (s.pc t) = true ↔ s.lock = some t
  flag : s.flag = true → s.frames = some content ∧ s.loads = 1
  loaded : ∀ t, s.pc t = .loaded → s.frames = some content ∧ s.loads = 1 ∧ s.flag = false
  noload : s.flag = false → (∀ t, s.pc t ≠ .loaded) → s.loads = 0
  loading : ∀ t, s.pc t = .loading → s.flag = false
  use : ∀ t, s.pc t = .use ∨ s.pc t = .release → s.flag = true

theorem linv_init {F : Type} (content : F) : LInv content (lockInit : LSt F) := by
  constructor <;> simp [lockInit, inCrit]

theorem linv_step {F : Type} {content : F} {s : LSt F} (hI : LInv content s) (ev : Nat × Bool) :
    LInv content (lockStep content s ev) := by
  obtain ⟨t, ok⟩ := ev
  have only : ∀ u, inCrit (s.pc t) = true → inCrit (s.pc u) = true → u = t := by
    intro u h1 h2
    have a := (hI.crit t).1 h1
    have b := (hI.crit u).1 h2
    rw [a] at b; simpa using b.symm
  unfold lockStep
  dsimp only
  split
  · rename_i hp
    split
    · rename_i hf
      constructor
      · intro u; have := hI.crit u; simp only [setPc]; by_cases hu : u = t
        · subst hu; simp_all [inCrit]
        · simp_all
      · exact hI.flag
      · intro u h; simp only [setPc] at h; split at h
        · cases h
        · exact hI.loaded u h
      · intro hf'; simp only [setPc] at hf'; rw [hf] at hf'; cases hf'
      · intro u h; simp only [setPc] at h; split at h
        · cases h
        · exact hI.loading u h
      · intro u _; exact hf
    · rename_i hf
      constructor
      · intro u; have := hI.crit u; simp only [setPc]; by_cases hu : u = t
        · subst hu; simp_all [inCrit]
        · simp_all
      · exact hI.flag
      · intro u h; simp only [setPc] at h; split at h
        · cases h
        · exact hI.loaded u h
      · intro hf' hn
        apply hI.noload hf'
        intro u hu; have := hn u; simp only [setPc] at this
        split at this
        · rename_i h; subst h; rw [hp] at hu; cases hu
        · exact this hu
      · intro u h; simp only [setPc] at h; split at h
        · cases h
        · exact hI.loading u h
      · intro u h; simp only [setPc] at h; split at h
        · simp at h
        · exact hI.use u h
  · rename_i hp
    split
    · rename_i hl
      have nocrit : ∀ u, inCrit (s.pc u) = false := by
        intro u; cases h : inCrit (s.pc u)
        · rfl
        · have := (hI.crit u).1 h; rw [hl] at this; cases this
      constructor
      · intro u; simp only [setPc]; by_cases hu : u = t
        · subst hu; simp [inCrit]
        · simp only [hu, if_false, nocrit u]; simp [Ne.symm hu]
      · exact hI.flag
      · intro u h; simp only [setPc] at h; split at h
        · cases h
        · exact hI.loaded u h
      · intro hf' hn
        apply hI.noload hf'
        intro u hu; have := nocrit u; rw [hu] at this; cases this
      · intro u h; simp only [setPc] at h; split at h
        · cases h
        · exact hI.loading u h
      · intro u h; simp only [setPc] at h; split at h
        · simp at h
        · exact hI.use u h
    · exact hI
  · rename_i hp
    have hct : inCrit (s.pc t) = true := by rw [hp]; rfl
    have hlk := (hI.crit t).1 hct
    have oth : ∀ u, u ≠ t → inCrit (s.pc u) = false := by
      intro u hu; cases h : inCrit (s.pc u)
      · rfl
      · exact absurd (only u hct h) hu
    split
    · rename_i hf
      constructor
      · intro u; simp only [setPc]; by_cases hu : u = t
        · subst hu; simp [inCrit, hlk]
        · simp only [hu, if_false]; exact hI.crit u
      · exact hI.flag
      · intro u h; simp only [setPc] at h; split at h
        · cases h
        · exact hI.loaded u h
      · intro hf'; simp only [setPc] at hf'; rw [hf] at hf'; cases hf'
      · intro u h; simp only [setPc] at h; split at h
        · cases h
        · exact hI.loading u h
      · intro u _; exact hf
    · rename_i hf
      constructor
      · intro u; simp only [setPc]; by_cases hu : u = t
        · subst hu; simp [inCrit, hlk]
        · simp only [hu, if_false]; exact hI.crit u
      · exact hI.flag
      · intro u h; simp only [setPc] at h; split at h
        · cases h
        · exact hI.loaded u h
      · intro hf' hn
        apply hI.noload hf'
        intro u hu
        by_cases hut : u = t
        · subst hut; rw [hp] at hu; cases hu
        · have := oth u hut; rw [hu] at this; cases this
      · intro u _; simp only [Bool.not_eq_true] at hf; exact hf
      · intro u h; simp only [setPc] at h; split at h
        · simp at h
        · exact hI.use u h
  · rename_i hp
    have hct : inCrit (s.pc t) = true := by rw [hp]; rfl
    have hlk := (hI.crit t).1 hct
    have hf := hI.loading t hp
    have oth : ∀ u, u ≠ t → inCrit (s.pc u) = false := by
      intro u hu; cases h : inCrit (s.pc u)
      · rfl
      · exact absurd (only u hct h) hu
    have h0 : s.loads = 0 := by
      apply hI.noload hf
      intro u hu
      by_cases hut : u = t
      · subst hut; rw [hp] at hu; cases hu
      · have := oth u hut; rw [hu] at this; cases this
    split
    · constructor
      · intro u; simp only [setPc]; by_cases hu : u = t
        · subst hu; simp [inCrit, hlk]
        · simp only [hu, if_false]; exact hI.crit u
      · intro h; simp only [setPc] at h; rw [hf] at h; cases h
      · intro u _; exact ⟨rfl, by simp [h0], hf⟩
      · intro _ hn; have := hn t; simp [setPc] at this
      · intro u _; exact hf
      · intro u h; simp only [setPc] at h; split at h
        · simp at h
        · exact hI.use u h
    · constructor
      · intro u; simp only [setPc]; by_cases hu : u = t
        · subst hu; simp [inCrit]
        · simp only [hu, if_false, oth u hu]; simp
      · intro h; simp only [setPc] at h; rw [hf] at h; cases h
      · intro u h; simp only [setPc] at h; split at h
        · cases h
        · exact hI.loaded u h
      · intro _ _; exact h0
      · intro u _; exact hf
      · intro u h; simp only [setPc] at h; split at h
        · simp at h
        · exact hI.use u h
  · rename_i hp
    have hct : inCrit (s.pc t) = true := by rw [hp]; rfl
    have hlk := (hI.crit t).1 hct
    obtain ⟨hfr, hld, hf⟩ := hI.loaded t hp
    have oth : ∀ u, u ≠ t → inCrit (s.pc u) = false := by
      intro u hu; cases h : inCrit (s.pc u)
      · rfl
      · exact absurd (only u hct h) hu
    constructor
    · intro u; simp only [setPc]; by_cases hu : u = t
      · subst hu; simp [inCrit, hlk]
      · simp only [hu, if_false]; exact hI.crit u
    · intro _; exact ⟨hfr, hld⟩
    · intro u h; simp only [setPc] at h; split at h
      · cases h
      · rename_i hu; have := oth u hu; rw [h] at this; cases this
    · intro h; simp at h
    · intro u h; simp only [setPc] at h; split at h
      · cases h
      · rename_i hu; have := oth u hu; rw [h] at this; cases this
    · intro u _; rfl
  · rename_i hp
    have hct : inCrit (s.pc t) = true := by rw [hp]; rfl
    have hlk := (hI.crit t).1 hct
    have hf := hI.use t (Or.inr hp)
    have oth : ∀ u, u ≠ t → inCrit (s.pc u) = false := by
      intro u hu; cases h : inCrit (s.pc u)
      · rfl
      · exact absurd (only u hct h) hu
    constructor
    · intro u; simp only [setPc]; by_cases hu : u = t
      · subst hu; simp [inCrit]
      · simp only [hu, if_false, oth u hu]; simp
    · exact hI.flag
    · intro u h; simp only [setPc] at h; split at h
      · cases h
      · exact hI.loaded u h
    · intro h; simp only [setPc] at h; rw [hf] at h; cases h
    · intro u h; simp only [setPc] at h; split at h
      · cases h
      · exact hI.loading u h
    · intro u _; exact hf
  · exact hI
  · exact hI

theorem linv_run {F : Type} (content : F) (evs : List (Nat × Bool)) : LInv content (lockRun content evs) := by
  unfold lockRun
  suffices h : ∀ (evs : List (Nat × Bool)) (s : LSt F), LInv content s → LInv content (evs.foldl (lockStep content) s) from
    h evs _ (linv_init content)
  intro evs
  induction evs with
  | nil => intro s h; exact h
  | cons e es ih => intro s h; exact ih _ (linv_step h e)

/-! ## a schedule that finishes -/

theorem runSched_append (n : Nat) (ents : Nat → List (Entry V)) (s : St V) (a b : List Nat) :
    runSched n ents s (a ++ b) = runSched n ents (runSched n ents s a) b := by
  simp [runSched, List.foldl_append]

theorem seq_one (n : Nat) (ents : Nat → List (Entry V)) (s : St V) (hid : ∀ t, s.pc t = .idle) (hn : s.next < n) :
    (∀ t, (runSched n ents s (List.replicate 6 0)).pc t = .idle) ∧
    (runSched n ents s (List.replicate 6 0)).next = s.next + 1 := by
  simp only [runSched, List.replicate, List.foldl_cons, List.foldl_nil]
  have e1 : step n ents s 0 =
      { s with
        pc := upd s.pc 0 (.extracted s.next)
        buf := upd s.buf 0 (ents s.next)
        next := s.next + 1 } := by simp [step, hid, hn]
  rw [e1]
  simp only [step, upd_same]
  refine ⟨?_, trivial⟩
  intro t
  by_cases h : t = 0
  · simp [upd, h]
  · simp [upd, h, hid]

theorem seq_finish (n : Nat) (ents : Nat → List (Entry V)) : ∀ (k : Nat) (s : St V), (∀ t, s.pc t = .idle) →
    s.next + k = n → Finished n (runSched n ents s (List.replicate (6 * k) 0)) := by
  intro k
  induction k with
  | zero => intro s hid hk; exact ⟨by simpa [runSched] using hk, hid⟩
  | succ k ih =>
    intro s hid hk
    have hr : List.replicate (6 * (k + 1)) 0 = List.replicate 6 0 ++ List.replicate (6 * k) 0 := by
      rw [List.replicate_append_replicate]; congr 1; omega
    rw [hr, runSched_append]
    obtain ⟨h1, h2⟩ := seq_one n ents s hid (by omega)
    exact ih _ h1 (by omega)

theorem extract_length_le (above : V → Bool) (w h : Nat) (im : Nat → Nat → V) :
    (extract above w h im).length ≤ w * h := by
  unfold extract
  induction w with
  | zero => simp
  | succ w ih =>
    rw [List.range_succ, List.flatMap_append, List.length_append, Nat.succ_mul]
    refine Nat.add_le_add ih ?_
    simp only [List.flatMap_cons, List.flatMap_nil, List.append_nil]
    refine Nat.le_trans (List.length_filterMap_le _ _) ?_
    simp

theorem readFrame_done {n : Nat} {ents : Nat → List (Entry V)} {s : St V} {R : Nat → Option Nat}
    (hI : Inv n ents s R) (hF : Finished n s) (dflt : Entry V) (i : Nat) (hi : i < n) :
    readFrame dflt s i = ents i := by
  obtain ⟨a, h1, h2, h3, h4, h5⟩ := hI.done i (by rw [hF.1]; exact hi) (fun t => by rw [hF.2 t]; simp [task])
  have hle := (hI.rlt i a h1).2
  unfold readFrame
  rw [h4, h5, hI.tot, Nat.min_eq_left hle, show a + (ents i).length - a = (ents i).length by omega]
  apply List.ext_getElem
  · simp
  · intro k hk hk'
    have e := List.getElem?_eq_getElem hk'
    simp only [List.getElem_map, List.getElem_range', Nat.one_mul]
    rw [h2 k _ e, h3 k _ e]

theorem step_pc_other (n : Nat) (ents : Nat → List (Entry V)) (s : St V) (t u : Nat) (h : u ≠ t) :
    (step n ents s t).pc u = s.pc u := by
  unfold step; split
  · split <;> simp [upd, h]
  all_goals simp [upd, h]

theorem runSched_pc_other (n : Nat) (ents : Nat → List (Entry V)) (u : Nat) : ∀ (sched : List Nat) (s : St V),
    u ∉ sched → (runSched n ents s sched).pc u = s.pc u := by
  intro sched
  induction sched with
  | nil => intro s _; rfl
  | cons t ts ih =>
    intro s h
    simp only [List.mem_cons, not_or] at h
    show (runSched n ents (step n ents s t) ts).pc u = s.pc u
    rw [ih _ h.2, step_pc_other n ents s t u h.1]

theorem npzStep_pc_other (n : Nat) (ents : Nat → List (Entry V)) (s : NSt V) (t u : Nat) (h : u ≠ t) :
    (npzStep n ents s t).pc u = s.pc u := by
  unfold npzStep; split
  · split <;> simp [h]
  all_goals simp [h]

theorem npzRun_pc_other (n : Nat) (ents : Nat → List (Entry V)) (u : Nat) : ∀ (sched : List Nat) (s : NSt V),
    u ∉ sched → (npzRun n ents s sched).pc u = s.pc u := by
  intro sched
  induction sched with
  | nil => intro s _; rfl
  | cons t ts ih =>
    intro s h
    simp only [List.mem_cons, not_or] at h
    show (npzRun n ents (npzStep n ents s t) ts).pc u = s.pc u
    rw [ih _ h.2, npzStep_pc_other n ents s t u h.1]

end Hexrd.FrameCache
