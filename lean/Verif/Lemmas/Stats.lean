import Verif.Model.Stats
namespace Hexrd.Stats

/-- Strictly increasing from a (exclusive lower bound given as `a ≤`). -/
def Inc : Nat → List Nat → Prop
  | _, [] => True
  | a, x :: xs => a ≤ x ∧ Inc (x+1) xs

theorem cumsum_length : ∀ (l : List Nat) a, (cumsum a l).length = l.length := by
  intro l; induction l with
  | nil => intro a; rfl
  | cons x xs ih => intro a; simp [cumsum, ih]

theorem cumsum_inc : ∀ (l : List Nat) a, (∀ x ∈ l, 0 < x) → Inc (a+1) (cumsum a l) := by
  intro l; induction l with
  | nil => intro a _; trivial
  | cons x xs ih =>
    intro a h
    exact ⟨by have := h x (by simp); omega, ih _ (fun y hy => h y (by simp [hy]))⟩

theorem cumsum_getLast : ∀ (l : List Nat) a, l ≠ [] → (cumsum a l).getLast? = some (a + l.sum) := by
  intro l; induction l with
  | nil => intro a h; exact absurd rfl h
  | cons x xs ih =>
    intro a _
    cases xs with
    | nil => simp [cumsum]
    | cons y ys =>
      have := ih (a + x) (by simp)
      rw [cumsum, List.getLast?_cons, this]
      simp; omega

theorem sum_pieces (csize : Nat) : ∀ k rem, rem ≤ k →
    ((List.range k).map fun i => if i < rem then csize + 1 else csize).sum = k * csize + rem := by
  intro k
  induction k with
  | zero => intro rem h; have : rem = 0 := by omega
            simp [this]
  | succ k ih =>
    intro rem h
    rw [List.range_succ, List.map_append, List.sum_append]
    by_cases hk : k < rem
    · have hr : rem = k + 1 := by omega
      subst hr
      have h2 : ((List.range k).map fun i => if i < k + 1 then csize + 1 else csize) =
          ((List.range k).map fun i => if i < k then csize + 1 else csize) := by
        apply List.map_congr_left
        intro i hi
        have := List.mem_range.1 hi
        rw [if_pos (by omega), if_pos this]
      rw [h2, ih k (by omega)]; simp [Nat.succ_mul]; omega
    · rw [ih rem (by omega)]; simp [hk, Nat.succ_mul]; omega

theorem chunkStops_spec (n k : Nat) (hk : 0 < k) (hkn : k ≤ n) :
    ∃ s ss, chunkStops n k = some (s :: ss) ∧ Inc (s+1) ss ∧ (s :: ss).getLast? = some (n - 1) ∧
      (s :: ss).length = k := by
  unfold chunkStops
  rw [if_neg (by omega), if_neg (by omega)]
  obtain ⟨k', rfl⟩ : ∃ k', k = k' + 1 := ⟨k - 1, by omega⟩
  have hcs : 0 < n / (k'+1) := Nat.div_pos hkn (by omega)
  have hrem : n % (k'+1) ≤ k' + 1 := Nat.le_of_lt (Nat.mod_lt _ (by omega))
  have hsum := sum_pieces (n / (k'+1)) (k'+1) (n % (k'+1)) hrem
  generalize hg : ((List.range (k'+1)).map fun i => if i < n % (k'+1) then n / (k'+1) + 1 else n / (k'+1)) = pieces at hsum
  have hpos : ∀ x ∈ pieces, 0 < x := by
    intro x hx; rw [← hg] at hx
    obtain ⟨i, _, rfl⟩ := List.mem_map.1 hx
    split <;> omega
  have hlen : pieces.length = k' + 1 := by rw [← hg]; simp
  cases pieces with
  | nil => simp at hlen
  | cons p ps =>
    have hp := hpos p (by simp)
    refine ⟨0 + (p-1), cumsum (0 + (p-1)) ps, by dsimp only; rw [hg]; rfl, ?_, ?_, ?_⟩
    · exact cumsum_inc ps _ (fun y hy => hpos y (by simp [hy]))
    · have := cumsum_getLast ((p-1) :: ps) 0 (by simp)
      rw [cumsum] at this; rw [this]
      congr 1
      have hd := Nat.div_add_mod n (k'+1)
      simp only [List.sum_cons] at hsum ⊢
      omega
    · have := cumsum_length ((p-1)::ps) 0
      rw [cumsum] at this; rw [this]; simpa using hlen

/-- Running image after frames `0..i`. -/
def pre {I : Type} (op : I → I → I) (frame : Nat → I) : Nat → I
  | 0 => frame 0
  | i+1 => op (pre op frame i) (frame (i+1))

theorem foldl_pre {I : Type} (op : I → I → I) (frame : Nat → I) : ∀ k i,
    (List.range' (i+1) k).foldl (fun img i => op img (frame i)) (pre op frame i) = pre op frame (i+k) := by
  intro k
  induction k with
  | zero => intro i; simp
  | succ k ih =>
    intro i
    rw [List.range'_succ, List.foldl_cons]
    have := ih (i+1)
    rw [show i + (k+1) = i + 1 + k by omega]
    rw [← this]; rfl

theorem full_eq_pre {I : Type} (op : I → I → I) (frame : Nat → I) (nf : Nat) :
    full op frame nf = pre op frame (nf - 1) := by
  have := foldl_pre op frame (nf-1) 0
  simpa [full, pre] using this

theorem Inc_mono : ∀ (l : List Nat) a b, b ≤ a → Inc a l → Inc b l := by
  intro l; cases l with
  | nil => intros; trivial
  | cons x xs => intro a b h hI; exact ⟨by have := hI.1; omega, hI.2⟩

theorem Inc_getLast : ∀ (l : List Nat) a x, Inc a l → l.getLast? = some x → a ≤ x := by
  intro l; induction l with
  | nil => intro a x _ h; simp at h
  | cons y ys ih =>
    intro a x hI h
    cases ys with
    | nil => simp at h; have := hI.1; omega
    | cons z zs =>
      rw [List.getLast?_cons_cons] at h
      have := ih _ _ hI.2 h; have := hI.1; omega

theorem iterLoop_spec {I : Type} (op : I → I → I) (frame : Nat → I) (nf : Nat) (stops : List Nat) :
    ∀ k i s0 stop more, i + (k + 1) = nf → stops.drop s0 = stop :: more → i < stop →
      Inc (stop+1) more → (stop :: more).getLast? = some (nf - 1) →
    iterLoop op frame nf stops k (i+1) (pre op frame i) s0 stop =
      some ((stop :: more).map fun s => (s, pre op frame s), pre op frame (nf-1)) := by
  intro k
  induction k with
  | zero =>
    intro i s0 stop more hk hd hi hI hl
    have := Inc_getLast (stop :: more) stop _ ⟨Nat.le_refl _, hI⟩ hl
    omega
  | succ k ih =>
    intro i s0 stop more hk hd hi hI hl
    rw [iterLoop]
    have himg : op (pre op frame i) (frame (i+1)) = pre op frame (i+1) := rfl
    simp only [himg]
    by_cases hs : i + 1 ≥ stop
    · have hst : stop = i + 1 := by omega
      subst hst
      rw [if_pos hs]
      cases more with
      | nil =>
        simp at hl
        have hk0 : k = 0 := by omega
        subst hk0
        rw [if_neg (by omega)]
        simp [iterLoop]
        congr 1
      | cons s' more' =>
        have hle := Inc_getLast (s' :: more') _ _ hI (by rw [← hl, List.getLast?_cons_cons])
        rw [if_pos (by omega)]
        have hd' : stops.drop (s0+1) = s' :: more' := by
          rw [← List.drop_drop, hd]; rfl
        have hget : stops[s0+1]? = some s' := by
          rw [← List.head?_drop, hd']; rfl
        rw [hget]
        simp only
        rw [ih (i+1) (s0+1) s' more' (by omega) hd' (by have := hI.1; omega) hI.2
          (by rw [← hl, List.getLast?_cons_cons])]
        simp
    · rw [if_neg hs]
      exact ih (i+1) s0 stop more (by omega) hd (by omega) hI hl

end Hexrd.Stats
