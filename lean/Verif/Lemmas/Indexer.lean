import Verif.Model.Indexer
import Verif.Spec.Indexer
import Verif.Props.Angles
import Mathlib.Tactic.Linarith
import Mathlib.Tactic.Ring
import Mathlib.Tactic.Push
import Mathlib.Tactic.Positivity

/-! # Lemmas for the indexer -/
namespace Hexrd.Indexer

open Hexrd.Angles Spec

noncomputable section

/-! ### Bisection -/

theorem bisect_spec (x : ℝ) (l : List ℝ) (hl : l.Pairwise (· ≤ ·)) (li ri : Nat) (h1 : li ≤ ri) (h2 : ri ≤ l.length)
    (hlo : ∀ i (h : i < l.length), i < li → l[i] ≤ x) (hhi : ∀ i (h : i < l.length), ri ≤ i → x < l[i]) :
    bisect x l li ri ≤ l.length ∧ (∀ i (h : i < l.length), i < bisect x l li ri → l[i] ≤ x) ∧
      ∀ i (h : i < l.length), bisect x l li ri ≤ i → x < l[i] := by
  rw [List.pairwise_iff_getElem] at hl
  induction hn : ri - li using Nat.strong_induction_on generalizing li ri with
  | _ n ih =>
    unfold bisect
    by_cases h : li < ri
    · rw [dif_pos h]
      have hm : (li + ri) / 2 < l.length := by omega
      have hg : l.getD ((li + ri) / 2) 0 = l[(li + ri) / 2] := by simp [List.getD, hm]
      simp only [hg]
      by_cases hx : x < l[(li + ri) / 2]
      · rw [if_pos hx]
        refine ih ((li + ri) / 2 - li) (by omega) li _ (by omega) (by omega) hlo ?_ rfl
        intro i hi hle
        rcases Nat.lt_or_ge ((li + ri) / 2) i with h' | h'
        · exact lt_of_lt_of_le hx (hl _ _ hm hi h')
        · have : i = (li + ri) / 2 := by omega
          subst this; exact hx
      · rw [if_neg hx]
        push Not at hx
        refine ih (ri - ((li + ri) / 2 + 1)) (by omega) _ ri (by omega) h2 ?_ hhi rfl
        intro i hi hle
        rcases Nat.lt_or_ge i ((li + ri) / 2) with h' | h'
        · exact le_trans (hl _ _ hi hm h') hx
        · have : i = (li + ri) / 2 := by omega
          subst this; exact hx
    · rw [dif_neg h]
      have : li = ri := by omega
      subst this
      exact ⟨h2, hlo, hhi⟩

/-- Number of entries that are at most `x`. -/
def cnt (x : ℝ) (l : List ℝ) : Nat := open Classical in l.countP fun y => decide (y ≤ x)

theorem bisect_eq_cnt (x : ℝ) (l : List ℝ) (hl : l.Pairwise (· ≤ ·)) : bisect x l 0 l.length = cnt x l := by
  classical
  obtain ⟨h1, h2, h3⟩ := bisect_spec x l hl 0 l.length (Nat.zero_le _) le_rfl (fun i _ h => absurd h (by omega))
    (fun i h h' => absurd h (by omega))
  generalize bisect x l 0 l.length = k at *
  have ht : (l.take k).countP (fun y => decide (y ≤ x)) = (l.take k).length := by
    rw [List.countP_eq_length]
    intro y hy
    obtain ⟨i, hi, rfl⟩ := List.mem_iff_getElem.1 hy
    rw [List.getElem_take]
    rw [List.length_take] at hi
    simpa using h2 i (by omega) (by omega)
  have hd : (l.drop k).countP (fun y => decide (y ≤ x)) = 0 := by
    rw [List.countP_eq_zero]
    intro y hy
    obtain ⟨i, hi, rfl⟩ := List.mem_iff_getElem.1 hy
    rw [List.getElem_drop]
    rw [List.length_drop] at hi
    simpa using h3 (k + i) (by omega) (by omega)
  unfold cnt
  conv_rhs => rw [← List.take_append_drop k l, List.countP_append]
  rw [ht, hd, List.length_take]
  omega

/-- The flat list of pairs: inside a pair exactly if the number of entries passed is odd. -/
theorem cnt_flat (x : ℝ) (P : List (ℝ × ℝ)) (h : (flat P).Pairwise (· ≤ ·)) :
    cnt x (flat P) % 2 = 1 ↔ ∃ p ∈ P, p.1 ≤ x ∧ x < p.2 := by
  classical
  induction P with
  | nil => simp [flat, cnt]
  | cons p P ih =>
    obtain ⟨s, t⟩ := p
    have hf : flat ((s, t) :: P) = s :: t :: flat P := by simp [flat]
    rw [hf] at h ⊢
    rw [List.pairwise_cons, List.pairwise_cons] at h
    obtain ⟨hs, ht, hP⟩ := h
    have hst : s ≤ t := hs t (by simp)
    have hmem : ∀ p ∈ P, p.1 ∈ flat P := fun p hp => List.mem_flatMap.2 ⟨p, hp, by simp⟩
    have hz : x < t → cnt x (flat P) = 0 := by
      intro hx
      unfold cnt
      rw [List.countP_eq_zero]
      intro z hz
      simpa using lt_of_lt_of_le hx (ht z hz)
    have hno : x < t → ¬ ∃ p ∈ P, p.1 ≤ x ∧ x < p.2 := by
      rintro hx ⟨p, hp, h1, -⟩
      exact absurd (ht _ (hmem p hp)) (by push Not; linarith)
    have hc : cnt x (s :: t :: flat P) = cnt x (flat P) + (if t ≤ x then 1 else 0) + (if s ≤ x then 1 else 0) := by
      unfold cnt
      rw [List.countP_cons, List.countP_cons]
      simp
    rw [hc]
    simp only [List.mem_cons, exists_eq_or_imp]
    rcases lt_or_ge x s with h1 | h1
    · have h2 : x < t := by linarith
      rw [hz h2, if_neg (by linarith), if_neg (by linarith)]
      have := hno h2
      simp only [this, or_false]
      constructor
      · intro h; omega
      · intro h; linarith [h.1]
    · rcases lt_or_ge x t with h2 | h2
      · rw [hz h2, if_neg (by linarith), if_pos h1]
        simp [h1, h2]
      · rw [if_pos h2, if_pos h1, ← ih hP]
        have : ¬ (s ≤ x ∧ x < t) := fun h => by linarith [h.2]
        simp only [this, false_or]
        omega

theorem flat_length (P : List (ℝ × ℝ)) : (flat P).length = 2 * P.length := by
  induction P with
  | nil => rfl
  | cons p P ih =>
    have : flat (p :: P) = p.1 :: p.2 :: flat P := by simp [flat]
    rw [this]; simp [ih]; ring

/-- `_find_in_range` on a sorted list. -/
theorem findInRange_eq (x : ℝ) (l : List ℝ) (hl : l.Pairwise (· ≤ ·)) (hne : l ≠ []) :
    findInRange x l = if cnt x l = 0 ∨ cnt x l = l.length then -2 else (cnt x l : Int) := by
  classical
  have hpos : 0 < l.length := List.length_pos_iff.2 hne
  obtain ⟨h1, h2, h3⟩ := bisect_spec x l hl 0 l.length (Nat.zero_le _) le_rfl (fun i _ h => absurd h (by omega))
    (fun i h h' => absurd h (by omega))
  rw [bisect_eq_cnt x l hl] at h1 h2 h3
  unfold findInRange
  rw [bisect_eq_cnt x l hl]
  have g0 : l.getD 0 0 = l[0] := by simp [List.getD, hpos]
  have g1 : l.getD (l.length - 1) 0 = l[l.length - 1] := by
    rw [List.getD_eq_getElem?_getD, List.getElem?_eq_getElem (by omega)]; rfl
  rw [g0, g1]
  have e0 : x < l[0] ↔ cnt x l = 0 := by
    constructor
    · intro h
      by_contra hc
      exact absurd (h2 0 hpos (by omega)) (by push Not; exact h)
    · intro h; exact h3 0 hpos (by omega)
  have e1 : l[l.length - 1] ≤ x ↔ cnt x l = l.length := by
    constructor
    · intro h
      by_contra hc
      exact absurd (h3 (l.length - 1) (by omega) (by omega)) (by push Not; exact h)
    · intro h; exact h2 (l.length - 1) (by omega) (by omega)
  simp only [e0, e1]

/-! ### Ranges on the circle -/

/-- Membership in the mapped pair `(s, t)`, which wraps around if `t < s`. -/
def InArc (x : ℝ) (p : ℝ × ℝ) : Prop := (p.1 < p.2 ∧ p.1 ≤ x ∧ x < p.2) ∨ (p.2 < p.1 ∧ (x < p.2 ∨ p.1 ≤ x))

theorem map_spec (a o : ℝ) : ∃ k : ℤ, indexerMapAngle a o = a + 2 * Real.pi * k ∧ o ≤ indexerMapAngle a o ∧
    indexerMapAngle a o < o + 2 * Real.pi := by
  have hp : 0 < 2 * Real.pi := by positivity
  refine ⟨-⌊(a - o) / (2 * Real.pi)⌋, ?_, ?_, ?_⟩
  · unfold indexerMapAngle npMod; push_cast; ring
  · unfold indexerMapAngle npMod
    have := Int.floor_le ((a - o) / (2 * Real.pi))
    rw [le_div_iff₀ hp] at this
    linarith
  · unfold indexerMapAngle npMod
    have := Int.lt_floor_add_one ((a - o) / (2 * Real.pi))
    rw [div_lt_iff₀ hp] at this
    linarith

theorem int_small {n : ℤ} {p y : ℝ} (hp : 0 < p) (h : y = p * n) (h1 : -p < y) (h2 : y < p) : n = 0 := by
  subst h
  have a1 : (-1 : ℝ) < n := by nlinarith
  have a2 : (n : ℝ) < 1 := by nlinarith
  have b1 : -1 < n := by exact_mod_cast a1
  have b2 : n < 1 := by exact_mod_cast a2
  omega

theorem int_range {n : ℤ} {p y : ℝ} (hp : 0 < p) (h : y = p * n) (h1 : -(2 * p) < y) (h2 : y < p) : n = 0 ∨ n = -1 := by
  subst h
  have a1 : (-2 : ℝ) < n := by nlinarith
  have a2 : (n : ℝ) < 1 := by nlinarith
  have b1 : -2 < n := by exact_mod_cast a1
  have b2 : n < 1 := by exact_mod_cast a2
  omega

/-- A range shorter than a turn, mapped into the interval at `o`. -/
theorem inRange_iff_arc (r : ℝ × ℝ) (o x : ℝ) (hr : r.1 < r.2) (hs : r.2 < r.1 + 2 * Real.pi) (h1 : o ≤ x)
    (h2 : x < o + 2 * Real.pi) :
    InRange x r ↔ InArc x (indexerMapAngle r.1 o, indexerMapAngle r.2 o) := by
  obtain ⟨a, b⟩ := r
  dsimp only at hr hs ⊢
  have hp : 0 < 2 * Real.pi := by positivity
  obtain ⟨k, hk, hk1, hk2⟩ := map_spec a o
  obtain ⟨m, hm, hm1, hm2⟩ := map_spec b o
  generalize indexerMapAngle a o = s at *
  generalize indexerMapAngle b o = t at *
  unfold InRange InArc
  dsimp only
  generalize 2 * Real.pi = p at *
  -- t = s + L or t = s + L - p
  have hd : m - k = 0 ∨ m - k = -1 := by
    apply int_range hp (y := t - s - (b - a))
    · push_cast; linarith
    · linarith
    · linarith
  rcases hd with hd | hd
  · have hmk : m = k := by omega
    subst hmk
    have hst : s < t := by linarith
    constructor
    · rintro ⟨n, hn1, hn2⟩
      have hnk : n + m = 0 := by
        apply int_small hp (y := p * ((n + m : ℤ) : ℝ)) rfl
        · push_cast; linarith
        · push_cast; linarith
      have : (n : ℝ) = -m := by exact_mod_cast (by omega : n = -m)
      rw [this] at hn1 hn2
      left
      exact ⟨hst, by linarith, by linarith⟩
    · rintro (⟨-, h3, h4⟩ | ⟨h, -⟩)
      · exact ⟨-m, by push_cast; linarith, by push_cast; linarith⟩
      · linarith
  · have hmk : (m : ℝ) = k - 1 := by exact_mod_cast (by omega : m = k - 1)
    rw [hmk] at hm
    have hts : t < s := by linarith
    constructor
    · rintro ⟨n, hn1, hn2⟩
      right
      refine ⟨hts, ?_⟩
      by_contra hc
      push Not at hc
      have e1 : (0 : ℝ) < p * ((n + k : ℤ) : ℝ) := by push_cast; linarith
      have e2 : p * ((n + k : ℤ) : ℝ) < p := by push_cast; linarith
      have := int_small hp (y := p * ((n + k : ℤ) : ℝ)) rfl (by linarith) e2
      rw [this] at e1
      simp at e1
    · rintro (⟨h, -⟩ | ⟨-, h3 | h3⟩)
      · linarith
      · exact ⟨1 - k, by push_cast; linarith, by push_cast; linarith⟩
      · exact ⟨-k, by push_cast; linarith, by push_cast; linarith⟩

/-- What is known of the sorted list of mapped pairs. -/
structure Arcs (o : ℝ) (l : List (ℝ × ℝ)) : Prop where
  lo : ∀ p ∈ l, o ≤ p.1 ∧ o ≤ p.2
  hi : ∀ p ∈ l, p.1 < o + 2 * Real.pi ∧ p.2 < o + 2 * Real.pi
  ne : ∀ p ∈ l, p.1 ≠ p.2
  sorted : l.Pairwise fun p q => p.1 ≤ q.1
  disj : l.Pairwise fun p q => ∀ x, o ≤ x → x < o + 2 * Real.pi → ¬ (InArc x p ∧ InArc x q)

theorem arc_start (p : ℝ × ℝ) (h : p.1 ≠ p.2) : InArc p.1 p := by
  rcases lt_or_gt_of_ne h with h | h
  · exact Or.inl ⟨h, le_rfl, h⟩
  · exact Or.inr ⟨h, Or.inr le_rfl⟩

/-- Two pairs of which the first starts first: the first does not wrap and ends before the second starts; if the second
wraps, it ends before the first starts. -/
theorem arcs_pair {o : ℝ} {p q : ℝ × ℝ} (hp : p.1 ≠ p.2) (hq : q.1 ≠ q.2) (lp : o ≤ p.1) (hp' : p.1 < o + 2 * Real.pi)
    (lq : o ≤ q.1) (hq' : q.1 < o + 2 * Real.pi) (hs : p.1 ≤ q.1)
    (hd : ∀ x, o ≤ x → x < o + 2 * Real.pi → ¬ (InArc x p ∧ InArc x q)) :
    p.1 < p.2 ∧ p.2 ≤ q.1 ∧ (q.2 < q.1 → q.2 ≤ p.1) := by
  have h1 := hd q.1 lq hq'
  have h2 := hd p.1 lp hp'
  have a1 := arc_start q hq
  have a2 := arc_start p hp
  have hpw : p.1 < p.2 := by
    by_contra hc
    have : p.2 < p.1 := lt_of_le_of_ne (not_lt.1 hc) (Ne.symm hp)
    exact h1 ⟨Or.inr ⟨this, Or.inr hs⟩, a1⟩
  refine ⟨hpw, ?_, ?_⟩
  · by_contra hc
    push Not at hc
    exact h1 ⟨Or.inl ⟨hpw, hs, hc⟩, a1⟩
  · intro hw
    by_contra hc
    push Not at hc
    exact h2 ⟨a2, Or.inr ⟨hw, Or.inl hc⟩⟩

theorem flat_pairwise {l : List (ℝ × ℝ)} (h1 : ∀ p ∈ l, p.1 ≤ p.2) (h2 : l.Pairwise fun p q => p.2 ≤ q.1) :
    (flat l).Pairwise (· ≤ ·) := by
  induction l with
  | nil => simp [flat]
  | cons p l ih =>
    have hf : flat (p :: l) = p.1 :: p.2 :: flat l := by simp [flat]
    rw [List.pairwise_cons] at h2
    have hp := h1 p (by simp)
    have hall : ∀ z ∈ flat l, p.2 ≤ z := by
      intro z hz
      obtain ⟨q, hq, hz⟩ := List.mem_flatMap.1 hz
      have a := h2.1 q hq
      have b := h1 q (by simp [hq])
      simp only [List.mem_cons, List.not_mem_nil, or_false] at hz
      rcases hz with rfl | rfl
      · exact a
      · exact le_trans a b
    rw [hf, List.pairwise_cons, List.pairwise_cons]
    refine ⟨?_, hall, ih (fun q hq => h1 q (by simp [hq])) h2.2⟩
    intro z hz
    rcases List.mem_cons.1 hz with rfl | hz
    · exact hp
    · exact le_trans hp (hall z hz)

/-- The unwrapped list is sorted and covers the same angles. -/
theorem unwrap_spec {o : ℝ} {l l' : List (ℝ × ℝ)} (h : Arcs o l) (hu : unwrap o l = some l') :
    (flat l').Pairwise (· ≤ ·) ∧ l' ≠ [] ∧
      ∀ x, o ≤ x → x < o + 2 * Real.pi → ((∃ p ∈ l', p.1 ≤ x ∧ x < p.2) ↔ ∃ p ∈ l, InArc x p) := by
  unfold unwrap at hu
  cases hl : l.getLast? with
  | none => rw [hl] at hu; cases hu
  | some r =>
    rw [hl] at hu
    dsimp only at hu
    obtain ⟨i, rfl⟩ : ∃ i, l = i ++ [r] := ⟨l.dropLast, (List.dropLast_append_getLast? r hl).symm⟩
    have hr : r ∈ i ++ [r] := by simp
    have hpair : ∀ p ∈ i, p.1 < p.2 ∧ p.2 ≤ r.1 ∧ (r.2 < r.1 → r.2 ≤ p.1) := by
      intro p hp
      have hp' : p ∈ i ++ [r] := by simp [hp]
      have hs := (List.pairwise_append.1 h.sorted).2.2 p hp r (by simp)
      have hd := (List.pairwise_append.1 h.disj).2.2 p hp r (by simp)
      exact arcs_pair (h.ne p hp') (h.ne r hr) (h.lo p hp').1 (h.hi p hp').1 (h.lo r hr).1 (h.hi r hr).1 hs hd
    have hi : i.Pairwise fun p q => p.2 ≤ q.1 := by
      have hs := (List.pairwise_append.1 h.sorted).1
      have hd := (List.pairwise_append.1 h.disj).1
      refine (hs.and hd).imp_of_mem ?_
      intro p q hp hq hpq
      have hp' : p ∈ i ++ [r] := by simp [hp]
      have hq' : q ∈ i ++ [r] := by simp [hq]
      exact (arcs_pair (h.ne p hp') (h.ne q hq') (h.lo p hp').1 (h.hi p hp').1 (h.lo q hq').1 (h.hi q hq').1 hpq.1
        hpq.2).2.1
    have harc : ∀ p ∈ i, ∀ x, InArc x p ↔ p.1 ≤ x ∧ x < p.2 := by
      intro p hp x
      have hw := (hpair p hp).1
      constructor
      · rintro (⟨-, h⟩ | ⟨h, -⟩)
        · exact h
        · linarith
      · intro h; exact Or.inl ⟨hw, h⟩
    by_cases hw : r.2 < r.1
    · rw [if_pos hw, List.dropLast_concat] at hu
      simp only [Option.some.injEq] at hu
      subst hu
      refine ⟨flat_pairwise ?_ ?_, by simp, ?_⟩
      · intro p hp
        simp only [List.mem_cons, List.mem_append, List.not_mem_nil, or_false] at hp
        rcases hp with rfl | hp | rfl
        · exact (h.lo r hr).2
        · exact (hpair p hp).1.le
        · exact (h.hi r hr).1.le
      · rw [List.pairwise_cons, List.pairwise_append]
        refine ⟨?_, hi, by simp, ?_⟩
        · intro p hp
          simp only [List.mem_append, List.mem_cons, List.not_mem_nil, or_false] at hp
          rcases hp with hp | rfl
          · exact (hpair p hp).2.2 hw
          · exact hw.le
        · intro p hp q hq
          simp only [List.mem_cons, List.not_mem_nil, or_false] at hq
          subst hq
          exact (hpair p hp).2.1
      · intro x hx1 hx2
        constructor
        · rintro ⟨p, hp, h1, h2⟩
          simp only [List.mem_cons, List.mem_append, List.not_mem_nil, or_false] at hp
          rcases hp with rfl | hp | rfl
          · exact ⟨r, hr, Or.inr ⟨hw, Or.inl h2⟩⟩
          · exact ⟨p, by simp [hp], (harc p hp x).2 ⟨h1, h2⟩⟩
          · exact ⟨r, hr, Or.inr ⟨hw, Or.inr h1⟩⟩
        · rintro ⟨p, hp, h1⟩
          rcases List.mem_append.1 hp with hp | hp
          · exact ⟨p, by simp [hp], (harc p hp x).1 h1⟩
          · simp only [List.mem_cons, List.not_mem_nil, or_false] at hp
            subst hp
            rcases h1 with ⟨h1, -⟩ | ⟨-, h1 | h1⟩
            · linarith
            · exact ⟨(o, p.2), by simp, hx1, h1⟩
            · exact ⟨(p.1, o + 2 * Real.pi), by simp, h1, hx2⟩
    · rw [if_neg hw] at hu
      simp only [Option.some.injEq] at hu
      subst hu
      have hw' : r.1 < r.2 := lt_of_le_of_ne (not_lt.1 hw) (h.ne r hr)
      refine ⟨flat_pairwise ?_ ?_, by simp, ?_⟩
      · intro p hp
        rcases List.mem_append.1 hp with hp | hp
        · exact (hpair p hp).1.le
        · simp only [List.mem_cons, List.not_mem_nil, or_false] at hp
          subst hp; exact hw'.le
      · rw [List.pairwise_append]
        refine ⟨hi, by simp, ?_⟩
        intro p hp q hq
        simp only [List.mem_cons, List.not_mem_nil, or_false] at hq
        subst hq
        exact (hpair p hp).2.1
      · intro x hx1 hx2
        refine exists_congr fun p => and_congr_right fun hp => ?_
        rcases List.mem_append.1 hp with hp | hp
        · exact (harc p hp x).symm
        · simp only [List.mem_cons, List.not_mem_nil, or_false] at hp
          subst hp
          constructor
          · intro h; exact Or.inl ⟨hw', h⟩
          · rintro (⟨-, h⟩ | ⟨h, -⟩)
            · exact h
            · linarith

theorem arc_ne (r : ℝ × ℝ) (o : ℝ) (hr : r.1 < r.2) (hs : r.2 < r.1 + 2 * Real.pi) :
    indexerMapAngle r.1 o ≠ indexerMapAngle r.2 o := by
  intro he
  have hp : 0 < 2 * Real.pi := by positivity
  obtain ⟨k, hk, -, -⟩ := map_spec r.1 o
  obtain ⟨m, hm, -, -⟩ := map_spec r.2 o
  have e : r.2 - r.1 = 2 * Real.pi * ((k - m : ℤ) : ℝ) := by push_cast; linarith
  have := int_small hp e (by linarith) (by linarith)
  rw [this] at e
  simp at e
  linarith

theorem sorted_perm (l : List (ℝ × ℝ)) : (sorted l).Perm l := by
  unfold sorted; exact List.mergeSort_perm _ _

theorem sorted_sorted (l : List (ℝ × ℝ)) : (sorted l).Pairwise fun p q => p.1 ≤ q.1 := by
  classical
  have := List.pairwise_mergeSort (le := fun a b : ℝ × ℝ => decide (a.1 ≤ b.1))
    (by intro a b c h1 h2; simp only [decide_eq_true_eq] at *; linarith)
    (by intro a b; simp only [Bool.or_eq_true, decide_eq_true_eq]; exact le_total _ _) l
  unfold sorted
  refine List.Pairwise.imp ?_ this
  intro a b h
  simpa using h

theorem arcs_of_ranges (ranges : List (ℝ × ℝ)) (o : ℝ) (h1 : ∀ r ∈ ranges, r.1 < r.2)
    (h2 : ∀ r ∈ ranges, r.2 < r.1 + 2 * Real.pi) (hd : DisjointRanges ranges) : Arcs o (sorted (mapped ranges o)) := by
  have hm : ∀ p ∈ sorted (mapped ranges o), ∃ r ∈ ranges, p = (indexerMapAngle r.1 o, indexerMapAngle r.2 o) := by
    intro p hp
    obtain ⟨r, hr, rfl⟩ := List.mem_map.1 ((sorted_perm _).mem_iff.1 hp)
    exact ⟨r, hr, rfl⟩
  refine ⟨?_, ?_, ?_, sorted_sorted _, ?_⟩
  · intro p hp
    obtain ⟨r, hr, rfl⟩ := hm p hp
    obtain ⟨-, -, a, -⟩ := map_spec r.1 o
    obtain ⟨-, -, b, -⟩ := map_spec r.2 o
    exact ⟨a, b⟩
  · intro p hp
    obtain ⟨r, hr, rfl⟩ := hm p hp
    obtain ⟨-, -, -, a⟩ := map_spec r.1 o
    obtain ⟨-, -, -, b⟩ := map_spec r.2 o
    exact ⟨a, b⟩
  · intro p hp
    obtain ⟨r, hr, rfl⟩ := hm p hp
    exact arc_ne r o (h1 r hr) (h2 r hr)
  · have hsym : Std.Symm fun p q : ℝ × ℝ => ∀ x, o ≤ x → x < o + 2 * Real.pi → ¬ (InArc x p ∧ InArc x q) :=
      ⟨fun p q h x a b c => h x a b ⟨c.2, c.1⟩⟩
    refine ((sorted_perm (mapped ranges o)).pairwise_iff (fun {p q} h => hsym.symm p q h)).2 ?_
    unfold mapped
    rw [List.pairwise_map]
    refine hd.imp_of_mem ?_
    intro r s hr hs h x a b c
    exact h x ⟨(inRange_iff_arc r o x (h1 r hr) (h2 r hr) a b).2 c.1, (inRange_iff_arc s o x (h1 s hs) (h2 s hs) a b).2 c.2⟩

/-! ### Windows -/

theorem mem_window {nOme nEta eta ome dEta dOme : Nat} (he : eta < nEta) (ho : ome < nOme) (ij : Nat × Nat) :
    ij ∈ window nOme nEta eta ome dEta dOme ↔ Near nOme nEta ome eta dOme dEta ij := by
  obtain ⟨i, j⟩ := ij
  unfold window Near
  simp only [List.mem_flatMap, List.mem_map, List.mem_range'_1, Prod.mk.injEq]
  constructor
  · rintro ⟨a, ⟨h1, h2⟩, b, ⟨h3, h4⟩, rfl, rfl⟩
    omega
  · rintro ⟨h1, h2, h3, h4, h5, h6⟩
    exact ⟨i, by omega, j, by omega, rfl, rfl⟩

theorem scan_cases (thr : ℝ) (l : List (Option ℝ)) : scan thr l = 1 ∨ scan thr l = 0 ∨ scan thr l = -1 := by
  classical
  induction l with
  | nil => simp [scan]
  | cons a l ih =>
    cases a with
    | none => simp [scan]
    | some v =>
      unfold scan
      by_cases h : v > thr
      · simp [h]
      · simp only [h, if_false]; exact ih

theorem scan_one (thr : ℝ) (l : List (Option ℝ)) :
    scan thr l = 1 ↔ ∃ l1 v l2, l = l1 ++ some v :: l2 ∧ thr < v ∧ none ∉ l1 := by
  classical
  induction l with
  | nil => simp [scan]
  | cons a l ih =>
    cases a with
    | none =>
      simp only [scan]
      constructor
      · intro h; norm_num at h
      · rintro ⟨l1, v, l2, h, -, hn⟩
        cases l1 with
        | nil => simp at h
        | cons b l1 =>
          simp only [List.cons_append, List.cons.injEq] at h
          exact absurd (by simp [← h.1]) hn
    | some w =>
      unfold scan
      by_cases h : w > thr
      · simp only [h, if_true, true_iff]
        exact ⟨[], w, l, rfl, h, by simp⟩
      · simp only [h, if_false, ih]
        constructor
        · rintro ⟨l1, v, l2, rfl, h1, h2⟩
          exact ⟨some w :: l1, v, l2, rfl, h1, by simpa using h2⟩
        · rintro ⟨l1, v, l2, he, h1, h2⟩
          cases l1 with
          | nil =>
            simp only [List.nil_append, List.cons.injEq, Option.some.injEq] at he
            exact absurd (he.1 ▸ h1) h
          | cons b l1 =>
            simp only [List.cons_append, List.cons.injEq] at he
            exact ⟨l1, v, l2, he.2, h1, fun hm => h2 (by simp [hm])⟩

theorem scan_zero (thr : ℝ) (l : List (Option ℝ)) :
    scan thr l = 0 ↔ ∀ a ∈ l, ∃ v, a = some v ∧ v ≤ thr := by
  classical
  induction l with
  | nil => simp [scan]
  | cons a l ih =>
    cases a with
    | none => simp [scan]
    | some v =>
      unfold scan
      by_cases h : v > thr
      · simp [h]
      · simp only [h, if_false, ih, List.mem_cons, forall_eq_or_imp]
        simp [not_lt.1 h]

theorem scan_noNaN (thr : ℝ) (l : List (Option ℝ)) (hn : none ∉ l) :
    (scan thr l = 1 ↔ ∃ v, some v ∈ l ∧ thr < v) ∧ scan thr l ≠ -1 := by
  constructor
  · rw [scan_one]
    constructor
    · rintro ⟨l1, v, l2, rfl, h, -⟩
      exact ⟨v, by simp, h⟩
    · rintro ⟨v, hv, h⟩
      obtain ⟨l1, l2, rfl⟩ := List.append_of_mem hv
      exact ⟨l1, v, l2, rfl, h, fun hm => hn (by simp [hm])⟩
  · classical
    induction l with
    | nil => simp [scan]
    | cons a l ih =>
      cases a with
      | none => simp at hn
      | some v =>
        unfold scan
        by_cases h : v > thr
        · simp [h]
        · simp only [h, if_false]
          exact ih (fun hm => hn (by simp [hm]))

/-! ### Counting -/

/-- The counters of one family. -/
def tot (p : Params) (k : Nat) : List Pair → Nat × Nat
  | [] => (0, 0)
  | (a0, a1) :: l =>
    ((angleIsHit p k a0).1 + (angleIsHit p k a1).1 + (tot p k l).1, (angleIsHit p k a0).2 + (angleIsHit p k a1).2 + (tot p k l).2)

/-- The counters of the families from number `k` on. -/
def totals (p : Params) : Nat → List (List Pair) → Nat × Nat
  | _, [] => (0, 0)
  | k, f :: F => ((tot p k f).1 + (totals p (k + 1) F).1, (tot p k f).2 + (totals p (k + 1) F).2)

theorem loop_same (p : Params) (ix : List Nat) (l rest : List Pair) (i curr stop : Nat) (c : Nat × Nat)
    (h : i + l.length ≤ stop) :
    countLoop p ix (l ++ rest) i curr stop c =
      countLoop p ix rest (i + l.length) curr stop (c.1 + (tot p curr l).1, c.2 + (tot p curr l).2) := by
  induction l generalizing i c with
  | nil => simp [tot]
  | cons a l ih =>
    obtain ⟨a0, a1⟩ := a
    simp only [List.length_cons] at h
    have hn : ¬ stop ≤ i := by omega
    rw [List.cons_append]
    conv_lhs => unfold countLoop
    simp only [if_neg hn]
    rw [ih _ _ (by omega)]
    have e1 : i + 1 + l.length = i + (l.length + 1) := by omega
    simp only [tot, List.length_cons, e1, Nat.add_assoc]

theorem loop_families (p : Params) (ix : List Nat) (F : List (List Pair)) (hne : ∀ f ∈ F, f ≠ []) (i curr : Nat)
    (c : Nat × Nat)
    (hix : ∀ j, j ≤ F.length → ix.getD (curr + 1 + j) 0 = i + ((F.map List.length).take j).sum) :
    countLoop p ix F.flatten i curr i c = (c.1 + (totals p (curr + 1) F).1, c.2 + (totals p (curr + 1) F).2) := by
  induction F generalizing i curr c with
  | nil => simp [totals, countLoop]
  | cons f F ih =>
    have hf := hne f (by simp)
    cases f with
    | nil => exact absurd rfl hf
    | cons a l =>
      obtain ⟨a0, a1⟩ := a
      have h1 := hix 1 (by simp)
      simp only [List.map_cons, List.take_succ_cons, List.take_zero, List.sum_cons, List.sum_nil, List.length_cons] at h1
      rw [List.flatten_cons, List.cons_append]
      unfold countLoop
      simp only [le_refl, if_true]
      rw [h1, loop_same _ _ _ _ _ _ _ _ (by omega)]
      have e : i + 1 + l.length = i + (l.length + 1 + 0) := by omega
      rw [e, ih (fun f hf => hne f (by simp [hf]))]
      · simp only [totals, tot, Prod.mk.injEq]; omega
      · intro j hj
        have := hix (j + 1) (by simp; omega)
        simp only [List.map_cons, List.take_succ_cons, List.sum_cons, List.length_cons] at this
        rw [show curr + 1 + 1 + j = curr + 1 + (j + 1) by omega, this]
        omega

theorem accumulate_getD (s : Nat) (l : List Nat) (j : Nat) (hj : j ≤ l.length) :
    (accumulate s l).getD j 0 = s + (l.take j).sum := by
  induction l generalizing s j with
  | nil =>
    simp only [List.length_nil, Nat.le_zero] at hj
    subst hj
    simp [accumulate]
  | cons n l ih =>
    cases j with
    | zero => simp [accumulate]
    | succ j =>
      simp only [accumulate, List.getD_cons_succ, List.take_succ_cons, List.sum_cons]
      rw [ih (s + n) j (by simpa using hj)]
      omega

theorem count_eq (p : Params) (F : List (List Pair)) (hne : ∀ f ∈ F, f ≠ []) :
    countLoop p (accumulate 0 (F.map List.length)) F.flatten 0 0 ((accumulate 0 (F.map List.length)).getD 1 0) (0, 0) =
      totals p 0 F := by
  cases F with
  | nil => simp [countLoop, totals]
  | cons f F =>
    have h1 := accumulate_getD 0 ((f :: F).map List.length) 1 (by simp)
    simp only [List.map_cons, List.take_succ_cons, List.take_zero, List.sum_cons, List.sum_nil] at h1
    rw [List.map_cons, h1, List.flatten_cons, loop_same _ _ _ _ _ _ _ _ (by omega)]
    have e : (0 : Nat) + (f.length + 0) = 0 + f.length := by omega
    rw [e, loop_families p _ F (fun f hf => hne f (by simp [hf]))]
    · simp only [totals, Prod.mk.injEq]; omega
    · intro j hj
      rw [← List.map_cons, accumulate_getD _ _ _ (by simp; omega), Nat.add_comm 0 1, Nat.add_comm 1 j]
      simp [List.take_succ_cons]

/-! ### Pool -/

theorem getTasks_get {α : Type} (size : Nat) (hs : 0 < size) (l : List α) (i : Nat) :
    (getTasks l size)[i]? = if i * size < l.length then some ((l.drop (i * size)).take size) else none := by
  induction hn : l.length using Nat.strong_induction_on generalizing l i with
  | _ n ih =>
    subst hn
    unfold getTasks
    split
    · rename_i h
      have : l = [] := by
        rcases List.take_eq_nil_iff.1 h with h | h
        · omega
        · exact h
      subst this
      simp
    · rename_i x xs h
      have hl : 0 < l.length := by
        cases l with
        | nil => simp at h
        | cons => simp
      cases i with
      | zero => simp [← h, hl]
      | succ i =>
        rw [List.getElem?_cons_succ, ih (l.drop size).length (by rw [List.length_drop]; omega) (l.drop size) i rfl]
        rw [List.length_drop, List.drop_drop]
        have e : size + i * size = (i + 1) * size := by ring
        rw [e]
        by_cases hc : (i + 1) * size < l.length
        · rw [if_pos hc, if_pos (by rw [← e] at hc; omega)]
        · rw [if_neg hc, if_neg (by rw [← e] at hc; omega)]

theorem setBatch_get {β : Type} (size : Nat) (value : List (Option β)) (i : Nat) (b : List β) (hi : i * size < value.length)
    (hb : b.length = min size (value.length - i * size)) (j : Nat) :
    (setBatch size value (i, b))[j]? =
      if i * size ≤ j ∧ j < (i + 1) * size then (b[j - i * size]?).map some else value[j]? := by
  unfold setBatch
  have e : (i + 1) * size = i * size + size := by ring
  have e1 : (value.take (i * size)).length = i * size := by rw [List.length_take]; omega
  dsimp only
  rw [List.append_assoc, List.getElem?_append, e1, List.getElem?_append, List.length_map, hb, e]
  by_cases h1 : j < i * size
  · rw [if_pos h1, if_neg (by omega), List.getElem?_take, if_pos h1]
  · rw [if_neg h1]
    by_cases h2 : j < i * size + size
    · have h2' : i * size ≤ j ∧ j < i * size + size := ⟨by omega, h2⟩
      simp only [h2', and_self, if_true]
      by_cases h3 : j - i * size < min size (value.length - i * size)
      · rw [if_pos h3, List.getElem?_map]
      · rw [if_neg h3, List.getElem?_drop, List.getElem?_eq_none (by omega), List.getElem?_eq_none (by omega)]
        rfl
    · rw [if_neg (by omega), if_neg (by omega), List.getElem?_drop]
      by_cases h4 : i * size + size ≤ value.length
      · congr 1; omega
      · rw [List.getElem?_eq_none (by omega), List.getElem?_eq_none (by omega)]

theorem setBatch_length {β : Type} (size : Nat) (value : List (Option β)) (i : Nat) (b : List β)
    (hi : i * size < value.length) (hb : b.length = min size (value.length - i * size)) :
    (setBatch size value (i, b)).length = value.length := by
  unfold setBatch
  have e : (i + 1) * size = i * size + size := by ring
  simp only [List.length_append, List.length_take, List.length_map, List.length_drop, hb, e]
  omega

/-- After any set of batches has come back. -/
theorem pool_fold {α β : Type} (f : α → β) (l : List α) (size : Nat) (hs : 0 < size) (order : List Nat)
    (value : List (Option β)) (hv : value.length = l.length) :
    ((order.filterMap fun i => (getTasks l size)[i]?.map fun b => (i, b.map f)).foldl (setBatch size) value).length = l.length ∧
    ∀ j, j < l.length →
      ((order.filterMap fun i => (getTasks l size)[i]?.map fun b => (i, b.map f)).foldl (setBatch size) value)[j]? =
        if j / size ∈ order then (l[j]?).map fun a => some (f a) else value[j]? := by
  induction order generalizing value with
  | nil => simp [hv]
  | cons i order ih =>
    by_cases hi : i * size < l.length
    · have ht : (getTasks l size)[i]? = some ((l.drop (i * size)).take size) := by rw [getTasks_get size hs, if_pos hi]
      rw [List.filterMap_cons, ht]
      simp only [Option.map_some, List.foldl_cons]
      have hb : (((l.drop (i * size)).take size).map f).length = min size (value.length - i * size) := by
        rw [List.length_map, List.length_take, List.length_drop, hv]
      have hi' : i * size < value.length := by rw [hv]; exact hi
      obtain ⟨h1, h2⟩ := ih _ ((setBatch_length size value i _ hi' hb).trans hv)
      refine ⟨h1, fun j hj => ?_⟩
      rw [h2 j hj, setBatch_get size value i _ hi' hb]
      by_cases hm : j / size ∈ order
      · rw [if_pos hm, if_pos (by simp [hm])]
      · rw [if_neg hm]
        have e : (i * size ≤ j ∧ j < (i + 1) * size) ↔ j / size = i := by
          rw [Nat.div_eq_iff hs]
          have : (i + 1) * size = i * size + size := by ring
          omega
        by_cases hji : j / size = i
        · rw [if_pos (e.2 hji), if_pos (by simp [hji])]
          have hh := e.2 hji
          have e2 : (i + 1) * size = i * size + size := by ring
          rw [List.getElem?_map, List.getElem?_take, if_pos (by omega), List.getElem?_drop, Nat.add_sub_cancel' hh.1]
          rw [Option.map_map]
          rfl
        · rw [if_neg (fun h => hji (e.1 h)), if_neg (by simp [hji, hm])]
    · have ht : (getTasks l size)[i]? = none := by rw [getTasks_get size hs, if_neg hi]
      rw [List.filterMap_cons, ht]
      simp only [Option.map_none]
      obtain ⟨h1, h2⟩ := ih value hv
      refine ⟨h1, fun j hj => ?_⟩
      rw [h2 j hj]
      have hne : j / size ≠ i := by
        intro h
        have := Nat.div_mul_le_self j size
        rw [h] at this
        omega
      simp [hne]

end

end Hexrd.Indexer
