import Verif.Lemmas.Indexer
import Mathlib.Analysis.Real.Pi.Bounds
import Mathlib.Tactic.IntervalCases

/-! # Map-based indexing: ranges of angles, completeness, distribution to processes -/
namespace Hexrd.Indexer

open Hexrd.Angles Spec

noncomputable section

/-! ### Ranges of angles -/

theorem inRange_shift (a : ℝ) (k : ℤ) (r : ℝ × ℝ) : InRange (a + 2 * Real.pi * k) r ↔ InRange a r := by
  constructor
  · rintro ⟨n, h1, h2⟩
    exact ⟨n + k, by push_cast; linarith, by push_cast; linarith⟩
  · rintro ⟨n, h1, h2⟩
    exact ⟨n - k, by push_cast; linarith, by push_cast; linarith⟩

/-- Whatever the offset, an angle passes the test exactly if it lies, up to whole turns, in one of the ranges - provided
the ranges do not overlap.  A range that is a full turn up to 1e-8 lets everything pass. -/
theorem ranges_partial (ranges : List (ℝ × ℝ)) (o : ℝ) (spans : List ℝ) (h : normalizeRanges ranges o = some spans)
    (hd : DisjointRanges ranges) (a : ℝ) :
    findInRange (indexerMapAngle a o) spans % 2 = 1 ↔
      ∃ r ∈ ranges, InRange a r ∨ r.1 + 2 * Real.pi < r.2 + 1 / 10 ^ 8 := by
  classical
  obtain ⟨k, hk, hx1, hx2⟩ := map_spec a o
  unfold normalizeRanges at h
  by_cases h1 : ∀ r ∈ ranges, r.1 < r.2
  · rw [if_neg (by simpa using h1)] at h
    by_cases h2 : ∃ r ∈ ranges, r.1 + 2 * Real.pi < r.2 + 1 / 10 ^ 8
    · rw [if_pos h2] at h
      simp only [Option.some.injEq] at h
      subst h
      have hr : ∃ r ∈ ranges, InRange a r ∨ r.1 + 2 * Real.pi < r.2 + 1 / 10 ^ 8 := by
        obtain ⟨r, hr, h⟩ := h2
        exact ⟨r, hr, Or.inr h⟩
      simp only [hr, iff_true]
      have hp : o ≤ 2 * Real.pi + o := by have := Real.pi_pos; linarith
      rw [findInRange_eq _ _ (by simpa using hp) (by simp)]
      have hc : cnt (indexerMapAngle a o) [o, 2 * Real.pi + o] = 1 := by
        unfold cnt
        rw [List.countP_cons, List.countP_cons]
        have : ¬ (2 * Real.pi + o ≤ indexerMapAngle a o) := by push Not; linarith
        simp [hx1, this]
      simp [hc]
    · rw [if_neg h2] at h
      have h2' : ∀ r ∈ ranges, ¬ r.1 + 2 * Real.pi < r.2 + 1 / 10 ^ 8 := fun r hr hc => h2 ⟨r, hr, hc⟩
      have h3 : ∀ r ∈ ranges, r.2 < r.1 + 2 * Real.pi := by
        intro r hr
        have := not_lt.1 (h2' r hr)
        have e : (0 : ℝ) < 1 / 10 ^ 8 := by positivity
        linarith
      have harcs := arcs_of_ranges ranges o h1 h3 hd
      have hu : ∃ l', unwrap o (sorted (mapped ranges o)) = some l' ∧ spans = flat l' := by
        dsimp only at h
        split at h
        · rename_i l e1 e2
          exact ⟨l, e1, by simpa using h.symm⟩
        · cases h
      obtain ⟨l', hu, rfl⟩ := hu
      obtain ⟨hs, hne, hiff⟩ := unwrap_spec harcs hu
      have hlen : 0 < l'.length := List.length_pos_iff.2 hne
      have hfne : flat l' ≠ [] := by
        intro h0
        have hfl := flat_length l'
        rw [h0, List.length_nil] at hfl
        omega
      rw [findInRange_eq _ _ hs hfne]
      have hodd := cnt_flat (indexerMapAngle a o) l' hs
      have hsame : (∃ p ∈ l', p.1 ≤ indexerMapAngle a o ∧ indexerMapAngle a o < p.2) ↔ ∃ r ∈ ranges, InRange a r := by
        rw [hiff _ hx1 hx2]
        constructor
        · rintro ⟨p, hp, hA⟩
          obtain ⟨r, hr, rfl⟩ := List.mem_map.1 ((sorted_perm _).mem_iff.1 hp)
          refine ⟨r, hr, ?_⟩
          have := (inRange_iff_arc r o _ (h1 r hr) (h3 r hr) hx1 hx2).2 hA
          rw [hk, inRange_shift] at this
          exact this
        · rintro ⟨r, hr, hI⟩
          refine ⟨_, (sorted_perm _).mem_iff.2 (List.mem_map.2 ⟨r, hr, rfl⟩), ?_⟩
          apply (inRange_iff_arc r o _ (h1 r hr) (h3 r hr) hx1 hx2).1
          rw [hk, inRange_shift]
          exact hI
      have hgoal : (∃ r ∈ ranges, InRange a r ∨ r.1 + 2 * Real.pi < r.2 + 1 / 10 ^ 8) ↔ ∃ r ∈ ranges, InRange a r := by
        constructor
        · rintro ⟨r, hr, h | h⟩
          · exact ⟨r, hr, h⟩
          · exact absurd h (h2' r hr)
        · rintro ⟨r, hr, h⟩
          exact ⟨r, hr, Or.inl h⟩
      rw [hgoal, ← hsame, ← hodd]
      have hl2 := flat_length l'
      split
      · rename_i hc
        constructor
        · intro h; norm_num at h
        · intro h; omega
      · constructor <;> intro h <;> omega
  · rw [if_pos (by simpa using h1)] at h
    cases h

/-- Every predicate on angles defined by the ranges is the same for every offset. -/
theorem ranges_offset_irrelevant (ranges : List (ℝ × ℝ)) (o o' : ℝ) (s s' : List ℝ)
    (h : normalizeRanges ranges o = some s) (h' : normalizeRanges ranges o' = some s') (hd : DisjointRanges ranges) (a : ℝ) :
    findInRange (indexerMapAngle a o) s % 2 = 1 ↔ findInRange (indexerMapAngle a o') s' % 2 = 1 := by
  rw [ranges_partial ranges o s h hd, ranges_partial ranges o' s' h' hd]

theorem normalize_eq (ranges : List (ℝ × ℝ)) (o : ℝ) (h1 : ∀ r ∈ ranges, r.1 < r.2)
    (h2 : ∀ r ∈ ranges, ¬ r.1 + 2 * Real.pi < r.2 + 1 / 10 ^ 8) :
    normalizeRanges ranges o = match unwrap o (sorted (mapped ranges o)),
      allGreater (((mapped ranges o).map Prod.fst).drop 1) (((mapped ranges o).map Prod.snd).take (ranges.length - 2)) with
      | some l, some true => some (flat l)
      | _, _ => none := by
  classical
  unfold normalizeRanges
  rw [if_neg (by simpa using h1), if_neg (by rintro ⟨r, hr, h⟩; exact h2 r hr h)]
  have : (mapped ranges o).length = ranges.length := by simp [mapped]
  rw [← this]
  rfl

theorem unwrap_isSome (o : ℝ) (l : List (ℝ × ℝ)) (h : l ≠ []) : ∃ l', unwrap o l = some l' := by
  unfold unwrap
  cases hl : l.getLast? with
  | none => exact absurd (List.getLast?_eq_none_iff.1 hl) h
  | some r => exact ⟨_, rfl⟩

theorem normalize_full (ranges : List (ℝ × ℝ)) (o : ℝ) (h1 : ∀ r ∈ ranges, r.1 < r.2)
    (h2 : ∃ r ∈ ranges, r.1 + 2 * Real.pi < r.2 + 1 / 10 ^ 8) : normalizeRanges ranges o = some [o, 2 * Real.pi + o] := by
  classical
  unfold normalizeRanges
  rw [if_neg (by simpa using h1), if_pos h2]

/-- One or two ranges are always accepted. -/
theorem ranges_accepted (ranges : List (ℝ × ℝ)) (o : ℝ) (h1 : ∀ r ∈ ranges, r.1 < r.2) (hn : ranges.length = 1 ∨ ranges.length = 2) :
    ∃ spans, normalizeRanges ranges o = some spans := by
  by_cases h2 : ∃ r ∈ ranges, r.1 + 2 * Real.pi < r.2 + 1 / 10 ^ 8
  · exact ⟨_, normalize_full ranges o h1 h2⟩
  · have hne : sorted (mapped ranges o) ≠ [] := by
      intro h
      have := (sorted_perm (mapped ranges o)).length_eq
      rw [h] at this
      simp [mapped] at this
      omega
    obtain ⟨l', hl'⟩ := unwrap_isSome o _ hne
    rw [normalize_eq ranges o h1 (fun r hr hc => h2 ⟨r, hr, hc⟩), hl']
    rcases hn with hn | hn
    · obtain ⟨r, rfl⟩ := List.length_eq_one_iff.1 hn
      exact ⟨flat l', by simp [mapped, allGreater]⟩
    · obtain ⟨r, s, rfl⟩ := List.length_eq_two.1 hn
      exact ⟨flat l', by simp [mapped, allGreater]⟩

/-- Four or more ranges, none of them a full turn, are always rejected, overlapping or not. -/
theorem ranges_four (ranges : List (ℝ × ℝ)) (o : ℝ) (h2 : ∀ r ∈ ranges, ¬ r.1 + 2 * Real.pi < r.2 + 1 / 10 ^ 8)
    (hn : 4 ≤ ranges.length) : normalizeRanges ranges o = none := by
  by_cases h1 : ∀ r ∈ ranges, r.1 < r.2
  · rw [normalize_eq ranges o h1 h2]
    have hg : allGreater (((mapped ranges o).map Prod.fst).drop 1)
        (((mapped ranges o).map Prod.snd).take (ranges.length - 2)) = none := by
      match ranges, hn with
      | r1 :: r2 :: r3 :: r4 :: l, _ =>
        simp [mapped, allGreater]
        omega
    rw [hg]
    split
    · rename_i h; cases h
    · rfl
  · classical
    unfold normalizeRanges
    rw [if_pos (by simpa using h1)]

/-- Three ranges, none of them a full turn, are accepted exactly if, after mapping, the second and the third start after
the end of the first one of the list. -/
theorem ranges_three (r1 r2 r3 : ℝ × ℝ) (o : ℝ) (h1 : ∀ r ∈ [r1, r2, r3], r.1 < r.2)
    (h2 : ∀ r ∈ [r1, r2, r3], ¬ r.1 + 2 * Real.pi < r.2 + 1 / 10 ^ 8) :
    (∃ spans, normalizeRanges [r1, r2, r3] o = some spans) ↔
      indexerMapAngle r1.2 o < indexerMapAngle r2.1 o ∧ indexerMapAngle r1.2 o < indexerMapAngle r3.1 o := by
  have hne : sorted (mapped [r1, r2, r3] o) ≠ [] := by
    intro h
    have := (sorted_perm (mapped [r1, r2, r3] o)).length_eq
    rw [h] at this
    simp [mapped] at this
  obtain ⟨l', hl'⟩ := unwrap_isSome o _ hne
  rw [normalize_eq _ o h1 h2, hl']
  have hg : allGreater (((mapped [r1, r2, r3] o).map Prod.fst).drop 1)
      (((mapped [r1, r2, r3] o).map Prod.snd).take ([r1, r2, r3].length - 2)) =
      some (decide (indexerMapAngle r1.2 o < indexerMapAngle r2.1 o ∧ indexerMapAngle r1.2 o < indexerMapAngle r3.1 o)) := by
    simp [mapped, allGreater]
  rw [hg]
  by_cases hc : indexerMapAngle r1.2 o < indexerMapAngle r2.1 o ∧ indexerMapAngle r1.2 o < indexerMapAngle r3.1 o
  · simp [hc]
  · simp [hc]

/-- Small angles are not changed by the mapping at 0. -/
theorem map_small (x : ℝ) (h1 : 0 ≤ x) (h2 : x < 6) : indexerMapAngle x 0 = x := by
  have hp := Real.pi_gt_three
  obtain ⟨k, hk, h3, h4⟩ := map_spec x 0
  have hp' : 0 < 2 * Real.pi := by positivity
  have := int_small (n := k) hp' (y := indexerMapAngle x 0 - x) (by linarith) (by linarith) (by linarith)
  rw [this] at hk
  simpa using hk

theorem short_three (l : List (ℝ × ℝ)) (h : ∀ r ∈ l, r.2 - r.1 < 4) :
    ∀ r ∈ l, ¬ r.1 + 2 * Real.pi < r.2 + 1 / 10 ^ 8 := by
  have hp := Real.pi_gt_three
  intro r hr
  have := h r hr
  push Not
  norm_num
  linarith

/-- Three ranges that do not overlap are rejected as overlapping if they are not given in increasing order. -/
theorem ranges_unsorted : normalizeRanges [(2, 5 / 2), (0, 1 / 2), (1, 3 / 2)] 0 = none ∧
    ∃ spans, normalizeRanges [(0, 1 / 2), (1, 3 / 2), (2, 5 / 2)] 0 = some spans := by
  constructor
  · rw [Option.eq_none_iff_forall_ne_some]
    intro spans h
    have := (ranges_three _ _ _ 0 (by intro r hr; simp at hr; rcases hr with rfl | rfl | rfl <;> norm_num)
      (short_three _ (by intro r hr; simp at hr; rcases hr with rfl | rfl | rfl <;> norm_num))).1 ⟨spans, h⟩
    rw [map_small _ (by norm_num) (by norm_num), map_small _ (by norm_num) (by norm_num)] at this
    norm_num at this
  · refine (ranges_three _ _ _ 0 (by intro r hr; simp at hr; rcases hr with rfl | rfl | rfl <;> norm_num)
      (short_three _ (by intro r hr; simp at hr; rcases hr with rfl | rfl | rfl <;> norm_num))).2 ?_
    rw [map_small _ (by norm_num) (by norm_num), map_small _ (by norm_num) (by norm_num),
      map_small _ (by norm_num) (by norm_num)]
    norm_num

/-- Three ranges of which the last two overlap are accepted, although overlapping ranges are documented to raise. -/
theorem ranges_overlap_missed : ∃ spans, normalizeRanges [(0, 1), (2, 3), (5 / 2, 14 / 5)] 0 = some spans := by
  refine (ranges_three _ _ _ 0 (by intro r hr; simp at hr; rcases hr with rfl | rfl | rfl <;> norm_num)
    (short_three _ (by intro r hr; simp at hr; rcases hr with rfl | rfl | rfl <;> norm_num))).2 ?_
  rw [map_small _ (by norm_num) (by norm_num), map_small _ (by norm_num) (by norm_num),
    map_small _ (by norm_num) (by norm_num)]
  norm_num

/-- Four short ranges that do not overlap: an example of what `ranges_four` rejects. -/
theorem ranges_four_example :
    normalizeRanges [(0, 0.1), (1, 1.1), (2, 2.1), (3, 3.1)] 0 = none ∧ (∀ x : ℝ, ¬ (InRange x (0, 0.1) ∧ InRange x (1, 1.1))) := by
  have hp := Real.pi_gt_three
  constructor
  · apply ranges_four
    · intro r hr
      simp only [List.mem_cons, List.not_mem_nil, or_false] at hr
      rcases hr with rfl | rfl | rfl | rfl <;> · push Not; norm_num; linarith
    · simp
  · rintro x ⟨⟨n, h1, h2⟩, m, h3, h4⟩
    dsimp only at h1 h2 h3 h4
    have hp' : 0 < 2 * Real.pi := by positivity
    have e := int_small (n := m - n) hp' (y := 2 * Real.pi * ((m - n : ℤ) : ℝ)) rfl (by push_cast; linarith)
      (by push_cast; linarith)
    have : (m : ℝ) = n := by exact_mod_cast (by omega : m = n)
    rw [this] at h3
    norm_num at h2
    linarith

/-- A range given inside another one takes angles away: 5/2 lies in (0, 3) but fails the test. -/
theorem ranges_nested : ∃ spans, normalizeRanges [(0, 3), (1, 2)] 0 = some spans ∧ InRange (5 / 2) (0, 3) ∧
    findInRange (indexerMapAngle (5 / 2) 0) spans % 2 = 0 := by
  classical
  have hp := Real.pi_gt_three
  have hm : ∀ x : ℝ, 0 ≤ x → x < 6 → indexerMapAngle x 0 = x := by
    intro x h1 h2
    obtain ⟨k, hk, h3, h4⟩ := map_spec x 0
    have hp' : 0 < 2 * Real.pi := by positivity
    have := int_small (n := k) hp' (y := indexerMapAngle x 0 - x) (by linarith) (by linarith) (by linarith)
    rw [this] at hk
    simpa using hk
  have hmap : mapped [(0, 3), (1, 2)] 0 = [(0, 3), (1, 2)] := by
    simp only [mapped, List.map_cons, List.map_nil, hm 0 le_rfl (by norm_num), hm 3 (by norm_num) (by norm_num),
      hm 1 (by norm_num) (by norm_num), hm 2 (by norm_num) (by norm_num)]
  have hsort : sorted [((0 : ℝ), (3 : ℝ)), (1, 2)] = [(0, 3), (1, 2)] := by
    unfold sorted
    apply List.mergeSort_of_pairwise
    simp
  have hn : normalizeRanges [((0 : ℝ), (3 : ℝ)), (1, 2)] 0 = some [0, 3, 1, 2] := by
    rw [normalize_eq]
    · rw [hmap, hsort]
      have : unwrap 0 [((0 : ℝ), (3 : ℝ)), (1, 2)] = some [(0, 3), (1, 2)] := by
        unfold unwrap
        simp only [List.getLast?_cons_cons, List.getLast?_singleton]
        rw [if_neg (by norm_num)]
      rw [this]
      simp [allGreater, flat]
    · intro r hr
      simp only [List.mem_cons, List.not_mem_nil, or_false] at hr
      rcases hr with rfl | rfl <;> norm_num
    · intro r hr
      simp only [List.mem_cons, List.not_mem_nil, or_false] at hr
      rcases hr with rfl | rfl <;> · push Not; norm_num; linarith
  refine ⟨_, hn, ⟨0, by norm_num, by norm_num⟩, ?_⟩
  rw [hm _ (by norm_num) (by norm_num)]
  unfold findInRange
  norm_num

/-! ### Bins and hits -/

/-- The bin that is looked up is the bin that contains the value; outside of all bins the lookup fails. -/
theorem bin_lookup (x : ℝ) (edges : List ℝ) (hs : edges.Pairwise (· ≤ ·)) (hne : edges ≠ []) (i : Nat) :
    findInRange x edges - 1 = (i : Int) ↔ InBin edges x i := by
  obtain ⟨h1, h2, h3⟩ := bisect_spec x edges hs 0 edges.length (Nat.zero_le _) le_rfl (fun i _ h => absurd h (by omega))
    (fun i h h' => absurd h (by omega))
  rw [bisect_eq_cnt x edges hs] at h1 h2 h3
  rw [findInRange_eq x edges hs hne]
  unfold InBin
  constructor
  · intro h
    split at h
    · omega
    · rename_i hc
      have hi : cnt x edges = i + 1 := by omega
      have hlt : i + 1 < edges.length := by omega
      exact ⟨edges[i], edges[i + 1], List.getElem?_eq_getElem (by omega), List.getElem?_eq_getElem hlt,
        h2 i (by omega) (by omega), h3 (i + 1) hlt (by omega)⟩
  · rintro ⟨lo, hi, e1, e2, hlo, hhi⟩
    obtain ⟨g1, rfl⟩ := List.getElem?_eq_some_iff.1 e1
    obtain ⟨g2, rfl⟩ := List.getElem?_eq_some_iff.1 e2
    have c1 : i < cnt x edges := by
      by_contra hc
      exact absurd (h3 i g1 (by omega)) (by push Not; exact hlo)
    have c2 : cnt x edges ≤ i + 1 := by
      by_contra hc
      exact absurd (h2 (i + 1) g2 (by omega)) (by push Not; exact hhi)
    rw [if_neg (by omega)]
    omega

theorem inBin_lt {edges : List ℝ} {x : ℝ} {i : Nat} (h : InBin edges x i) : i < edges.length - 1 := by
  obtain ⟨lo, hi, -, e2, -, -⟩ := h
  obtain ⟨g2, -⟩ := List.getElem?_eq_some_iff.1 e2
  omega

/-- Without NaN in the window, the test is 1 exactly if a pixel of the map within the tolerance is above the threshold,
and 0 otherwise. -/
theorem dilated_spec (nOme nEta eta ome dEta dOme : Nat) (he : eta < nEta) (ho : ome < nOme) (m : EtaOmeMap) (thr : ℝ)
    (hn : ∀ ij, Near nOme nEta ome eta dOme dEta ij → m ij.1 ij.2 ≠ none) :
    (checkDilated nOme nEta eta ome dEta dOme m thr = 1 ↔
      ∃ ij v, Near nOme nEta ome eta dOme dEta ij ∧ m ij.1 ij.2 = some v ∧ thr < v) ∧
    (checkDilated nOme nEta eta ome dEta dOme m thr = 1 ∨ checkDilated nOme nEta eta ome dEta dOme m thr = 0) := by
  unfold checkDilated
  have hno : none ∉ (window nOme nEta eta ome dEta dOme).map fun ij => m ij.1 ij.2 := by
    intro h
    obtain ⟨ij, hij, h⟩ := List.mem_map.1 h
    exact hn ij ((mem_window he ho ij).1 hij) h
  obtain ⟨h1, h2⟩ := scan_noNaN thr _ hno
  constructor
  · rw [h1]
    constructor
    · rintro ⟨v, hv, h⟩
      obtain ⟨ij, hij, e⟩ := List.mem_map.1 hv
      exact ⟨ij, v, (mem_window he ho ij).1 hij, e, h⟩
    · rintro ⟨ij, v, hij, e, h⟩
      exact ⟨v, List.mem_map.2 ⟨ij, (mem_window he ho ij).2 hij, e⟩, h⟩
  · rcases scan_cases thr ((window nOme nEta eta ome dEta dOme).map fun ij => m ij.1 ij.2) with h | h | h
    · exact Or.inl h
    · exact Or.inr h
    · exact absurd h h2

/-- With NaN in the window: a miss (0) means that all pixels are numbers not above the threshold; so a prediction whose
window has a NaN is either left out or counted as a hit, never as a miss. -/
theorem dilated_nan (nOme nEta eta ome dEta dOme : Nat) (he : eta < nEta) (ho : ome < nOme) (m : EtaOmeMap) (thr : ℝ) :
    checkDilated nOme nEta eta ome dEta dOme m thr = 0 ↔
      ∀ ij, Near nOme nEta ome eta dOme dEta ij → ∃ v, m ij.1 ij.2 = some v ∧ v ≤ thr := by
  unfold checkDilated
  rw [scan_zero]
  constructor
  · intro h ij hij
    exact h _ (List.mem_map.2 ⟨ij, (mem_window he ho ij).2 hij, rfl⟩)
  · intro h a ha
    obtain ⟨ij, hij, rfl⟩ := List.mem_map.1 ha
    exact h ij ((mem_window he ho ij).1 hij)

/-- "Bins containing NaN are excluded" is false: with a hit to the left of a NaN the prediction counts, with the same
two pixels exchanged it does not. -/
theorem dilated_nan_order :
    checkDilated 1 2 0 0 1 0 (fun _ j => if j = 0 then some 5 else none) 1 = 1 ∧
    checkDilated 1 2 0 0 1 0 (fun _ j => if j = 0 then none else some 5) 1 = -1 := by
  constructor <;> simp [checkDilated, window, scan, List.range']

/-- What the specification calls a valid prediction. -/
def Valid (p : Params) (etaRanges omeRanges : List (ℝ × ℝ)) (eta ome : ℝ) (i j : Nat) : Prop :=
  (∃ r ∈ etaRanges, InRange eta r ∨ r.1 + 2 * Real.pi < r.2 + 1 / 10 ^ 8) ∧
  (∃ r ∈ omeRanges, InRange ome r ∨ r.1 + 2 * Real.pi < r.2 + 1 / 10 ^ 8) ∧
  InBin p.etaEdges (indexerMapAngle eta (-Real.pi)) j ∧ InBin p.omeEdges (indexerMapAngle ome p.omeOffset) i

theorem binary (p : Params) (k : Nat) (a : Option (ℝ × ℝ)) :
    angleIsHit p k a = (0, 0) ∨ angleIsHit p k a = (0, 1) ∨ angleIsHit p k a = (1, 1) := by
  cases a with
  | none => exact Or.inl rfl
  | some a =>
    obtain ⟨eta, ome⟩ := a
    unfold angleIsHit
    dsimp only
    split
    · exact Or.inl rfl
    split
    · exact Or.inl rfl
    split
    · exact Or.inl rfl
    split
    · exact Or.inl rfl
    split
    · exact Or.inl rfl
    · rename_i h
      unfold checkDilated at h ⊢
      rcases scan_cases (p.threshold k) ((window (p.omeEdges.length - 1) (p.etaEdges.length - 1)
        (findInRange (indexerMapAngle eta (-Real.pi)) p.etaEdges - 1).toNat
        (findInRange (indexerMapAngle ome p.omeOffset) p.omeEdges - 1).toNat p.dEta p.dOme).map
        fun ij => p.maps k ij.1 ij.2) with hc | hc | hc
      · rw [hc]; exact Or.inr (Or.inr rfl)
      · rw [hc]; exact Or.inr (Or.inl rfl)
      · exact absurd hc h

/-- A prediction is counted exactly if it is in the ranges and in the map and its window is not spoilt by a NaN; it is a
hit exactly if the test of the window around its pixel is 1. -/
theorem hit_spec (p : Params) (etaRanges omeRanges : List (ℝ × ℝ)) (k : Nat) (eta ome : ℝ)
    (he : normalizeRanges etaRanges (-Real.pi) = some p.etaSpans) (ho : normalizeRanges omeRanges p.omeOffset = some p.omeSpans)
    (de : DisjointRanges etaRanges) (dO : DisjointRanges omeRanges)
    (se : p.etaEdges.Pairwise (· ≤ ·)) (so : p.omeEdges.Pairwise (· ≤ ·)) (ne : p.etaEdges ≠ []) (no : p.omeEdges ≠ []) :
    ((angleIsHit p k (some (eta, ome))).2 = 1 ↔ ∃ i j, Valid p etaRanges omeRanges eta ome i j ∧
      checkDilated (p.omeEdges.length - 1) (p.etaEdges.length - 1) j i p.dEta p.dOme (p.maps k) (p.threshold k) ≠ -1) ∧
    ((angleIsHit p k (some (eta, ome))).1 = 1 ↔ ∃ i j, Valid p etaRanges omeRanges eta ome i j ∧
      checkDilated (p.omeEdges.length - 1) (p.etaEdges.length - 1) j i p.dEta p.dOme (p.maps k) (p.threshold k) = 1) := by
  have r1 := ranges_partial etaRanges (-Real.pi) _ he de eta
  have r2 := ranges_partial omeRanges p.omeOffset _ ho dO ome
  have b1 := fun j => bin_lookup (indexerMapAngle eta (-Real.pi)) p.etaEdges se ne j
  have b2 := fun i => bin_lookup (indexerMapAngle ome p.omeOffset) p.omeEdges so no i
  unfold Valid
  rw [← r1, ← r2]
  simp only [← b1, ← b2]
  unfold angleIsHit
  dsimp only
  by_cases c1 : findInRange (indexerMapAngle eta (-Real.pi)) p.etaSpans % 2 = 0
  · rw [if_pos c1]
    have : ¬ findInRange (indexerMapAngle eta (-Real.pi)) p.etaSpans % 2 = 1 := by omega
    simp [this]
  rw [if_neg c1]
  have c1' : findInRange (indexerMapAngle eta (-Real.pi)) p.etaSpans % 2 = 1 := by omega
  by_cases c2 : findInRange (indexerMapAngle ome p.omeOffset) p.omeSpans % 2 = 0
  · rw [if_pos c2]
    have : ¬ findInRange (indexerMapAngle ome p.omeOffset) p.omeSpans % 2 = 1 := by omega
    simp [this]
  rw [if_neg c2]
  have c2' : findInRange (indexerMapAngle ome p.omeOffset) p.omeSpans % 2 = 1 := by omega
  simp only [c1', c2', true_and]
  generalize findInRange (indexerMapAngle eta (-Real.pi)) p.etaEdges - 1 = J
  generalize findInRange (indexerMapAngle ome p.omeOffset) p.omeEdges - 1 = I
  by_cases c3 : J < 0
  · rw [if_pos c3]
    constructor <;> constructor
    · intro h; simp at h
    · rintro ⟨i, j, ⟨h, -⟩, -⟩; omega
    · intro h; simp at h
    · rintro ⟨i, j, ⟨h, -⟩, -⟩; omega
  rw [if_neg c3]
  by_cases c4 : I < 0
  · rw [if_pos c4]
    constructor <;> constructor
    · intro h; simp at h
    · rintro ⟨i, j, ⟨-, h⟩, -⟩; omega
    · intro h; simp at h
    · rintro ⟨i, j, ⟨-, h⟩, -⟩; omega
  rw [if_neg c4]
  obtain ⟨j, rfl⟩ := Int.eq_ofNat_of_zero_le (not_lt.1 c3)
  obtain ⟨i, rfl⟩ := Int.eq_ofNat_of_zero_le (not_lt.1 c4)
  simp only [Int.toNat_natCast, Nat.cast_inj]
  have red : ∀ P : Nat → Nat → Prop, (∃ i' j', (j = j' ∧ i = i') ∧ P i' j') ↔ P i j := by
    intro P
    constructor
    · rintro ⟨_, _, ⟨rfl, rfl⟩, h⟩; exact h
    · intro h; exact ⟨i, j, ⟨rfl, rfl⟩, h⟩
  rw [red fun i j => checkDilated _ _ j i _ _ _ _ ≠ -1, red fun i j => checkDilated _ _ j i _ _ _ _ = 1]
  generalize hcd : checkDilated (p.omeEdges.length - 1) (p.etaEdges.length - 1) j i p.dEta p.dOme (p.maps k) (p.threshold k) = d
  have hd : d = 1 ∨ d = 0 ∨ d = -1 := by rw [← hcd]; exact scan_cases _ _
  rcases hd with rfl | rfl | rfl <;> simp

/-- For a map without NaN, in terms of the data only. -/
theorem hit_noNaN (p : Params) (etaRanges omeRanges : List (ℝ × ℝ)) (k : Nat) (eta ome : ℝ)
    (he : normalizeRanges etaRanges (-Real.pi) = some p.etaSpans) (ho : normalizeRanges omeRanges p.omeOffset = some p.omeSpans)
    (de : DisjointRanges etaRanges) (dO : DisjointRanges omeRanges)
    (se : p.etaEdges.Pairwise (· ≤ ·)) (so : p.omeEdges.Pairwise (· ≤ ·)) (ne : p.etaEdges ≠ []) (no : p.omeEdges ≠ [])
    (hn : ∀ i j, i < p.omeEdges.length - 1 → j < p.etaEdges.length - 1 → p.maps k i j ≠ none) :
    ((angleIsHit p k (some (eta, ome))).2 = 1 ↔ ∃ i j, Valid p etaRanges omeRanges eta ome i j) ∧
    ((angleIsHit p k (some (eta, ome))).1 = 1 ↔ ∃ i j, Valid p etaRanges omeRanges eta ome i j ∧
      ∃ ij v, Near (p.omeEdges.length - 1) (p.etaEdges.length - 1) i j p.dOme p.dEta ij ∧ p.maps k ij.1 ij.2 = some v ∧
        p.threshold k < v) := by
  obtain ⟨h1, h2⟩ := hit_spec p etaRanges omeRanges k eta ome he ho de dO se so ne no
  have hd : ∀ i j, Valid p etaRanges omeRanges eta ome i j → _ := fun i j hv =>
    dilated_spec (p.omeEdges.length - 1) (p.etaEdges.length - 1) j i p.dEta p.dOme (inBin_lt hv.2.2.1) (inBin_lt hv.2.2.2)
      (p.maps k) (p.threshold k) (fun ij hij => hn _ _ hij.1 hij.2.1)
  constructor
  · rw [h1]
    refine exists_congr fun i => exists_congr fun j => ⟨fun h => h.1, fun h => ⟨h, ?_⟩⟩
    rcases (hd i j h).2 with e | e <;> rw [e] <;> norm_num
  · rw [h2]
    exact exists_congr fun i => exists_congr fun j => and_congr_right fun h => (hd i j h).1

/-! ### Completeness -/

/-- Numbers of hits and of counted predictions. -/
def hits (p : Params) (l : List (Nat × Option (ℝ × ℝ))) : Nat := l.countP fun ka => (angleIsHit p ka.1 ka.2).1 = 1
@[inherit_doc hits] def counted (p : Params) (l : List (Nat × Option (ℝ × ℝ))) : Nat :=
  l.countP fun ka => (angleIsHit p ka.1 ka.2).2 = 1

theorem one_fst (p : Params) (k : Nat) (a : Option (ℝ × ℝ)) :
    (if (angleIsHit p k a).1 = 1 then 1 else 0) = (angleIsHit p k a).1 := by
  rcases binary p k a with h | h | h <;> simp [h]

theorem one_snd (p : Params) (k : Nat) (a : Option (ℝ × ℝ)) :
    (if (angleIsHit p k a).2 = 1 then 1 else 0) = (angleIsHit p k a).2 := by
  rcases binary p k a with h | h | h <;> simp [h]

theorem tot_eq (p : Params) (k : Nat) (f : List Pair) :
    tot p k f = (hits p (f.flatMap fun ab => [(k, ab.1), (k, ab.2)]), counted p (f.flatMap fun ab => [(k, ab.1), (k, ab.2)])) := by
  induction f with
  | nil => rfl
  | cons ab f ih =>
    obtain ⟨a, b⟩ := ab
    unfold tot
    rw [ih]
    unfold hits counted
    simp only [List.flatMap_cons, List.cons_append, List.nil_append, List.countP_cons, decide_eq_true_eq]
    rw [one_fst, one_fst, one_snd, one_snd]
    simp only [Prod.mk.injEq]
    omega

theorem totals_eq (p : Params) (k : Nat) (F : List (List Pair)) :
    totals p k F = (hits p ((F.zipIdx k).flatMap fun fk => fk.1.flatMap fun ab => [(fk.2, ab.1), (fk.2, ab.2)]),
      counted p ((F.zipIdx k).flatMap fun fk => fk.1.flatMap fun ab => [(fk.2, ab.1), (fk.2, ab.2)])) := by
  induction F generalizing k with
  | nil => rfl
  | cons f F ih =>
    unfold totals
    rw [ih, tot_eq]
    unfold hits counted
    simp only [List.zipIdx_cons, List.flatMap_cons, List.countP_append]

/-- The score is the number of hits divided by the number of counted predictions, every predicted reflection being
compared with the map and threshold of its own family; it is 0 if nothing is counted. -/
theorem score_spec (p : Params) (F : List (List Pair)) (hne : ∀ f ∈ F, f ≠ []) :
    score p F = if counted p (predictions F) = 0 then 0 else (hits p (predictions F) : ℝ) / counted p (predictions F) := by
  unfold score filterAndCountHits
  rw [count_eq p F hne, totals_eq]
  unfold predictions
  dsimp only
  by_cases h : counted p ((F.zipIdx 0).flatMap fun fk => fk.1.flatMap fun ab => [(fk.2, ab.1), (fk.2, ab.2)]) = 0
  · rw [if_pos h, if_neg (by simpa using h)]
  · rw [if_neg h, if_pos h]

theorem hits_le (p : Params) (l : List (Nat × Option (ℝ × ℝ))) : hits p l ≤ counted p l := by
  unfold hits counted
  apply List.countP_mono_left
  intro ka _ h
  simp only [decide_eq_true_eq] at h ⊢
  rcases binary p ka.1 ka.2 with e | e | e <;> rw [e] at h ⊢ <;> simp_all

/-- The score is between 0 and 1. -/
theorem score_range (p : Params) (F : List (List Pair)) (hne : ∀ f ∈ F, f ≠ []) : 0 ≤ score p F ∧ score p F ≤ 1 := by
  rw [score_spec p F hne]
  split
  · norm_num
  · rename_i h
    have hc : (0 : ℝ) < counted p (predictions F) := by exact_mod_cast Nat.pos_of_ne_zero h
    have hl : (hits p (predictions F) : ℝ) ≤ counted p (predictions F) := by exact_mod_cast hits_le p _
    exact ⟨by positivity, by rw [div_le_one hc]; exact hl⟩

/-- The score is 1 exactly if something is counted and everything that is counted is a hit. -/
theorem score_one (p : Params) (F : List (List Pair)) (hne : ∀ f ∈ F, f ≠ []) :
    score p F = 1 ↔ (∃ ka ∈ predictions F, (angleIsHit p ka.1 ka.2).2 = 1) ∧
      ∀ ka ∈ predictions F, (angleIsHit p ka.1 ka.2).2 = 1 → (angleIsHit p ka.1 ka.2).1 = 1 := by
  rw [score_spec p F hne]
  have hex : counted p (predictions F) ≠ 0 ↔ ∃ ka ∈ predictions F, (angleIsHit p ka.1 ka.2).2 = 1 := by
    unfold counted
    rw [Ne, List.countP_eq_zero]
    push Not
    simp
  have hall : hits p (predictions F) = counted p (predictions F) ↔
      ∀ ka ∈ predictions F, (angleIsHit p ka.1 ka.2).2 = 1 → (angleIsHit p ka.1 ka.2).1 = 1 := by
    generalize predictions F = l
    induction l with
    | nil => simp [hits, counted]
    | cons ka l ih =>
      have hl := hits_le p l
      have e1 : hits p (ka :: l) = hits p l + (angleIsHit p ka.1 ka.2).1 := by
        unfold hits; rw [List.countP_cons]; simp only [decide_eq_true_eq]; rw [one_fst]
      have e2 : counted p (ka :: l) = counted p l + (angleIsHit p ka.1 ka.2).2 := by
        unfold counted; rw [List.countP_cons]; simp only [decide_eq_true_eq]; rw [one_snd]
      rw [e1, e2]
      simp only [List.mem_cons, forall_eq_or_imp]
      rw [← ih]
      rcases binary p ka.1 ka.2 with e | e | e <;> rw [e] <;> simp <;> omega
  rw [← hex, ← hall]
  split
  · rename_i h; simp [h]
  · rename_i h
    have hc : (counted p (predictions F) : ℝ) ≠ 0 := by exact_mod_cast h
    rw [div_eq_one_iff_eq hc]
    simp only [ne_eq, h, not_false_eq_true, true_and]
    exact_mod_cast Iff.rfl

/-- Example: full ranges, two omega bins, one eta bin, a map with one bright pixel. -/
def exParams : Params where
  etaSpans := [-Real.pi, 2 * Real.pi + -Real.pi]
  omeSpans := [0, 2 * Real.pi + 0]
  etaEdges := [-1, 1]
  omeEdges := [0, 1, 2]
  maps := fun _ i _ => some (if i = 0 then 5 else 0)
  threshold := fun _ => 1
  dEta := 0
  dOme := 0
  omeOffset := 0

theorem exParams_eta (x : ℝ) (h1 : -1 ≤ x) (h2 : x < 1) : indexerMapAngle x (-Real.pi) = x := by
  have hp := Real.pi_gt_three
  obtain ⟨k, hk, h3, h4⟩ := map_spec x (-Real.pi)
  have hp' : 0 < 2 * Real.pi := by positivity
  have := int_small (n := k) hp' (y := indexerMapAngle x (-Real.pi) - x) (by linarith) (by linarith) (by linarith)
  rw [this] at hk
  simpa using hk

/-- In the example one solution is a hit, the other one is a miss. -/
theorem score_example : score exParams [[(some (0, 1 / 2), some (0, 3 / 2))]] = 1 / 2 := by
  have hp := Real.pi_gt_three
  have full : ∀ o : ℝ, normalizeRanges [(o, o + 2 * Real.pi)] o = some [o, 2 * Real.pi + o] := by
    intro o
    apply normalize_full
    · intro r hr; simp at hr; subst hr; dsimp only; linarith
    · exact ⟨_, List.mem_cons_self, by norm_num⟩
  have key := fun ome => hit_noNaN exParams [(-Real.pi, -Real.pi + 2 * Real.pi)] [(0, 0 + 2 * Real.pi)] 0 0 ome
    (full (-Real.pi)) (full 0) (by simp [DisjointRanges]) (by simp [DisjointRanges]) (by norm_num [exParams])
    (by norm_num [exParams]) (by simp [exParams]) (by simp [exParams]) (by simp [exParams])
  have hv : ∀ ome i, InBin exParams.omeEdges (indexerMapAngle ome 0) i →
      Valid exParams [(-Real.pi, -Real.pi + 2 * Real.pi)] [(0, 0 + 2 * Real.pi)] 0 ome i 0 := by
    intro ome i hi
    refine ⟨⟨_, List.mem_cons_self, Or.inr (by norm_num)⟩, ⟨_, List.mem_cons_self, Or.inr (by norm_num)⟩, ?_, hi⟩
    rw [exParams_eta 0 (by norm_num) (by norm_num)]
    exact ⟨-1, 1, rfl, rfl, by norm_num, by norm_num⟩
  have b0 : InBin exParams.omeEdges (indexerMapAngle (1 / 2) 0) 0 := by
    rw [map_small _ (by norm_num) (by norm_num)]
    exact ⟨0, 1, rfl, rfl, by norm_num, by norm_num⟩
  have b1 : InBin exParams.omeEdges (indexerMapAngle (3 / 2) 0) 1 := by
    rw [map_small _ (by norm_num) (by norm_num)]
    exact ⟨1, 2, rfl, rfl, by norm_num, by norm_num⟩
  have a2 : (angleIsHit exParams 0 (some (0, 1 / 2))).2 = 1 := (key (1 / 2)).1.2 ⟨0, 0, hv _ _ b0⟩
  have a1 : (angleIsHit exParams 0 (some (0, 1 / 2))).1 = 1 :=
    (key (1 / 2)).2.2 ⟨0, 0, hv _ _ b0, (0, 0), 5, by simp [Near, exParams], by simp [exParams], by norm_num [exParams]⟩
  have c2 : (angleIsHit exParams 0 (some (0, 3 / 2))).2 = 1 := (key (3 / 2)).1.2 ⟨1, 0, hv _ _ b1⟩
  have c1 : (angleIsHit exParams 0 (some (0, 3 / 2))).1 ≠ 1 := by
    intro h
    obtain ⟨i, j, hV, ⟨i', j'⟩, v, hN, hm, ht⟩ := (key (3 / 2)).2.1 h
    obtain ⟨lo, hi, e1, e2, g1, g2⟩ := hV.2.2.2
    rw [show exParams.omeOffset = 0 from rfl, map_small _ (by norm_num) (by norm_num)] at g1 g2
    have hi' : i' = i := by simp [Near, exParams] at hN; omega
    match i with
    | 0 =>
      simp [exParams] at e2
      subst e2
      norm_num at g2
    | i + 1 =>
      subst hi'
      simp [exParams] at hm ht
      linarith
  rw [score_spec _ _ (by simp)]
  have p0 : predictions [[((some (0, 1 / 2) : Option (ℝ × ℝ)), (some (0, 3 / 2) : Option (ℝ × ℝ)))]] =
      [(0, some (0, 1 / 2)), (0, some (0, 3 / 2))] := rfl
  rw [p0]
  have hc : counted exParams [(0, some (0, 1 / 2)), (0, some (0, 3 / 2))] = 2 := by
    simp only [counted, List.countP_cons, List.countP_nil, a2, c2]; rfl
  have hh : hits exParams [(0, some (0, 1 / 2)), (0, some (0, 3 / 2))] = 1 := by
    simp only [hits, List.countP_cons, List.countP_nil, a1, c1]; rfl
  rw [hc, hh]
  norm_num

/-! ### The tolerance in pixels -/

/-- The number of pixels is the nearest whole number of bins. -/
theorem dpix_nearest (tol del : ℝ) (hd : 0 < del) : |dpix tol del * del - tol| ≤ del / 2 := by
  have h1 := Int.floor_le (tol / del)
  have h2 := Int.lt_floor_add_one (tol / del)
  have key : |(dpix tol del : ℝ) - tol / del| ≤ 1 / 2 := by
    unfold dpix
    dsimp only
    rw [abs_le]
    split
    · constructor <;> linarith
    · split
      · push_cast; constructor <;> linarith
      · split
        · constructor <;> linarith
        · push_cast; constructor <;> linarith
  have e : (dpix tol del : ℝ) * del - tol = (dpix tol del - tol / del) * del := by field_simp
  rw [e, abs_mul, abs_of_pos hd]
  nlinarith

/-! ### Distribution to processes -/

/-- With at least one orientation per batch, the scores come back complete and in the order of the orientations,
whatever the order in which the batches finish. -/
theorem poolMap_order {α β : Type} (f : α → β) (l : List α) (size : Nat) (hs : 0 < size) (order : List Nat)
    (hall : ∀ i, i * size < l.length → i ∈ order) : poolMap f l size order = l.map fun a => some (f a) := by
  obtain ⟨h1, h2⟩ := pool_fold f l size hs order (List.replicate l.length none) (by simp)
  unfold poolMap
  apply List.ext_getElem?
  intro j
  by_cases hj : j < l.length
  · rw [h2 j hj, if_pos (hall _ (lt_of_le_of_lt (Nat.div_mul_le_self j size) hj)), List.getElem?_map]
  · rw [List.getElem?_eq_none (by omega), List.getElem?_eq_none (by simpa using hj)]

/-- `paintGrid` gives the same result with and without processes, as long as there are at least as many orientations as
processes. -/
theorem paintGrid_partial {Q : Type} (f : Q → ℝ) (quats : List Q) (multi : Bool) (nCPUs : Nat) (hc : 0 < nCPUs)
    (hn : nCPUs ≤ quats.length) (order : List Nat)
    (hall : ∀ i, i * chunkSize quats.length nCPUs < quats.length → i ∈ order) :
    paintGrid f quats multi nCPUs order = quats.map fun q => some (f q) := by
  have hs : 0 < chunkSize quats.length nCPUs := by
    unfold chunkSize
    have := Nat.div_pos hn hc
    omega
  unfold paintGrid
  cases multi
  · simp
  · simp only [if_true]
    exact poolMap_order f quats _ hs order hall

/-- With fewer orientations than processes the chunk size is 0: no orientation is looked at, all scores are `None`. -/
theorem paintGrid_few {Q : Type} (f : Q → ℝ) (quats : List Q) (nCPUs : Nat) (hn : quats.length < nCPUs) (order : List Nat) :
    paintGrid f quats true nCPUs order = List.replicate quats.length none := by
  have hs : chunkSize quats.length nCPUs = 0 := by
    unfold chunkSize
    rw [Nat.div_eq_of_lt hn]
    rfl
  have ht : getTasks quats 0 = [] := by
    unfold getTasks
    split
    · rfl
    · rename_i h; simp at h
  unfold paintGrid poolMap
  simp only [if_true, hs, ht]
  have : (order.filterMap fun i => (([] : List (List Q))[i]?).map fun b => (i, b.map f)) = [] := by simp
  rw [this]
  rfl

/-- Example: 25 orientations and 2 processes, three batches finished in the order 2, 0, 1. -/
theorem paintGrid_example : paintGrid (fun q : ℝ => q) (List.replicate 25 (1 / 2)) true 2 [2, 0, 1] =
    List.replicate 25 (some (1 / 2)) := by
  rw [paintGrid_partial _ _ _ _ (by norm_num) (by simp)]
  · simp
  · intro i hi
    simp only [List.length_replicate, chunkSize] at hi
    norm_num at hi
    have : i < 3 := by omega
    interval_cases i <;> simp

end

end Hexrd.Indexer
