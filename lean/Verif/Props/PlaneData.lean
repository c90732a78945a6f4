import Verif.Lemmas.PlaneData
import Verif.Lemmas.MergedRanges

/-!
# Properties of reflection exclusions and merged ranges (C15, C16, C17)
-/
namespace Hexrd.PlaneData
variable {K : Type} [LinearOrder K] {n : Nat}

/-- A state as left by `_calc`: the sort is a permutation and `sortInv` was filled from it. -/
def Ready (pd : PD K n) : Prop := Function.Injective pd.sort ∧ pd.sortInv = scatter pd.sort

/-- Specification: two-theta above the maximum. -/
def beyond (pd : PD K n) (i : Fin n) : Prop :=
  ∃ m t, pd.tthMax = some m ∧ (data pd i).tth = some t ∧ m < t

omit [LinearOrder K] in
theorem recalc_ready (pd : PD K n) (refl : Fin n → Refl K) (sort : Fin n → Fin n)
    (h : Function.Injective sort) : Ready (recalc pd refl sort) := ⟨h, rfl⟩

/-! ## C15 -/

/-- C15, mask: reading back a mask gives the mask (and everything beyond the two-theta
maximum), for every sort order. -/
theorem mask_roundtrip (pd : PD K n) (hr : Ready pd) (m : List Bool) (hm : m.length = n) :
    ∃ pd', setExclusions pd (.mask m) = some pd' ∧
      ∀ i : Fin n, getExclusions pd' i = true ↔ m[i.val]? = some true ∨ beyond pd i := by
  refine ⟨_, by simp only [setExclusions]; rw [dif_pos hm], ?_⟩
  intro i
  have e : pd.sortInv (pd.sort i) = i := by rw [hr.2, scatter_sort _ hr.1]
  unfold getExclusions beyond
  simp only [e, data]
  rw [List.getElem?_eq_getElem (by rw [hm]; exact i.isLt)]
  cases htm : pd.tthMax with
  | none => simp
  | some mx =>
    cases ht : (pd.refl (pd.sort i)).tth with
    | none => simp [fgt]
    | some t => by_cases hlt : mx < t <;> simp [fgt, hlt]

/-- C15, mask over a history: a mask set in one order keeps following its reflections
through any number of re-sorts (changes of lattice parameters, wavelength, strain):
reflection `k` of the underlying list is reported excluded exactly if it was excluded
where it stood when the mask was set. -/
theorem mask_follows_reflections (pd : PD K n) (hr : Ready pd) (htm : pd.tthMax = none) (m : List Bool)
    (hm : m.length = n) (hist : List ((Fin n → Refl K) × (Fin n → Fin n)))
    (pd' : PD K n) (hset : setExclusions pd (.mask m) = some pd')
    (i k : Fin n) (hik : (hist.foldl (fun p x => recalc p x.1 x.2) pd').sort i = pd.sort k) :
    getExclusions (hist.foldl (fun p x => recalc p x.1 x.2) pd') i = true ↔ m[k.val]? = some true := by
  have inv : ∀ (hist : List ((Fin n → Refl K) × (Fin n → Fin n))) (p : PD K n),
      (hist.foldl (fun p x => recalc p x.1 x.2) p).excl = p.excl ∧
      (hist.foldl (fun p x => recalc p x.1 x.2) p).tthMax = p.tthMax := by
    intro hist
    induction hist with
    | nil => intro p; exact ⟨rfl, rfl⟩
    | cons x l ih => intro p; rw [List.foldl_cons]; exact ih _
  have h1 := inv hist pd'
  have e : pd.sortInv (pd.sort k) = k := by rw [hr.2, scatter_sort _ hr.1]
  have h2 : pd'.excl = some (fun j => m[(pd.sortInv j).val]'(hm ▸ (pd.sortInv j).isLt)) ∧ pd'.tthMax = none := by
    simp only [setExclusions] at hset
    rw [dif_pos hm] at hset
    cases hset
    exact ⟨rfl, htm⟩
  unfold getExclusions
  rw [h1.1, h1.2, h2.1, h2.2]
  simp only [hik, e]
  rw [List.getElem?_eq_getElem (by rw [hm]; exact k.isLt)]
  simp

/-- C15 (partial: sort orders that are their own inverse): reading back an index list
gives exactly those indices. -/
theorem indices_roundtrip_partial (pd : PD K n) (hr : Ready pd) (hinv : ∀ i, pd.sort (pd.sort i) = i)
    (htm : pd.tthMax = none) (l : List Int) (pd' : PD K n) (hset : setExclusions pd (.indices l) = some pd')
    (i : Fin n) : getExclusions pd' i = true ↔ ∃ k ∈ l, npIndex n k = some i := by
  simp only [setExclusions] at hset
  split at hset
  · cases hset
  · cases hm : l.mapM (npIndex n) with
    | none => simp [hm] at hset
    | some idx =>
      simp only [hm, Option.map_some, Option.some.injEq] at hset
      subst hset
      unfold getExclusions
      simp only [htm]
      rw [mark_eq]
      simp only [Bool.false_eq_true, false_or]
      have e : ∀ k, pd.sort i = pd.sortInv k ↔ i = k := by
        intro k
        rw [hr.2]
        constructor
        · intro h
          have := congrArg pd.sort h
          rw [hinv, sort_scatter _ hr.1] at this
          exact this
        · rintro rfl
          apply hr.1
          rw [hinv, sort_scatter _ hr.1]
      constructor
      · rintro ⟨k, hk, h⟩
        rw [(e k).1 h]
        exact (mapM_some_iff hm k).1 hk
      · rintro ⟨a, ha, h⟩
        exact ⟨i, (mapM_some_iff hm i).2 ⟨a, ha, h⟩, (e i).2 rfl⟩

/-- C15: after exclusion by index list the listing omits exactly the given indices,
for every sort order. -/
theorem indices_listed (pd : PD K n) (hr : Ready pd) (htm : pd.tthMax = none) (l : List Int) (pd' : PD K n)
    (hset : setExclusions pd (.indices l) = some pd') (i : Fin n) :
    i ∈ listed pd' ↔ ¬ ∃ k ∈ l, npIndex n k = some i := by
  simp only [setExclusions] at hset
  split at hset
  · cases hset
  · cases hm : l.mapM (npIndex n) with
    | none => simp [hm] at hset
    | some idx =>
      simp only [hm, Option.map_some, Option.some.injEq] at hset
      subst hset
      have e : ∀ k, pd.sortInv i = pd.sortInv k ↔ i = k := by
        intro k
        rw [hr.2]
        constructor
        · intro h
          have := congrArg pd.sort h
          rwa [sort_scatter _ hr.1, sort_scatter _ hr.1] at this
        · rintro rfl; rfl
      have key : mark pd.sortInv idx (fun _ => false) (pd.sortInv i) = true ↔ ∃ k ∈ l, npIndex n k = some i := by
        rw [mark_eq]
        simp only [Bool.false_eq_true, false_or, e]
        constructor
        · rintro ⟨k, hk, rfl⟩; exact (mapM_some_iff hm i).1 hk
        · intro h; exact ⟨i, (mapM_some_iff hm i).2 h, rfl⟩
      unfold listed thisHKL
      simp only [List.mem_filter, List.mem_finRange, true_and, htm]
      rw [← key]
      cases mark pd.sortInv idx (fun _ => false) (pd.sortInv i) <;> simp

/-- C15: after exclusion by ranges the listing omits exactly the positions in the
half-open ranges, for every sort order. -/
theorem ranges_listed (pd : PD K n) (hr : Ready pd) (htm : pd.tthMax = none) (l : List (Int × Int)) (pd' : PD K n)
    (hset : setExclusions pd (.ranges l) = some pd') (i : Fin n) :
    i ∈ listed pd' ↔ ¬ ∃ r ∈ l, sliceBound n r.1 ≤ i.val ∧ i.val < sliceBound n r.2 := by
  simp only [setExclusions] at hset
  split at hset
  · cases hset
  · cases hset
    have e : ∀ k, pd.sortInv i = pd.sortInv k ↔ i = k := by
      intro k
      rw [hr.2]
      constructor
      · intro h
        have := congrArg pd.sort h
        rwa [sort_scatter _ hr.1, sort_scatter _ hr.1] at this
      · rintro rfl; rfl
    have key : (l.foldl (fun e r => mark pd.sortInv (slice n r.1 r.2) e) fun _ => false) (pd.sortInv i) = true ↔
        ∃ r ∈ l, sliceBound n r.1 ≤ i.val ∧ i.val < sliceBound n r.2 := by
      rw [mark_ranges_eq]
      simp only [Bool.false_eq_true, false_or, e]
      constructor
      · rintro ⟨r, hr, k, hk, rfl⟩
        exact ⟨r, hr, by simpa [slice] using hk⟩
      · rintro ⟨r, hr, h⟩
        exact ⟨r, hr, i, by simpa [slice] using h, rfl⟩
    unfold listed thisHKL
    simp only [List.mem_filter, List.mem_finRange, true_and, htm]
    rw [← key]
    cases (l.foldl (fun e r => mark pd.sortInv (slice n r.1 r.2) e) fun _ => false) (pd.sortInv i) <;> simp

/-- C15, disagreement: after a mask the listing is right for every mask if and only if
the sort order is its own inverse. -/
theorem mask_listed_iff (pd : PD K n) (hr : Ready pd) (htm : pd.tthMax = none) :
    (∀ m : List Bool, m.length = n → ∀ pd', setExclusions pd (.mask m) = some pd' →
      ∀ i : Fin n, i ∈ listed pd' ↔ m[i.val]? = some false) ↔ ∀ i, pd.sort (pd.sort i) = i := by
  have lst : ∀ m : List Bool, (hm : m.length = n) → ∀ pd', setExclusions pd (.mask m) = some pd' →
      ∀ i : Fin n, i ∈ listed pd' ↔ m[(pd.sortInv (pd.sortInv i)).val]? = some false := by
    intro m hm pd' hset i
    simp only [setExclusions] at hset
    rw [dif_pos hm] at hset
    cases hset
    unfold listed thisHKL
    simp only [List.mem_filter, List.mem_finRange, true_and, htm]
    rw [List.getElem?_eq_getElem (by rw [hm]; exact Fin.isLt _)]
    cases m[(pd.sortInv (pd.sortInv i)).val]'(by rw [hm]; exact Fin.isLt _) <;> simp
  constructor
  · intro h i
    obtain ⟨pd', hset⟩ : ∃ pd', setExclusions pd (.mask (List.ofFn fun j : Fin n => decide (j ≠ i))) =
      some pd' := ⟨_, by simp only [setExclusions]; rw [dif_pos (by simp)]⟩
    have h1 := h _ (by simp) _ hset i
    rw [lst _ (by simp) _ hset i] at h1
    simp only [List.getElem?_ofFn, Fin.is_lt, dite_true, Fin.eta, ne_eq, not_true_eq_false, decide_false,
      iff_true, Option.some.injEq, decide_eq_false_iff_not, not_not] at h1
    rw [hr.2] at h1
    have := congrArg (fun x => pd.sort (pd.sort x)) h1
    simp only [sort_scatter _ hr.1] at this
    exact this.symm
  · intro h m hm pd' hset i
    rw [lst m hm pd' hset i]
    have : pd.sortInv (pd.sortInv i) = i := by
      apply hr.1; apply hr.1
      rw [hr.2, sort_scatter _ hr.1, sort_scatter _ hr.1, h]
    rw [this]

/-- A sorted order of three reflections that is a cycle: two-thetas 3, 1, 2. -/
def cyclic : PD Int 3 :=
  recalc ⟨fun _ => ⟨(0, 0, 0), none, none⟩, id, id, none, none, fun _ => 0, fun _ => 0⟩
    (fun j => ⟨(j.val, 0, 0), some 1, some ([3, 1, 2][j.val]'(by simp))⟩)
    (fun i => [1, 2, 0][i.val]'(by simp))

example : Ready cyclic ∧ (List.finRange 3).map (fun i => (data cyclic i).tth) = [some 1, some 2, some 3] := by
  refine ⟨recalc_ready _ _ _ (by decide), by decide⟩

/-- C15, disagreement: on a cyclic sort order, excluding index 0 is read back as index 1
excluded. -/
theorem indices_read_back_wrong : (setExclusions cyclic (.indices [0])).map
    (fun pd => (List.finRange 3).map (getExclusions pd)) = some [false, true, false] := by decide

/-- C15, disagreement: on a cyclic sort order, the mask that excludes position 0 reads
back correctly, but the listing omits position 2 and lists position 0. -/
theorem mask_lists_wrong : (setExclusions cyclic (.mask [true, false, false])).map
    (fun pd => ((List.finRange 3).map (getExclusions pd), (listed pd).map Fin.val)) =
    some ([true, false, false], [0, 1]) := by decide

omit [LinearOrder K] in
/-- C15, disagreement: an index list as long as the reflection list is refused, e.g.
index 0 of a single reflection. -/
theorem full_length_indices_refused (pd : PD K n) (l : List Int) (h : l.length = n) :
    setExclusions pd (.indices l) = none := by simp [setExclusions, h]

example : Ready (recalc cyclic cyclic.refl id) ∧ ∀ i, (recalc cyclic cyclic.refl id).sort
    ((recalc cyclic cyclic.refl id).sort i) = i := ⟨recalc_ready _ _ _ fun _ _ h => h, fun _ => rfl⟩

/-- C15: with no exclusions set, the listed reflections are those whose two-theta is a
number not above `tThMax`; a reflection without a two-theta is not listed. -/
theorem tthmax_listed (pd : PD K n) (he : pd.excl = none) (i : Fin n) :
    i ∈ listed pd ↔ ∀ m, pd.tthMax = some m → ∃ t, (data pd i).tth = some t ∧ t ≤ m := by
  unfold listed thisHKL
  simp only [List.mem_filter, List.mem_finRange, true_and, he, Bool.false_eq_true, if_false]
  cases pd.tthMax with
  | none => simp
  | some m => cases (data pd i).tth <;> simp [fgt]

/-! ## C16 -/

/-- C16: structure factors and intensities are limited relative to the largest one. -/
theorem relative_spec [Div K] [Zero K] (v : Fin n → K) (j : Fin n) (hj : 0 < v j) (hmax : ∀ i, v i ≤ v j)
    (i : Fin n) : relative v i = some (v i / v j) := by
  have up : ∀ (l : List (Fin n)) (a : K), a ≤ v j → (a = v j ∨ j ∈ l) →
      l.foldl (fun acc i => max acc (v i)) a = v j := by
    intro l
    induction l with
    | nil => intro a _ h; simpa using h
    | cons x l ih =>
      intro a ha h
      refine ih _ (max_le ha (hmax x)) ?_
      rcases h with h | h
      · left; rw [h]; exact max_eq_left (hmax x)
      · rcases List.mem_cons.1 h with h | h
        · left; rw [← h]; exact max_eq_right ha
        · exact Or.inr h
  unfold relative
  rw [up (List.finRange n) 0 (le_of_lt hj) (Or.inr (List.mem_finRange j)), if_neg (ne_of_gt hj)]

/-- Specification: a value is outside the given limits. -/
def outside (lo hi v : Option K) : Prop :=
  (∃ b x, lo = some b ∧ v = some x ∧ x < b) ∨ (∃ b x, hi = some b ∧ v = some x ∧ b < x)

theorem applyLimit_outside (lo hi : Option K) (v : Fin n → Option K) (e : Fin n → Bool) (i : Fin n) :
    applyLimit lo hi v e i = true ↔ e i = true ∨ outside lo hi (v i) := by
  rw [applyLimit_eq]
  unfold outside
  cases v i <;> cases lo <;> cases hi <;> simp [fgt, or_assoc]

/-- C16: after `exclude`, the exclusions are exactly the reflections with at least one
value outside the limits given for it, whatever was excluded before and whatever the
sort order. -/
theorem exclude_spec [Div K] [Zero K] (pd : PD K n) (hr : Ready pd) (l : Limits K) :
    ∃ pd', exclude pd l = some pd' ∧ ∀ i : Fin n, getExclusions pd' i = true ↔
      outside l.dmin l.dmax (data pd i).d ∨ outside l.tthmin l.tthmax (data pd i).tth ∨
      outside l.sfacmin l.sfacmax (relative pd.sfac i) ∨ outside l.pintmin l.pintmax (relative pd.pint i) := by
  unfold exclude
  simp only [setExclusions, Option.bind_some]
  rw [dif_pos (by simp)]
  refine ⟨_, rfl, ?_⟩
  intro i
  have e : pd.sortInv (pd.sort i) = i := by rw [hr.2, scatter_sort _ hr.1]
  unfold getExclusions
  simp only [e, List.getElem_ofFn, Fin.eta]
  rw [applyLimit_outside, applyLimit_outside, applyLimit_outside, applyLimit_outside]
  simp only [Bool.false_eq_true, false_or, or_assoc]
  rfl

example : (exclude cyclic { tthmin := some 2 }).map (fun pd => (List.finRange 3).map (getExclusions pd)) =
    some [true, false, false] := by decide

/-! ## C17 -/

/-- C17: the reported groups and intervals are those of the specification, with and
without culling, for every list of rings. -/
theorem merged_groups (near : K → K → Bool) (cull : Bool) (rs : List (Ring K)) (out : List (List Nat × K × K))
    (h : mergedRanges near cull rs = some out) : ∃ segs, IsGrouping near cull (number 0 rs) out segs := by
  cases rs with
  | nil => cases h
  | cons r rs =>
    cases h
    obtain ⟨first, tail, hf, hg⟩ := mergeLoop_grouping near cull rs r 0 [] [] r.lo (by simp [kept]) (by simp)
      (by simp)
    exact ⟨_, hg⟩

/-- C17: without culling every ring is in exactly one group, in order. -/
theorem merged_partition (near : K → K → Bool) (rs : List (Ring K)) (out : List (List Nat × K × K))
    (h : mergedRanges near false rs = some out) :
    (out.map Prod.fst).flatten = List.range rs.length ∧ ∀ o ∈ out, o.1 ≠ [] := by
  obtain ⟨segs, hg⟩ := merged_groups near false rs out h
  exact partition_of_grouping hg

/-- C17: for rings with ascending limits, every ring's range lies in the interval of its
run, and the intervals of different runs are separated. -/
theorem merged_intervals (near : K → K → Bool) (cull : Bool) (rs : List (Ring K)) (out : List (List Nat × K × K))
    (h : mergedRanges near cull rs = some out)
    (hlo : rs.Pairwise fun r s => r.lo ≤ s.lo) (hhi : rs.Pairwise fun r s => r.hi ≤ s.hi)
    (hr : ∀ r ∈ rs, r.lo ≤ r.hi) :
    (∀ r ∈ rs, ∃ o ∈ out, o.2.1 ≤ r.lo ∧ r.hi ≤ o.2.2) ∧
    out.Pairwise fun o p => o.2.2 < p.2.1 := by
  obtain ⟨segs, hg⟩ := merged_groups near cull rs out h
  exact intervals_of_grouping hg hlo hhi hr

example : mergedRanges (fun a b => a == b) true
    [(⟨10, 8, 12⟩ : Ring Int), ⟨10, 8, 12⟩, ⟨13, 11, 15⟩, ⟨20, 18, 22⟩] =
    some [([1, 2], 8, 15), ([3], 18, 22)] := by decide

end Hexrd.PlaneData
