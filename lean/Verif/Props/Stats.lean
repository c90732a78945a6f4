import Verif.Lemmas.Stats
/-! # C03, C04: image statistics -/
namespace Hexrd.Stats

/-- Specification: the statistic of the frames `0..i`, folding from the left. -/
def prefixStat {I : Type} (op : I → I → I) (frame : Nat → I) : Nat → I
  | 0 => frame 0
  | i+1 => op (prefixStat op frame i) (frame (i+1))

theorem pre_eq {I : Type} (op : I → I → I) (frame : Nat → I) (i : Nat) :
    pre op frame i = prefixStat op frame i := by
  induction i with
  | zero => rfl
  | succ i ih => simp [pre, prefixStat, ih]

/-- Chunk stops: `k` strictly increasing indices, the last being `n - 1`. -/
def GoodStops (n k : Nat) (stops : List Nat) : Prop :=
  stops.length = k ∧ stops.Pairwise (· < ·) ∧ stops.getLast? = some (n - 1)

theorem inc_pairwise : ∀ (l : List Nat) a, Inc a l → l.Pairwise (· < ·) ∧ ∀ x ∈ l, a ≤ x := by
  intro l; induction l with
  | nil => intro a _; simp
  | cons y ys ih =>
    intro a h
    obtain ⟨h1, h2⟩ := ih _ h.2
    have := h.1
    refine ⟨List.pairwise_cons.2 ⟨fun x hx => by have := h2 x hx; omega, h1⟩, ?_⟩
    intro x hx
    rcases List.mem_cons.1 hx with rfl | hx
    · exact this
    · have := h2 x hx; omega

/-- **C03 (chunk stops).** For `1 ≤ nchunks ≤ n` the stops are good; for more
chunks than items (or none) the call is rejected. -/
theorem chunkStops_good (n k : Nat) :
    (1 ≤ k ∧ k ≤ n → ∃ stops, chunkStops n k = some stops ∧ GoodStops n k stops) ∧
    (¬(1 ≤ k ∧ k ≤ n) → chunkStops n k = none) := by
  constructor
  · rintro ⟨h1, h2⟩
    obtain ⟨s, ss, h, hI, hl, hlen⟩ := chunkStops_spec n k (by omega) h2
    exact ⟨_, h, hlen, (inc_pairwise (s :: ss) 0 ⟨by omega, hI⟩).1, hl⟩
  · intro h
    unfold chunkStops
    split
    · rfl
    · split
      · rfl
      · omega

/-- **C03 (iterators).** For every series with `nf ≥ 1` frames and every
`1 ≤ nchunk ≤ nf`, the iterator does not fail; it yields exactly `nchunk` items,
at strictly increasing frame indices; each is the statistic of the frames up to
that index. -/
theorem accIter_prefixes {I : Type} (op : I → I → I) (frame : Nat → I) (nf k : Nat)
    (hk : 1 ≤ k) (hkn : k ≤ nf) :
    ∃ stops, GoodStops nf k stops ∧
      accIter op frame nf k = some (stops.map (fun s => (s, prefixStat op frame s)), full op frame nf) := by
  obtain ⟨s, ss, h, hI, hl, hlen⟩ := chunkStops_spec nf k (by omega) hkn
  refine ⟨s :: ss, ⟨hlen, (inc_pairwise (s :: ss) 0 ⟨by omega, hI⟩).1, hl⟩, ?_⟩
  have hfun : (fun s => (s, prefixStat op frame s)) = (fun s => (s, pre op frame s)) := by
    funext s; rw [pre_eq]
  rw [hfun, full_eq_pre]
  unfold accIter
  rw [h]
  simp only [List.getElem?_cons_zero]
  have hp0 : frame 0 = pre op frame 0 := rfl
  by_cases hs : s = 0
  · subst hs
    rw [if_pos rfl]
    by_cases hnf : nf > 1
    · rw [if_pos hnf]
      cases ss with
      | nil => simp at hl; omega
      | cons s' ss' =>
        simp only [List.getElem?_cons_succ, List.getElem?_cons_zero]
        rw [hp0]
        have := iterLoop_spec op frame nf (0 :: s' :: ss') (nf-1) 0 1 s' ss' (by omega) rfl
          (by have := hI.1; omega) hI.2 (by rw [← hl, List.getLast?_cons_cons])
        rw [this]; rfl
    · rw [if_neg hnf]
      have h1 : nf = 1 := by omega
      subst h1
      cases ss with
      | nil => simp [iterLoop, pre]
      | cons s' ss' =>
        have := Inc_getLast (s' :: ss') _ _ hI (by rw [← hl, List.getLast?_cons_cons])
        simp at this
  · rw [if_neg hs, hp0]
    exact iterLoop_spec op frame nf (s :: ss) (nf-1) 0 0 s ss (by omega) rfl (by omega) hI hl

/-- The full statistic is the prefix statistic of the last frame. -/
theorem full_is_last_prefix {I : Type} (op : I → I → I) (frame : Nat → I) (nf : Nat) :
    full op frame nf = prefixStat op frame (nf - 1) := by
  rw [full_eq_pre, pre_eq]

/-- **C03 (last item).** `max_iter`, `min_iter`, `sum_iter`: `nchunk` items, the
last one equal to `max`, `min`, `sum` over all frames. -/
theorem accIter_last_is_full {I : Type} (op : I → I → I) (frame : Nat → I) (nf k : Nat)
    (hk : 1 ≤ k) (hkn : k ≤ nf) :
    ∃ ys acc, accIter op frame nf k = some (ys, acc) ∧ ys.length = k ∧
      (ys.map Prod.snd).getLast? = some (full op frame nf) := by
  obtain ⟨stops, ⟨h1, _, h3⟩, h⟩ := accIter_prefixes op frame nf k hk hkn
  refine ⟨_, _, h, by simpa using h1, ?_⟩
  rw [List.map_map, List.getLast?_map, h3]
  simp [full_is_last_prefix]

/-- For a least upper bound operation the running image is the least upper bound:
`max` over all frames bounds every frame and is the least such (dually `min`). -/
theorem full_is_sup {I : Type} (le : I → I → Prop) (op : I → I → I)
    (hrefl : ∀ a, le a a) (htrans : ∀ a b c, le a b → le b c → le a c)
    (hl : ∀ a b, le a (op a b)) (hr : ∀ a b, le b (op a b))
    (hlub : ∀ a b c, le a c → le b c → le (op a b) c) (frame : Nat → I) (nf : Nat) (hnf : 0 < nf) :
    (∀ i < nf, le (frame i) (full op frame nf)) ∧
    (∀ c, (∀ i < nf, le (frame i) c) → le (full op frame nf) c) := by
  rw [full_is_last_prefix]
  obtain ⟨n, rfl⟩ : ∃ n, nf = n + 1 := ⟨nf - 1, by omega⟩
  simp only [Nat.add_sub_cancel]
  clear hnf
  induction n with
  | zero =>
    refine ⟨fun i hi => ?_, fun c h => h 0 (by omega)⟩
    have : i = 0 := by omega
    subst this; exact hrefl _
  | succ n ih =>
    refine ⟨fun i hi => ?_, fun c h => hlub _ _ _ (ih.2 c fun i hi => h i (by omega)) (h _ (by omega))⟩
    by_cases h : i = n + 1
    · subst h; exact hr _ _
    · exact htrans _ _ _ (ih.1 i (by omega)) (hl _ _)

/-- **C03 (average).** Used item by item, `average_iter` yields the averages of
the frame prefixes; dividing by one is the identity. -/
theorem averageIter_live {I : Type} (add : I → I → I) (divBy : I → Nat → I) (hdiv : ∀ x, divBy x 1 = x)
    (frame : Nat → I) (nf k : Nat) (hk : 1 ≤ k) (hkn : k ≤ nf) :
    ∃ stops, GoodStops nf k stops ∧ averageIterLive add divBy frame nf k =
      some (stops.map fun s => divBy (prefixStat add frame s) (s + 1)) := by
  obtain ⟨stops, hg, h⟩ := accIter_prefixes add frame nf k hk hkn
  refine ⟨stops, hg, ?_⟩
  simp only [averageIterLive, h, Option.map_some, List.map_map]
  congr 1
  apply List.map_congr_left
  intro s _
  simp only [Function.comp]
  split
  · rename_i h0; rw [h0, hdiv]
  · rfl

/-- **C03 (disagreement).** Collected with `list(average_iter(ims, n))`, the first
item is not the average of the first frame: it is an alias of the accumulator
and ends up as the *sum of all frames*. Two frames with constant values 1 and 3,
two chunks: the items are `[4, 2]` instead of `[1, 2]`. -/
theorem averageIter_collected_wrong :
    averageIterCollected (· + ·) (fun x n => x / n) (fun i => if i = 0 then 1 else 3) 2 2 = some [4, 2] ∧
    averageIterLive (· + ·) (fun x n => x / n) (fun i => if i = 0 then 1 else 3) 2 2 = some [1, 2] := by
  decide

/-- Every collected run whose first chunk ends at frame 0 shows the defect: the
first item is the sum over all frames. -/
theorem averageIter_collected_first {I : Type} (add : I → I → I) (divBy : I → Nat → I)
    (frame : Nat → I) (nf : Nat) (hn : 1 ≤ nf) :
    ∃ rest, averageIterCollected add divBy frame nf nf = some (full add frame nf :: rest) := by
  obtain ⟨stops, ⟨h1, h2, h3⟩, h⟩ := accIter_prefixes add frame nf nf hn (Nat.le_refl _)
  -- nf strictly increasing stops ending at nf - 1 start at 0
  have hstart : ∀ (l : List Nat) m, l.Pairwise (· < ·) → l.getLast? = some m → l.length = m + 1 →
      l.head? = some 0 := by
    intro l
    have key : ∀ (l : List Nat) a m, (a :: l).Pairwise (· < ·) → (a :: l).getLast? = some m → a + l.length ≤ m := by
      intro l; induction l with
      | nil => intro a m _ h; simp at h; simp; omega
      | cons b l ih =>
        intro a m hp hl
        rw [List.getLast?_cons_cons] at hl
        have := ih b m (List.pairwise_cons.1 hp).2 hl
        have := (List.pairwise_cons.1 hp).1 b (by simp)
        simp; omega
    intro m hp hl hlen
    cases l with
    | nil => simp at hlen
    | cons a l => have := key l a m hp hl; simp at hlen ⊢; omega
  have hh := hstart stops (nf-1) h2 h3 (by omega)
  cases stops with
  | nil => simp at hh
  | cons s ss =>
    simp at hh; subst hh
    exact ⟨_, by simp [averageIterCollected, h]; rfl⟩

/-- **C04 (values read).** With or without a buffer (of any size, with any junk),
`_toarray` returns the requested rows of all frames, provided the buffer is
filled: it is when the rows start at 0, and stays so. -/
def Filled {Row : Type} (frame : Nat → Nat → Row) : Option (Buffer Row) → Prop
  | none => True
  | some b => ∀ i < b.nbf, b.data i = frame i

theorem toArray_spec {Row : Type} (frame : Nat → Nat → Row) (nf r0 : Nat) (buf : Option (Buffer Row))
    (h : r0 = 0 ∨ Filled frame buf) :
    (toArray frame nf r0 buf).1 = (List.range nf).map (fun i r => frame i (r0 + r)) ∧
    Filled frame (toArray frame nf r0 buf).2 := by
  cases buf with
  | none => exact ⟨rfl, trivial⟩
  | some b =>
    rcases h with h | h
    · subst h
      simp only [toArray, if_true, Filled]
      refine ⟨?_, fun i hi => by simp [hi]⟩
      apply List.map_congr_left
      intro i _
      funext r
      by_cases hi : i < b.nbf <;> simp [hi]
    · simp only [Filled] at h
      by_cases h0 : r0 = 0
      · subst h0
        simp only [toArray, if_true, Filled]
        refine ⟨?_, fun i hi => by simp [hi]⟩
        apply List.map_congr_left
        intro i _
        funext r
        by_cases hi : i < b.nbf <;> simp [hi]
      · simp only [toArray, h0, if_false, Filled]
        refine ⟨?_, h⟩
        apply List.map_congr_left
        intro i _
        funext r
        by_cases hi : i < b.nbf
        · simp [hi, h i hi]
        · simp [hi]

theorem pctlLoop_spec {Row O : Type} (rowStat : List Row → O) (zero : O) (frame : Nat → Nat → Row) (nf : Nat) :
    ∀ (ss : List Nat) (r0 : Nat) (img : Nat → O) (buf : Option (Buffer Row)),
      (r0 = 0 ∨ Filled frame buf) → Inc r0 ss →
      (∀ r, img r = if r < r0 then percentile rowStat frame nf r else zero) →
      pctlLoop rowStat frame nf ss r0 img buf =
        ss.map fun s r => if r < s + 1 then percentile rowStat frame nf r else zero := by
  intro ss
  induction ss with
  | nil => intros; rfl
  | cons s ss ih =>
    intro r0 img buf hb hI himg
    obtain ⟨ha, hf⟩ := toArray_spec frame nf r0 buf hb
    have hI' : Inc (s+1) ss := hI.2
    rw [pctlLoop]
    rw [List.map_cons]
    have himg' : ∀ r, (fun r => if r0 ≤ r ∧ r < s + 1 then
          rowStat ((toArray frame nf r0 buf).1.map fun x => x (r - r0)) else img r) r =
        if r < s + 1 then percentile rowStat frame nf r else zero := by
      intro r
      simp only
      by_cases h1 : r0 ≤ r ∧ r < s + 1
      · rw [if_pos h1, if_pos h1.2, ha]
        simp only [percentile, toArray, List.map_map]
        congr 1
        apply List.map_congr_left
        intro i _
        simp only [Function.comp]
        congr 1; omega
      · rw [if_neg h1, himg]
        have := hI.1
        by_cases h2 : r < r0
        · rw [if_pos h2, if_pos (by omega)]
        · rw [if_neg h2, if_neg (by omega)]
    exact List.cons_eq_cons.2 ⟨funext himg', ih (s+1) _ _ (Or.inr hf) hI' himg'⟩

/-- **C04.** For every row count, chunk count, per-pixel statistic, and any
buffer with arbitrary initial contents, the chunked percentile yields `nchunks`
images; after the chunk ending at row `s` the rows `≤ s` are final and the rest
is zero; the last image is the percentile of the whole stack. -/
theorem percentileIter_spec {Row O : Type} (rowStat : List Row → O) (zero : O)
    (frame : Nat → Nat → Row) (nf nr k : Nat) (buf : Option (Buffer Row)) (hk : 1 ≤ k) (hkn : k ≤ nr) :
    ∃ stops, GoodStops nr k stops ∧ percentileIter rowStat zero frame nf nr k buf =
      some (stops.map fun s r => if r ≤ s then percentile rowStat frame nf r else zero) := by
  obtain ⟨s, ss, h, hI, hl, hlen⟩ := chunkStops_spec nr k (by omega) hkn
  refine ⟨s :: ss, ⟨hlen, (inc_pairwise (s :: ss) 0 ⟨by omega, hI⟩).1, hl⟩, ?_⟩
  simp only [percentileIter, h, Option.map_some]
  rw [pctlLoop_spec rowStat zero frame nf (s :: ss) 0 _ buf (Or.inl rfl) ⟨by omega, hI⟩ (by simp)]
  simp only [Nat.lt_succ_iff]

/-- **C04 (last image).** -/
theorem percentileIter_last {Row O : Type} (rowStat : List Row → O) (zero : O)
    (frame : Nat → Nat → Row) (nf nr k : Nat) (buf : Option (Buffer Row)) (hk : 1 ≤ k) (hkn : k ≤ nr) :
    ∃ ys img, percentileIter rowStat zero frame nf nr k buf = some ys ∧ ys.length = k ∧
      ys.getLast? = some img ∧ ∀ r < nr, img r = percentile rowStat frame nf r := by
  obtain ⟨stops, ⟨h1, _, h3⟩, h⟩ := percentileIter_spec rowStat zero frame nf nr k buf hk hkn
  refine ⟨_, _, h, by simpa using h1, by rw [List.getLast?_map, h3]; rfl, ?_⟩
  intro r hr
  simp only
  rw [if_pos (by omega)]

/-- The percentile image does look at every frame's row. -/
theorem percentile_def {Row O : Type} (rowStat : List Row → O) (frame : Nat → Nat → Row) (nf r : Nat) :
    percentile rowStat frame nf r = rowStat ((List.range nf).map fun i => frame i r) := by
  simp [percentile, toArray, Function.comp_def]

/-- **C03, C04 (frames used).** The frames taken into account are those of the series that
are below the limit, where a limit of 0 means no limit. -/
theorem frames_used (len limit i : Nat) : i < nFrames len limit ↔ i < len ∧ (limit = 0 ∨ i < limit) := by
  unfold nFrames
  split <;> omega

/-! Non-vacuity -/
example : chunkStops 10 3 = some [3, 6, 9] := by decide
example : accIter max (fun i => [5, 1, 7, 2].getD i 0) 4 2 = some ([(1, 5), (3, 7)], 7) := by decide

end Hexrd.Stats
