import Verif.Lemmas.Process

/-!
# Properties of processed image series (C12, C13, C14, C57)
-/
namespace Hexrd.Process
variable {V : Type}

/-! ## C12: flips -/

/-- Specification: which pixel of an `R × C` image the documented flip puts at
`(r, c)`. "about the y axis" mirrors left-right, "about the x axis" mirrors
top-bottom, rotations are counter-clockwise as the image is displayed (row 0 on
top). Any other option: unchanged. -/
def flipSource (f : String) (R C r c : Nat) : Nat × Nat :=
  if f = "y" ∨ f = "v" then (r, C - 1 - c)
  else if f = "x" ∨ f = "h" then (R - 1 - r, c)
  else if f = "vh" ∨ f = "hv" ∨ f = "r180" then (R - 1 - r, C - 1 - c)
  else if f = "t" ∨ f = "T" then (c, r)
  else if f = "ccw90" ∨ f = "r90" then (c, C - 1 - r)
  else if f = "cw90" ∨ f = "r270" then (R - 1 - c, r)
  else (r, c)

/-- Specification: the options that exchange rows and columns. -/
def swaps (f : String) : Bool :=
  f = "t" || f = "T" || f = "ccw90" || f = "r90" || f = "cw90" || f = "r270"

/-- C12: every flip option has the documented shape and pixels, for every image. -/
theorem flip_pixels (im : Img V) (f : String) :
    (flip im f).rows = (if swaps f then im.cols else im.rows) ∧
    (flip im f).cols = (if swaps f then im.rows else im.cols) ∧
    ∀ r c, r < (flip im f).rows → c < (flip im f).cols →
      (flip im f).px r c = im.px (flipSource f im.rows im.cols r c).1 (flipSource f im.rows im.cols r c).2 := by
  unfold flip
  split
  · rename_i h
    have hs : swaps f = false := by rcases h with rfl | rfl <;> decide
    refine ⟨by simp [hs], by simp [hs], ?_⟩
    intro r c hr hc
    rw [revCols_px im hr hc]; simp only [flipSource, if_pos h]
  · rename_i h1
    split
    · rename_i h
      have hs : swaps f = false := by rcases h with rfl | rfl <;> decide
      refine ⟨by simp [hs], by simp [hs], ?_⟩
      intro r c hr hc
      rw [revRows_px im hr hc]; simp only [flipSource, if_neg h1, if_pos h]
    · rename_i h2
      split
      · rename_i h
        have hs : swaps f = false := by rcases h with rfl | rfl | rfl <;> decide
        refine ⟨by simp [hs], by simp [hs], ?_⟩
        intro r c hr hc
        simp only [revCols_rows, revCols_cols, revRows_rows, revRows_cols] at hr hc
        rw [revCols_px (revRows im) hr hc, revRows_px im hr (by simp only [revRows_cols]; omega)]
        simp only [flipSource, if_neg h1, if_neg h2, if_pos h, revRows_cols]
      · rename_i h3
        split
        · rename_i h
          have hs : swaps f = true := by rcases h with rfl | rfl <;> decide
          refine ⟨by simp [hs], by simp [hs], ?_⟩
          intro r c hr hc
          rw [transpose_px im hr hc]; simp only [flipSource, if_neg h1, if_neg h2, if_neg h3, if_pos h]
        · rename_i h4
          split
          · rename_i h
            have hs : swaps f = true := by rcases h with rfl | rfl <;> decide
            refine ⟨by simp [hs], by simp [hs], ?_⟩
            intro r c hr hc
            simp only [revRows_rows, revRows_cols, transpose_rows, transpose_cols] at hr hc
            rw [revRows_px (transpose im) hr hc, transpose_px im (by simp only [transpose_rows]; omega) hc]
            simp only [flipSource, if_neg h1, if_neg h2, if_neg h3, if_neg h4, if_pos h, transpose_rows]
          · rename_i h5
            split
            · rename_i h
              have hs : swaps f = true := by rcases h with rfl | rfl <;> decide
              refine ⟨by simp [hs], by simp [hs], ?_⟩
              intro r c hr hc
              simp only [revCols_rows, revCols_cols, transpose_rows, transpose_cols] at hr hc
              rw [revCols_px (transpose im) hr hc, transpose_px im hr (by simp only [transpose_cols]; omega)]
              simp only [flipSource, if_neg h1, if_neg h2, if_neg h3, if_neg h4, if_neg h5, if_pos h, transpose_cols]
            · rename_i h6
              have hs : swaps f = false := by
                simp only [not_or] at h4 h5 h6
                simp [swaps, h4, h5, h6]
              refine ⟨by simp [hs], by simp [hs], ?_⟩
              intro r c hr hc
              simp only [flipSource, if_neg h1, if_neg h2, if_neg h3, if_neg h4, if_neg h5, if_neg h6]

/-- C12: the position map of every option is a bijection of the pixels, so no pixel
is lost or duplicated. -/
theorem flip_bijective (f : String) (R C : Nat) :
    let R' := if swaps f then C else R
    let C' := if swaps f then R else C
    (∀ r c, r < R' → c < C' → (flipSource f R C r c).1 < R ∧ (flipSource f R C r c).2 < C) ∧
    (∀ r c r' c', r < R' → c < C' → r' < R' → c' < C' →
      flipSource f R C r c = flipSource f R C r' c' → r = r' ∧ c = c') ∧
    (∀ i j, i < R → j < C → ∃ r c, r < R' ∧ c < C' ∧ flipSource f R C r c = (i, j)) := by
  simp only
  unfold flipSource
  by_cases h1 : f = "y" ∨ f = "v"
  · have hs : swaps f = false := by rcases h1 with rfl | rfl <;> decide
    simp only [if_pos h1, hs, Bool.false_eq_true, if_false, Prod.mk.injEq]
    exact ⟨by omega, by omega, fun i j hi hj => ⟨i, C - 1 - j, by omega, by omega, rfl, by omega⟩⟩
  · by_cases h2 : f = "x" ∨ f = "h"
    · have hs : swaps f = false := by rcases h2 with rfl | rfl <;> decide
      simp only [if_neg h1, if_pos h2, hs, Bool.false_eq_true, if_false, Prod.mk.injEq]
      exact ⟨by omega, by omega, fun i j hi hj => ⟨R - 1 - i, j, by omega, by omega, by omega, rfl⟩⟩
    · by_cases h3 : f = "vh" ∨ f = "hv" ∨ f = "r180"
      · have hs : swaps f = false := by rcases h3 with rfl | rfl | rfl <;> decide
        simp only [if_neg h1, if_neg h2, if_pos h3, hs, Bool.false_eq_true, if_false, Prod.mk.injEq]
        exact ⟨by omega, by omega, fun i j hi hj => ⟨R - 1 - i, C - 1 - j, by omega, by omega, by omega, by omega⟩⟩
      · by_cases h4 : f = "t" ∨ f = "T"
        · have hs : swaps f = true := by rcases h4 with rfl | rfl <;> decide
          simp only [if_neg h1, if_neg h2, if_neg h3, if_pos h4, hs, if_true, Prod.mk.injEq]
          exact ⟨by omega, by omega, fun i j hi hj => ⟨j, i, by omega, by omega, rfl, rfl⟩⟩
        · by_cases h5 : f = "ccw90" ∨ f = "r90"
          · have hs : swaps f = true := by rcases h5 with rfl | rfl <;> decide
            simp only [if_neg h1, if_neg h2, if_neg h3, if_neg h4, if_pos h5, hs, if_true, Prod.mk.injEq]
            exact ⟨by omega, by omega, fun i j hi hj => ⟨C - 1 - j, i, by omega, by omega, rfl, by omega⟩⟩
          · by_cases h6 : f = "cw90" ∨ f = "r270"
            · have hs : swaps f = true := by rcases h6 with rfl | rfl <;> decide
              simp only [if_neg h1, if_neg h2, if_neg h3, if_neg h4, if_neg h5, if_pos h6, hs, if_true, Prod.mk.injEq]
              exact ⟨by omega, by omega, fun i j hi hj => ⟨j, R - 1 - i, by omega, by omega, by omega, rfl⟩⟩
            · have hs : swaps f = false := by
                simp only [not_or] at h4 h5 h6
                simp [swaps, h4, h5, h6]
              simp only [if_neg h1, if_neg h2, if_neg h3, if_neg h4, if_neg h5, if_neg h6, hs, Bool.false_eq_true,
                if_false, Prod.mk.injEq]
              exact ⟨by omega, by omega, fun i j hi hj => ⟨i, j, by omega, by omega, rfl, rfl⟩⟩

/-- C12: the relations of the dihedral group, for every image: mirrors and transpose
are involutions, the quarter turns are inverse to each other, two quarter turns make
the half turn, the two mirrors make the half turn, and a mirror followed by the
transpose is a quarter turn. -/
theorem flip_relations (im : Img V) :
    flip (flip im "v") "v" = im ∧ flip (flip im "h") "h" = im ∧ flip (flip im "t") "t" = im ∧
    flip (flip im "r180") "r180" = im ∧
    flip (flip im "r90") "r270" = im ∧ flip (flip im "r270") "r90" = im ∧
    flip (flip im "r90") "r90" = flip im "r180" ∧ flip (flip im "r270") "r270" = flip im "r180" ∧
    flip (flip im "v") "h" = flip im "r180" ∧ flip (flip im "h") "v" = flip im "r180" ∧
    flip (flip im "v") "t" = flip im "r90" ∧ flip (flip im "h") "t" = flip im "r270" ∧
    flip (flip im "t") "h" = flip im "r90" ∧ flip (flip im "t") "v" = flip im "r270" := by
  have e1 : ∀ im : Img V, flip im "v" = revCols im := fun im => by simp [flip]
  have e2 : ∀ im : Img V, flip im "h" = revRows im := fun im => by simp [flip]
  have e3 : ∀ im : Img V, flip im "t" = transpose im := fun im => by simp [flip]
  have e4 : ∀ im : Img V, flip im "r180" = revCols (revRows im) := fun im => by simp [flip]
  have e5 : ∀ im : Img V, flip im "r90" = revRows (transpose im) := fun im => by simp [flip]
  have e6 : ∀ im : Img V, flip im "r270" = revCols (transpose im) := fun im => by simp [flip]
  simp only [e1, e2, e3, e4, e5, e6, transpose_revRows, transpose_revCols, transpose_transpose, revCols_revRows,
    revRows_revRows, revCols_revCols, and_true]

example : flip (Img.ofFn 2 3 fun r c => 10 * r + c) "r90" = Img.ofFn 3 2 fun r c => 10 * c + (2 - r) := by
  refine Img.ext' (by simp [flip, Img.ofFn]) (by simp [flip, Img.ofFn]) ?_
  intro r c hr hc
  obtain ⟨h1, h2, h3⟩ := flip_pixels (Img.ofFn 2 3 fun r c => 10 * r + c) "r90"
  rw [h3 r c hr hc]
  rw [h1] at hr; rw [h2] at hc
  have hr' : r < 3 := by simpa [swaps, Img.ofFn] using hr
  have hc' : c < 2 := by simpa [swaps, Img.ofFn] using hc
  simp [flipSource, Img.ofFn, hr', hc']
  omega

/-! ## C13: regions and frame lists -/

/-- Specification: the result a user expects from a series: take the frame from the
source, apply all operations in order to the whole frame. -/
def expected (zero : V) (src : Series V) (ops : List (Op V)) (idx : Key) : Option (Img V) :=
  (getItem zero src idx).bind (applyOps zero ops)

/-- A source that reads files or memory, other than a two-dimensional hdf5 dataset. -/
def plain : Series V → Prop
  | .frames _ => True
  | .cache _ _ _ _ => True
  | .h5flat _ => False
  | .processed _ _ _ => False

theorem applyOps_rect (zero : V) (r : Region) (ops : List (Op V)) (im : Img V) :
    applyOps zero (.rect r :: ops) im = applyOps zero ops (crop im r) := rfl

/-- Reading a region of a plain source is cropping the frame. -/
theorem getRegion_plain (zero : V) (src : Series V) (h : plain src) (k : Key) (r : Region) :
    getRegion zero src k r = (getItem zero src k).map fun im => crop im r := by
  cases src with
  | frames l => simp [getRegion, getItem]
  | cache w hgt add l =>
    simp only [getRegion, getItem, Option.map_map]
    congr 1; funext es
    exact (crop_toImg add zero w hgt es r).symm
  | h5flat im => exact absurd h id
  | processed s o f => exact absurd h id

/-- C13 (partial: sources that are read from file or memory, Python integers): frame
`k` of a processed series is the frame `frame_list[k]` of the source with all
operations applied to it, whether or not the source's own region reader is used. -/
theorem processed_frame_partial (zero : V) (src : Series V) (hsrc : plain src) (ops : List (Op V))
    (fl : Option (List Key)) (hfl : ∀ l, fl = some l → ∀ k ∈ l, k.isInt = true) (k : Int) :
    getItem zero (.processed src ops fl) ⟨k, true⟩ =
      match fl with
      | none => expected zero src ops ⟨k, true⟩
      | some l => (pyIndex l k).bind fun idx => expected zero src ops idx := by
  have core : ∀ idx : Key, (match ops with
          | .rect r :: rest => (getRegion zero src idx r).bind (applyOps zero rest)
          | ops => (getItem zero src idx).bind (applyOps zero ops)) = expected zero src ops idx := by
    intro idx
    unfold expected
    split
    · rename_i r rest
      rw [getRegion_plain zero src hsrc]
      cases getItem zero src idx with
      | none => rfl
      | some im => simp [applyOps_rect]
    · rfl
  simp only [getItem, if_true]
  cases fl with
  | none => simp only [if_true]; exact core ⟨k, true⟩
  | some l =>
    simp only
    cases hp : pyIndex l k with
    | none => rfl
    | some idx =>
      have hmem : idx ∈ l := by
        unfold pyIndex at hp
        split at hp
        · exact List.mem_of_getElem? hp
        · split at hp
          · exact List.mem_of_getElem? hp
          · cases hp
      simp only [hfl l rfl idx hmem, if_true, Option.bind_some]
      exact core idx

/-- Specification: where Python's slice bound `x` falls on an axis of length `n`:
negative bounds count from the end, and everything is clamped to `[0, n]`. -/
def bound (n : Nat) (x : Int) : Int := max 0 (min n (if x < 0 then n + x else x))

/-- C13: `rectangle` keeps exactly the pixels with row in `[r0, r1)` and column in
`[c0, c1)`, for every image and every bounds, negative or too large. -/
theorem rectangle_pixels (im : Img V) (r : Region) :
    ((crop im r).rows : Int) = max 0 (bound im.rows r.r1 - bound im.rows r.r0) ∧
    ((crop im r).cols : Int) = max 0 (bound im.cols r.c1 - bound im.cols r.c0) ∧
    ∀ i j i' j' : Nat, i < (crop im r).rows → j < (crop im r).cols →
      (i' : Int) = bound im.rows r.r0 + i → (j' : Int) = bound im.cols r.c0 + j →
      (crop im r).px i j = im.px i' j' := by
  have e : ∀ (n : Nat) x, (clampBound n x : Int) = bound n x := by
    intro n x; unfold clampBound bound; split <;> omega
  simp only [← e]
  refine ⟨by simp only [crop, Img.reindex]; omega, by simp only [crop, Img.reindex]; omega, ?_⟩
  intro i j i' j' hi hj h1 h2
  have h1' : i' = clampBound im.rows r.r0 + i := by omega
  have h2' : j' = clampBound im.cols r.c0 + j := by omega
  simp only [crop, Img.reindex] at hi hj ⊢
  rw [if_pos ⟨hi, hj⟩, h1', h2']

/-- C13: no frame at or beyond the length of a series can be read, for every series. -/
theorem no_frame_beyond_length (zero : V) (s : Series V) (k : Key) (hk : (seriesLen s : Int) ≤ k.val) :
    getItem zero s k = none := by
  have idx : ∀ {α : Type} (l : List α) (x : Int), (l.length : Int) ≤ x → pyIndex l x = none := by
    intro α l x hx
    unfold pyIndex
    rw [if_pos (by omega)]
    exact List.getElem?_eq_none (by omega)
  induction s generalizing k with
  | frames l => exact idx l _ hk
  | cache w h add l => simp only [getItem]; rw [idx l _ hk]; rfl
  | h5flat im => simp only [getItem, seriesLen] at hk ⊢; rw [if_neg (by omega)]
  | processed src ops fl ih =>
    simp only [getItem]
    split
    · cases fl with
      | some l => simp only [seriesLen] at hk; simp only [idx l _ hk]
      | none =>
        simp only [seriesLen] at hk
        have hr : ∀ r, getRegion zero src k r = none := by
          intro r
          cases src with
          | frames l => simp only [getRegion]; rw [idx l _ hk]; rfl
          | cache w h add l => simp only [getRegion]; rw [idx l _ hk]; rfl
          | h5flat im => rfl
          | processed => rfl
        rename_i hi
        simp only [hi, if_true]
        split
        · rw [hr]; rfl
        · rw [ih _ hk]; rfl
    · rfl

/-- C13: every frame below the length of a processed series can be read, if the source
is read from file or memory, the frame list names frames of the source, and the
operations do not fail. -/
theorem frames_below_length (zero : V) (src : Series V) (hsrc : plain src) (ops : List (Op V))
    (fl : Option (List Key))
    (hfl : ∀ l, fl = some l → ∀ k ∈ l, k.isInt = true ∧ 0 ≤ k.val ∧ k.val < seriesLen src)
    (hops : ∀ im, (applyOps zero ops im).isSome) (k : Nat)
    (hk : k < seriesLen (.processed src ops fl)) :
    (getItem zero (.processed src ops fl) ⟨k, true⟩).isSome := by
  have idx : ∀ {α : Type} (l : List α) (x : Int), 0 ≤ x → x < l.length → ∃ a ∈ l, pyIndex l x = some a := by
    intro α l x h0 hx
    unfold pyIndex
    rw [if_pos h0]
    exact ⟨l[x.toNat]'(by omega), List.getElem_mem _, List.getElem?_eq_getElem (by omega)⟩
  have src' : ∀ k : Key, 0 ≤ k.val → k.val < seriesLen src → (getItem zero src k).isSome := by
    intro k h0 hlt
    cases src with
    | frames l => obtain ⟨a, _, e⟩ := idx l _ h0 hlt; simp only [getItem, e]; rfl
    | cache w h add l => obtain ⟨a, _, e⟩ := idx l _ h0 hlt; simp only [getItem, e]; rfl
    | h5flat im => exact absurd hsrc id
    | processed s o f => exact absurd hsrc id
  have ex : ∀ k : Key, 0 ≤ k.val → k.val < seriesLen src → (expected zero src ops k).isSome := by
    intro k h0 hlt
    obtain ⟨im, him⟩ := Option.isSome_iff_exists.1 (src' k h0 hlt)
    simp only [expected, him, Option.bind_some]; exact hops im
  rw [processed_frame_partial zero src hsrc ops fl fun l hl k hk => (hfl l hl k hk).1]
  cases fl with
  | none => simp only [seriesLen] at hk; exact ex _ (by simp) (by simpa using hk)
  | some l =>
    simp only [seriesLen] at hk
    obtain ⟨a, ha, e⟩ := idx l k (by omega) (by omega)
    simp only [e, Option.bind_some]
    exact ex a (hfl l rfl a ha).2.1 (hfl l rfl a ha).2.2

example : (getItem (0 : Nat) (.processed (.frames [Img.ofFn 2 2 fun _ _ => 1]) [.rect ⟨0, -1, 0, 9⟩, .flip "t"]
    (some [⟨0, true⟩, ⟨0, true⟩])) ⟨1, true⟩).isSome :=
  frames_below_length (V := Nat) 0 (.frames _) trivial _ _
    (by intro l h k hk; cases h; simp at hk; subst hk; exact ⟨rfl, by decide, by decide⟩)
    (by intro im; simp [applyOps, Op.apply]) 1 (by decide)

/-- C13: the omega metadata of a series with a frame list is selected in the same
order as the frames: entry `j` is the source's omega at `frame_list[j]`. -/
theorem omega_follows_frames {Ω : Type} (omega : List Ω) (l : List Key) (res : List Ω)
    (h : updateOmega omega (some l) = some res) (j : Nat) :
    res.length = l.length ∧ ∀ key, l[j]? = some key → res[j]? = pyIndex omega key.val := by
  simp only [updateOmega] at h
  have aux : ∀ (l : List Key) (res : List Ω), l.mapM (fun k => pyIndex omega k.val) = some res →
      res.length = l.length ∧ ∀ (j : Nat) (key : Key), l[j]? = some key → res[j]? = pyIndex omega key.val := by
    intro l
    induction l with
    | nil => intro res h; simp at h; subst h; simp
    | cons a l ih =>
      intro res h
      rw [List.mapM_cons] at h
      cases h1 : pyIndex omega a.val with
      | none => rw [h1] at h; cases h
      | some x =>
        rw [h1] at h
        cases h2 : l.mapM (fun k => pyIndex omega k.val) with
        | none => simp [h2] at h
        | some res' =>
          simp [h2] at h
          subst h
          obtain ⟨h3, h4⟩ := ih res' h2
          refine ⟨by simp [h3], ?_⟩
          intro j key hj
          cases j with
          | zero => simp at hj; subst hj; simp [h1]
          | succ j => simpa using h4 j key (by simpa using hj)
  exact ⟨(aux l res h).1, fun key hk => (aux l res h).2 j key hk⟩

/-- C13, disagreement: a processed series whose source is itself a processed series
cannot start with a rectangle: every frame raises, although applying the operations
to the source's frames is fine. -/
theorem nested_rectangle_raises (zero : V) (src : Series V) (ops ops' : List (Op V)) (fl fl' : Option (List Key))
    (r : Region) (k : Key) :
    getItem zero (.processed (.processed src ops fl) (.rect r :: ops') fl') k = none := by
  simp only [getItem, getRegion]
  split
  · split
    · rfl
    · split <;> rfl
  · rfl

example : expected (0 : Nat) (.processed (.frames [Img.ofFn 2 2 fun _ _ => 1]) [] none)
    [.rect ⟨0, 1, 0, 1⟩] ⟨0, true⟩ ≠ none := by
  simp [expected, getItem, pyIndex, applyOps, Op.apply]

/-- C13, disagreement: the same for a two-dimensional hdf5 dataset. -/
theorem flat_hdf5_rectangle_raises (zero : V) (im : Img V) (ops : List (Op V)) (fl : Option (List Key)) (r : Region) (k : Key) :
    getItem zero (.processed (.h5flat im) (.rect r :: ops) fl) k = none := by
  simp only [getItem, getRegion]
  split
  · split
    · rfl
    · split <;> rfl
  · rfl

/-- C13, disagreement: with a frame list of numpy integers every access raises. -/
theorem numpy_frame_list_raises (zero : V) (src : Series V) (ops : List (Op V)) (l : List Key)
    (hl : ∀ k ∈ l, k.isInt = false) (k : Key) : getItem zero (.processed src ops (some l)) k = none := by
  simp only [getItem]
  split
  · cases hp : pyIndex l k.val with
    | none => rfl
    | some idx =>
      have hmem : idx ∈ l := by
        unfold pyIndex at hp
        split at hp
        · exact List.mem_of_getElem? hp
        · split at hp
          · exact List.mem_of_getElem? hp
          · cases hp
      simp [hl idx hmem]
  · rfl

-- hypotheses are met: a frame cache source with a frame list
example : plain (Series.cache 2 2 Nat.add [[⟨0, 1, 5⟩], []]) ∧
    ∀ l, some [(⟨1, true⟩ : Key), ⟨0, true⟩] = some l → ∀ k ∈ l, k.isInt = true := by
  refine ⟨trivial, ?_⟩
  intro l h k hk; cases h; simp at hk; rcases hk with rfl | rfl <;> rfl

/-! ## C57: inserted rows and columns -/

/-- C57: an inserted row is zero, the rows before it are unchanged and those after it
are shifted by one, for every image and position; other positions are refused. -/
theorem add_row_spec (zero : V) (im : Img V) (k : Nat) :
    (k ≤ im.rows → ∃ im', addRow zero im k = some im' ∧ im'.rows = im.rows + 1 ∧ im'.cols = im.cols ∧
      ∀ c, (∀ r, r < k → im'.px r c = im.px r c) ∧ (c < im.cols → im'.px k c = some zero) ∧
        (∀ r, k ≤ r → im'.px (r + 1) c = im.px r c)) ∧
    (im.rows < k → addRow zero im k = none) := by
  constructor
  · intro hk
    have h : addRow zero im k = some (insertRow zero im k hk) := by
      have e : (if (k : Int) < 0 then (k : Int) + im.rows else k) = k := if_neg (by omega)
      unfold addRow
      simp only [e]
      rw [dif_pos (by omega)]
      simp
    refine ⟨_, h, rfl, rfl, ?_⟩
    intro c
    refine ⟨?_, ?_, ?_⟩
    · intro r hr; simp [insertRow, hr]
    · intro hc; simp [insertRow, hc]
    · intro r hr
      simp only [insertRow]
      rw [if_neg (by omega), if_neg (by omega)]; rfl
  · intro hk
    have e : (if (k : Int) < 0 then (k : Int) + im.rows else k) = k := if_neg (by omega)
    unfold addRow
    simp only [e]
    rw [dif_neg (by omega)]

/-- C57 for columns. -/
theorem add_col_spec (zero : V) (im : Img V) (k : Nat) :
    (k ≤ im.cols → ∃ im', addCol zero im k = some im' ∧ im'.rows = im.rows ∧ im'.cols = im.cols + 1 ∧
      ∀ r, (∀ c, c < k → im'.px r c = im.px r c) ∧ (r < im.rows → im'.px r k = some zero) ∧
        (∀ c, k ≤ c → im'.px r (c + 1) = im.px r c)) ∧
    (im.cols < k → addCol zero im k = none) := by
  have hpx : ∀ (x : Img V) r c, (transpose x).px r c = x.px c r := by
    intro x r c
    by_cases h : r < x.cols ∧ c < x.rows
    · exact transpose_px x h.1 h.2
    · rw [Img.none_of (im := transpose x) (by simpa using h), Img.none_of (by omega)]
  obtain ⟨h1, h2⟩ := add_row_spec zero (transpose im) k
  constructor
  · intro hk
    obtain ⟨im', e, e1, e2, e3⟩ := h1 hk
    refine ⟨transpose im', by unfold addCol; rw [e]; rfl, by simpa using e2, by simpa using e1, ?_⟩
    intro r
    refine ⟨?_, ?_, ?_⟩
    · intro c hc; rw [hpx, (e3 r).1 c hc, hpx]
    · intro hr; rw [hpx]; exact (e3 r).2.1 hr
    · intro c hc; rw [hpx, (e3 r).2.2 c hc, hpx]
  · intro hk
    unfold addCol; rw [h2 hk]; rfl

/-! ## C14: dark subtraction -/

/-- Specification of dark subtraction. -/
def darkSpec (img dark : Int) : Int := max (img - dark) 0

/-- C14 holds whenever numpy's difference is exact. -/
theorem dark_exact (img dark : Int) : darkExact img dark = darkSpec img dark := by
  unfold darkExact darkSpec; simp only; split <;> omega

/-- C14 (partial: exactly the pixels not below the dark image): for unsigned images
and dark images of the same width, the result is right if and only if the dark value
does not exceed the pixel. -/
theorem dark_unsigned_iff_partial {w : Nat} (img dark : BitVec w) :
    ((darkUnsigned img dark).toNat : Int) = darkSpec img.toNat dark.toNat ↔ dark.toNat ≤ img.toNat := by
  have h1 := img.isLt
  have h2 := dark.isLt
  unfold darkUnsigned darkSpec
  rw [BitVec.toNat_sub]
  constructor
  · intro h
    refine Nat.le_of_not_lt fun hlt => ?_
    have e : 2 ^ w - dark.toNat + img.toNat < 2 ^ w := by omega
    rw [Nat.mod_eq_of_lt e] at h
    omega
  · intro hle
    have e : 2 ^ w - dark.toNat + img.toNat = (img.toNat - dark.toNat) + 2 ^ w := by omega
    rw [e, Nat.add_mod_right, Nat.mod_eq_of_lt (by omega)]
    omega

/-- C14, disagreement: a 16-bit pixel of value 5 with dark value 6 becomes 65535. -/
theorem dark_unsigned_wraps : (darkUnsigned (5#16) (6#16)).toNat = 65535 := by decide

/-- C14, disagreement in general: every unsigned pixel below the dark value becomes
larger than it was, unless the dark value is the full range. -/
theorem dark_unsigned_grows {w : Nat} (img dark : BitVec w) (h : img.toNat < dark.toNat) :
    img.toNat < (darkUnsigned img dark).toNat := by
  have h1 := img.isLt
  have h2 := dark.isLt
  unfold darkUnsigned
  rw [BitVec.toNat_sub, Nat.mod_eq_of_lt (by omega)]
  omega

/-- C14 for signed images (partial: pixel and dark values that are not negative). -/
theorem dark_signed_partial {w : Nat} (img dark : BitVec w) (hi : 0 ≤ img.toInt) (hd : 0 ≤ dark.toInt) :
    (darkSigned img dark).toInt = darkSpec img.toInt dark.toInt := by
  have e : (img - dark).toInt = img.toInt - dark.toInt := by
    rw [BitVec.toInt_sub]
    have a := BitVec.toInt_lt (x := img)
    have b := BitVec.toInt_lt (x := dark)
    rcases Nat.eq_zero_or_pos w with hw | hw
    · subst hw
      have : img.toInt = 0 := by simp [BitVec.of_length_zero]
      have : dark.toInt = 0 := by simp [BitVec.of_length_zero]
      simp [*, Int.bmod]
    · have p : (2 : Int) ^ w = 2 * 2 ^ (w - 1) := by
        obtain ⟨k, rfl⟩ : ∃ k, w = k + 1 := ⟨w - 1, by omega⟩
        rw [Int.pow_succ]; simp; omega
      have hp : ((2 ^ w : Nat) : Int) = 2 ^ w := by push_cast; rfl
      apply Int.bmod_eq_of_le <;> omega
  unfold darkSigned darkSpec
  simp only
  by_cases hlt : (img - dark).toInt < 0
  · have : (img - dark).slt 0#w = true := by rw [BitVec.slt_iff_toInt_lt]; simpa only [BitVec.toInt_zero] using hlt
    rw [if_pos this]; simp; omega
  · have : ¬ (img - dark).slt 0#w = true := by rw [BitVec.slt_iff_toInt_lt]; simpa only [BitVec.toInt_zero] using hlt
    rw [if_neg this, e]; omega

example : (darkSigned (100#16) (30#16)).toInt = 70 ∧ (darkSigned (30#16) (100#16)).toInt = 0 := by decide

end Hexrd.Process
