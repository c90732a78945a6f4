import Verif.Model.Process
namespace Hexrd.Process
variable {V : Type}

theorem Img.none_of {im : Img V} {r c : Nat} (h : ¬ (r < im.rows ∧ c < im.cols)) : im.px r c = none := by
  cases hp : im.px r c with
  | none => rfl
  | some v => exact absurd ((im.inb r c).1 (by rw [hp]; rfl)) h

theorem Img.ext' {a b : Img V} (h1 : a.rows = b.rows) (h2 : a.cols = b.cols)
    (h : ∀ r c, r < a.rows → c < a.cols → a.px r c = b.px r c) : a = b := by
  have hpx : a.px = b.px := by
    funext r c
    by_cases hrc : r < a.rows ∧ c < a.cols
    · exact h r c hrc.1 hrc.2
    · rw [Img.none_of hrc, Img.none_of (by rw [← h1, ← h2]; exact hrc)]
  cases a; cases b
  simp only at h1 h2 hpx
  subst h1 h2 hpx
  rfl

theorem reindex_px (im : Img V) (rows cols : Nat) (s : Nat → Nat → Nat × Nat) (h) (r c : Nat) (hr : r < rows) (hc : c < cols) :
    (im.reindex rows cols s h).px r c = im.px (s r c).1 (s r c).2 := by
  simp [Img.reindex, hr, hc]

theorem revCols_px (im : Img V) {r c : Nat} (hr : r < im.rows) (hc : c < im.cols) :
    (revCols im).px r c = im.px r (im.cols - 1 - c) := by
  unfold revCols; rw [reindex_px _ _ _ _ _ _ _ hr hc]
theorem revRows_px (im : Img V) {r c : Nat} (hr : r < im.rows) (hc : c < im.cols) :
    (revRows im).px r c = im.px (im.rows - 1 - r) c := by
  unfold revRows; rw [reindex_px _ _ _ _ _ _ _ hr hc]
theorem transpose_px (im : Img V) {r c : Nat} (hr : r < im.cols) (hc : c < im.rows) :
    (transpose im).px r c = im.px c r := by
  unfold transpose; rw [reindex_px _ _ _ _ _ _ _ hr hc]

@[simp] theorem revCols_rows (im : Img V) : (revCols im).rows = im.rows := rfl
@[simp] theorem revCols_cols (im : Img V) : (revCols im).cols = im.cols := rfl
@[simp] theorem revRows_rows (im : Img V) : (revRows im).rows = im.rows := rfl
@[simp] theorem revRows_cols (im : Img V) : (revRows im).cols = im.cols := rfl
@[simp] theorem transpose_rows (im : Img V) : (transpose im).rows = im.cols := rfl
@[simp] theorem transpose_cols (im : Img V) : (transpose im).cols = im.rows := rfl

theorem revCols_revCols (im : Img V) : revCols (revCols im) = im := by
  refine Img.ext' (by rfl) (by rfl) ?_
  intro r c hr hc
  simp only [revCols_rows, revCols_cols] at hr hc
  rw [revCols_px _ (by simpa using hr) (by simpa using hc), revCols_cols, revCols_px _ hr (by omega)]
  congr 1; omega

theorem revRows_revRows (im : Img V) : revRows (revRows im) = im := by
  refine Img.ext' (by rfl) (by rfl) ?_
  intro r c hr hc
  simp only [revRows_rows, revRows_cols] at hr hc
  rw [revRows_px _ (by simpa using hr) (by simpa using hc), revRows_rows, revRows_px _ (by omega) hc]
  congr 1; omega

theorem transpose_transpose (im : Img V) : transpose (transpose im) = im := by
  refine Img.ext' (by rfl) (by rfl) ?_
  intro r c hr hc
  simp only [transpose_rows, transpose_cols] at hr hc
  rw [transpose_px _ (by simpa using hr) (by simpa using hc), transpose_px _ hc hr]

theorem revCols_revRows (im : Img V) : revCols (revRows im) = revRows (revCols im) := by
  refine Img.ext' (by rfl) (by rfl) ?_
  intro r c hr hc
  simp only [revRows_rows, revRows_cols, revCols_rows, revCols_cols] at hr hc
  have e1 : (revCols (revRows im)).px r c = (revRows im).px r (im.cols - 1 - c) := revCols_px (revRows im) hr hc
  have e2 : (revRows (revCols im)).px r c = (revCols im).px (im.rows - 1 - r) c := revRows_px (revCols im) hr hc
  rw [e1, e2, revRows_px _ hr (by omega), revCols_px _ (by omega) hc]

theorem transpose_revRows (im : Img V) : transpose (revRows im) = revCols (transpose im) := by
  refine Img.ext' (by rfl) (by rfl) ?_
  intro r c hr hc
  simp only [revRows_rows, revRows_cols, transpose_rows, transpose_cols] at hr hc
  rw [transpose_px _ (by simpa using hr) (by simpa using hc), revCols_px _ (by simpa using hr) (by simpa using hc)]
  simp only [transpose_cols]
  rw [revRows_px _ hc hr, transpose_px _ hr (by omega)]

theorem transpose_revCols (im : Img V) : transpose (revCols im) = revRows (transpose im) := by
  rw [← transpose_transpose (revRows (transpose im)), transpose_revRows, transpose_transpose]

theorem clampBound_le (n : Nat) (x : Int) : clampBound n x ≤ n := by
  unfold clampBound; split <;> omega

/-- The sparse slice reads as the slice of the dense image. -/
theorem readPixel_csrSlice (add : V → V → V) (zero : V) (w h : Nat) (es : List (FrameCache.Entry V)) (r : Region) (i j : Nat)
    (hi : i < clampBound w r.r1 - clampBound w r.r0) (hj : j < clampBound h r.c1 - clampBound h r.c0) :
    FrameCache.readPixel add zero (csrSlice w h es r) i j
      = FrameCache.readPixel add zero es (clampBound w r.r0 + i) (clampBound h r.c0 + j) := by
  unfold FrameCache.readPixel csrSlice
  generalize zero = z
  induction es generalizing z with
  | nil => rfl
  | cons e es ih =>
    rw [List.filter_cons (xs := es), List.filter_cons (xs := es)]
    by_cases hin : clampBound w r.r0 ≤ e.row ∧ e.row < clampBound w r.r1 ∧ clampBound h r.c0 ≤ e.col ∧ e.col < clampBound h r.c1
    · rw [if_pos (decide_eq_true hin), List.map_cons, List.filter_cons]
      by_cases hp : e.row = clampBound w r.r0 + i ∧ e.col = clampBound h r.c0 + j
      · have hq : e.row - clampBound w r.r0 = i ∧ e.col - clampBound h r.c0 = j := by omega
        rw [if_pos (decide_eq_true hp), if_pos (decide_eq_true hq), List.foldl_cons, List.foldl_cons]
        exact ih _
      · have hq : ¬ (e.row - clampBound w r.r0 = i ∧ e.col - clampBound h r.c0 = j) := by omega
        rw [if_neg (by simpa using hq), if_neg (by simpa using hp)]
        exact ih _
    · have hp : ¬ (e.row = clampBound w r.r0 + i ∧ e.col = clampBound h r.c0 + j) := by omega
      rw [if_neg (by simpa using hin), if_neg (by simpa using hp)]
      exact ih _

theorem crop_toImg (add : V → V → V) (zero : V) (w h : Nat) (es : List (FrameCache.Entry V)) (r : Region) :
    crop (toImg add zero w h es) r =
      toImg add zero (clampBound w r.r1 - clampBound w r.r0) (clampBound h r.c1 - clampBound h r.c0) (csrSlice w h es r) := by
  refine Img.ext' (by rfl) (by rfl) ?_
  intro i j hi hj
  have hi' : i < clampBound w r.r1 - clampBound w r.r0 := hi
  have hj' : j < clampBound h r.c1 - clampBound h r.c0 := hj
  have h1 := clampBound_le w r.r1
  have h2 := clampBound_le h r.c1
  refine (reindex_px _ _ _ _ _ _ _ hi' hj').trans ?_
  show (toImg add zero w h es).px (clampBound w r.r0 + i) (clampBound h r.c0 + j) = _
  simp only [toImg, Img.ofFn]
  rw [if_pos (by omega), if_pos (by omega), readPixel_csrSlice add zero w h es r i j hi' hj']

end Hexrd.Process
