import Verif.Model.Detector
import Verif.Spec.Detector
import Verif.Props.Grid
import Mathlib.Tactic.Linarith
import Mathlib.Tactic.Ring
import Mathlib.Tactic.FieldSimp
import Mathlib.Tactic.Positivity
import Mathlib.Tactic.NormNum

/-!
# Properties of the pixel grid of a panel (C46, C62–C65)
-/
namespace Hexrd.Detector
open Hexrd.Grid (cellIndices ztol ztol_pos)
open Spec

/-! ## Rounding -/

theorem npRound_near (x : ℝ) : |(npRound x : ℝ) - x| ≤ 1 / 2 := by
  have h0 := Int.floor_add_fract x
  have h1 := Int.fract_nonneg x
  have h2 := Int.fract_lt_one x
  rw [abs_le]
  unfold npRound
  split
  · constructor <;> linarith
  · split
    · split
      · constructor <;> linarith
      · push_cast; constructor <;> linarith
    · rename_i h3 h4
      push_cast
      have : (1 : ℝ) / 2 < Int.fract x := lt_of_le_of_ne (not_lt.1 h3) (Ne.symm h4)
      constructor <;> linarith

theorem npRound_eq {x : ℝ} {n : Int} (h1 : (n : ℝ) - 1 / 2 < x) (h2 : x < n + 1 / 2) : npRound x = n := by
  have h := abs_le.1 (npRound_near x)
  have a : ((npRound x : Int) : ℝ) < ((n + 1 : Int) : ℝ) := by push_cast; linarith
  have b : ((n - 1 : Int) : ℝ) < ((npRound x : Int) : ℝ) := by push_cast; linarith
  have a' := Int.cast_lt.1 a
  have b' := Int.cast_lt.1 b
  omega

theorem npRound_int (n : Int) : npRound (n : ℝ) = n := npRound_eq (by linarith) (by linarith)

theorem npRound_half (n : Int) : npRound ((n : ℝ) + 1 / 2) = if n % 2 = 0 then n else n + 1 := by
  have hf : Int.fract ((n : ℝ) + 1 / 2) = 1 / 2 := by
    rw [Int.fract_intCast_add, Int.fract_eq_self]; norm_num
  have hfl : ⌊(n : ℝ) + 1 / 2⌋ = n := by
    rw [Int.floor_eq_iff]; constructor <;> linarith
  unfold npRound
  rw [hf, hfl, if_neg (by norm_num), if_pos rfl]

theorem npRound_nonneg {x : ℝ} (h : 0 ≤ x) : 0 ≤ npRound x := by
  by_contra hn
  have h1 : npRound x ≤ -1 := by omega
  have h2 : ((npRound x : Int) : ℝ) ≤ -1 := by exact_mod_cast h1
  have := abs_le.1 (npRound_near x)
  linarith

/-! ## C62: pixel and Cartesian coordinates -/

section
variable (p : Panel)

theorem cartToPixel_eq (x y : ℝ) : cartToPixel p (x, y) =
    ((p.rows * p.psr / 2 - y) / p.psr - 1 / 2, (x + p.cols * p.psc / 2) / p.psc - 1 / 2) := by
  simp only [cartToPixel, Panel.cornerUL, Panel.colDim, Panel.rowDim, Prod.mk.injEq]
  constructor <;> ring

theorem pixelToCart_eq (u v : ℝ) : pixelToCart p (u, v) = centre p.rows p.cols p.psr p.psc u v := by
  simp only [pixelToCart, centre, Panel.cornerLL, Panel.colDim, Panel.rowDim, Prod.mk.injEq]
  constructor <;> ring

variable {p}

/-- C62: the two conversions are inverse to each other. -/
theorem pixel_cart_inverse (hr : 0 < p.psr) (hc : 0 < p.psc) (a : ℝ × ℝ) :
    cartToPixel p (pixelToCart p a) = a ∧ pixelToCart p (cartToPixel p a) = a := by
  obtain ⟨u, v⟩ := a
  have hr' := hr.ne'
  have hc' := hc.ne'
  rw [pixelToCart_eq, centre, cartToPixel_eq, cartToPixel_eq, pixelToCart_eq, centre]
  simp only [Prod.mk.injEq]
  refine ⟨⟨?_, ?_⟩, ?_, ?_⟩ <;> field_simp <;> ring

variable (p) in
/-- C62: pixel indices are converted to the centre of the pixel, whose coordinates are those listed by the pixel
vectors, halfway between the edges listed by the edge vectors. -/
theorem pixel_centre (i j : Nat) (hi : i < p.rows) (hj : j < p.cols) :
    p.colPixelVec[j]? = some (pixelToCart p (i, j)).1 ∧ p.rowPixelVec[i]? = some (pixelToCart p (i, j)).2 ∧
    pixelToCart p (i, j) = centre p.rows p.cols p.psr p.psc i j ∧
    p.colEdgeVec[j]? = some ((pixelToCart p (i, j)).1 - p.psc / 2) ∧
    p.colEdgeVec[j + 1]? = some ((pixelToCart p (i, j)).1 + p.psc / 2) ∧
    p.rowEdgeVec[i]? = some ((pixelToCart p (i, j)).2 + p.psr / 2) ∧
    p.rowEdgeVec[i + 1]? = some ((pixelToCart p (i, j)).2 - p.psr / 2) := by
  rw [pixelToCart_eq]
  simp only [centre, Panel.colPixelVec, Panel.rowPixelVec, Panel.colEdgeVec, Panel.rowEdgeVec, List.getElem?_map,
    List.getElem?_range hi, List.getElem?_range hj, List.getElem?_range (Nat.lt_succ_of_lt hj),
    List.getElem?_range (Nat.succ_lt_succ hj), List.getElem?_range (Nat.lt_succ_of_lt hi),
    List.getElem?_range (Nat.succ_lt_succ hi), Option.map_some, Option.some.injEq, true_and]
  push_cast
  refine ⟨?_, ?_, ?_, ?_, ?_, ?_⟩ <;> ring

theorem frac_bounds (hr : 0 < p.psr) (hc : 0 < p.psc) (x y a b c d : ℝ) :
    ((a < (cartToPixel p (x, y)).2 ↔ -(p.cols * p.psc / 2) + (a + 1 / 2) * p.psc < x) ∧
     ((cartToPixel p (x, y)).2 < b ↔ x < -(p.cols * p.psc / 2) + (b + 1 / 2) * p.psc)) ∧
    ((c < (cartToPixel p (x, y)).1 ↔ y < p.rows * p.psr / 2 - (c + 1 / 2) * p.psr) ∧
     ((cartToPixel p (x, y)).1 < d ↔ p.rows * p.psr / 2 - (d + 1 / 2) * p.psr < y)) := by
  rw [cartToPixel_eq]
  simp only
  rw [lt_sub_iff_add_lt, sub_lt_iff_lt_add, lt_sub_iff_add_lt, sub_lt_iff_lt_add, lt_div_iff₀ hc, lt_div_iff₀ hr,
    div_lt_iff₀ hc, div_lt_iff₀ hr]
  refine ⟨⟨?_, ?_⟩, ?_, ?_⟩ <;> constructor <;> intro h <;> linarith

/-- C62: a point strictly inside a pixel is converted to the indices of that pixel. -/
theorem pixel_index (hr : 0 < p.psr) (hc : 0 < p.psc) {i j : Int} {x y : ℝ}
    (h : InPixel p.rows p.cols p.psr p.psc i j x y) : cartToPixelInt p (x, y) = (i, j) := by
  obtain ⟨h1, h2, h3, h4⟩ := h
  obtain ⟨⟨a1, a2⟩, b1, b2⟩ := frac_bounds hr hc x y ((j : ℝ) - 1 / 2) (j + 1 / 2) ((i : ℝ) - 1 / 2) (i + 1 / 2)
  rw [cartToPixelInt, Prod.mk.injEq]
  constructor
  · exact npRound_eq (b1.2 (by linarith)) (b2.2 (by linarith))
  · exact npRound_eq (a1.2 (by linarith)) (a2.2 (by linarith))

/-- C62: conversely, a point is converted to the indices of a pixel only if it is in it or on its boundary. -/
theorem pixel_index_only (hr : 0 < p.psr) (hc : 0 < p.psc) {i j : Int} {x y : ℝ} (h : cartToPixelInt p (x, y) = (i, j)) :
    -(p.cols * p.psc / 2) + j * p.psc ≤ x ∧ x ≤ -(p.cols * p.psc / 2) + (j + 1) * p.psc ∧
    p.rows * p.psr / 2 - (i + 1) * p.psr ≤ y ∧ y ≤ p.rows * p.psr / 2 - i * p.psr := by
  rw [cartToPixelInt, Prod.mk.injEq] at h
  have r1 := abs_le.1 (npRound_near (cartToPixel p (x, y)).1)
  have r2 := abs_le.1 (npRound_near (cartToPixel p (x, y)).2)
  rw [h.1] at r1
  rw [h.2] at r2
  obtain ⟨⟨a1, a2⟩, b1, b2⟩ := frac_bounds hr hc x y ((j : ℝ) + 1 / 2) (j - 1 / 2) ((i : ℝ) + 1 / 2) (i - 1 / 2)
  refine ⟨?_, ?_, ?_, ?_⟩
  · by_contra hn; have := a2.2 (by linarith); linarith
  · by_contra hn; have := a1.2 (by linarith); linarith
  · by_contra hn; have := b1.2 (by linarith); linarith
  · by_contra hn; have := b2.2 (by linarith); linarith

/-- C62: on an edge between two pixels the one with the even index is chosen.  So the right edge of a panel belongs to
its last column if the number of columns is odd, and to no pixel of the panel if it is even; likewise for rows. -/
theorem pixel_edge (hr : 0 < p.psr) (hc : 0 < p.psc) (x y : ℝ) :
    (cartToPixelInt p (p.cols * p.psc / 2, y)).2 = (if p.cols % 2 = 0 then (p.cols : Int) else p.cols - 1) ∧
    (cartToPixelInt p (-(p.cols * p.psc / 2), y)).2 = 0 ∧
    (cartToPixelInt p (x, -(p.rows * p.psr / 2))).1 = (if p.rows % 2 = 0 then (p.rows : Int) else p.rows - 1) ∧
    (cartToPixelInt p (x, p.rows * p.psr / 2)).1 = 0 := by
  have hr' := hr.ne'
  have hc' := hc.ne'
  have key : ∀ n : Nat, npRound ((n : ℝ) - 1 / 2) = if n % 2 = 0 then (n : Int) else n - 1 := by
    intro n
    have := npRound_half ((n : Int) - 1)
    rw [show ((((n : Int) - 1 : Int) : ℝ) + 1 / 2) = (n : ℝ) - 1 / 2 by push_cast; ring] at this
    rw [this]
    by_cases h : n % 2 = 0
    · rw [if_pos h, if_neg (by omega)]; omega
    · rw [if_neg h, if_pos (by omega)]
  have k0 : npRound (0 - 1 / 2) = 0 := by simpa using key 0
  refine ⟨?_, ?_, ?_, ?_⟩ <;> rw [cartToPixelInt, cartToPixel_eq] <;> simp only
  · rw [show (p.cols * p.psc / 2 + p.cols * p.psc / 2) / p.psc - 1 / 2 = (p.cols : ℝ) - 1 / 2 by field_simp; ring, key]
  · rw [show (-(p.cols * p.psc / 2) + p.cols * p.psc / 2) / p.psc - 1 / 2 = (0 : ℝ) - 1 / 2 by field_simp; ring, k0]
  · rw [show (p.rows * p.psr / 2 - -(p.rows * p.psr / 2)) / p.psr - 1 / 2 = (p.rows : ℝ) - 1 / 2 by field_simp; ring, key]
  · rw [show (p.rows * p.psr / 2 - p.rows * p.psr / 2) / p.psr - 1 / 2 = (0 : ℝ) - 1 / 2 by field_simp; ring, k0]

/-! ## C63: clipping -/

theorem select_filter {α : Type} (f : α → Bool) (l : List α) : select l (l.map f) = l.filter f := by
  induction l with
  | nil => rfl
  | cons a l ih => rw [List.map_cons, select, List.filter_cons, ih]

variable (p) in
/-- C63: clipping returns the points that are on the panel, in their order, and says for each point whether it is. -/
theorem clip_points (buf : Buffer) (be : Bool) (xy : List (ℝ × ℝ)) :
    (clipToPanel p buf be xy).1 = xy.filter (onPanel p buf be) ∧
    (clipToPanel p buf be xy).2 = xy.map (onPanel p buf be) := ⟨select_filter _ _, rfl⟩

variable (p) in
/-- C63: without a buffer, a point is on the panel if it is in the rectangle, edges included. -/
theorem clip_plain (buf : Buffer) (be : Bool) (h : be = false ∨ ∀ x y m, buf ≠ .mm x y ∧ buf ≠ .mask m) (x y : ℝ) :
    onPanel p buf be (x, y) = true ↔ InRectangle p.rows p.cols p.psr p.psc 0 0 x y := by
  have e : onPanel p buf be (x, y) = (decide (x ≥ -(1 / 2 * p.colDim) ∧ x ≤ 1 / 2 * p.colDim) &&
      decide (y ≥ -(1 / 2 * p.rowDim) ∧ y ≤ 1 / 2 * p.rowDim)) := by
    rcases h with rfl | h
    · cases buf <;> rfl
    · cases be
      · cases buf <;> rfl
      · cases buf with
        | none => rfl
        | mm a b => exact absurd rfl (h a b fun _ _ => true).1
        | mask m => exact absurd rfl (h 0 0 m).2
  rw [e, Bool.and_eq_true, decide_eq_true_iff, decide_eq_true_iff]
  simp only [InRectangle, Panel.colDim, Panel.rowDim]
  constructor
  · rintro ⟨⟨a, b⟩, c, d⟩; refine ⟨?_, ?_, ?_, ?_⟩ <;> linarith
  · rintro ⟨a, b, c, d⟩; refine ⟨⟨?_, ?_⟩, ?_, ?_⟩ <;> linarith

variable (p) in
/-- C63: with border widths in mm, if it is in the rectangle left inside the borders. -/
theorem clip_mm (bx bY x y : ℝ) :
    onPanel p (.mm bx bY) true (x, y) = true ↔ InRectangle p.rows p.cols p.psr p.psc bx bY x y := by
  rw [onPanel, Bool.and_eq_true, decide_eq_true_iff, decide_eq_true_iff]
  simp only [InRectangle, Panel.colDim, Panel.rowDim]
  constructor
  · rintro ⟨⟨a, b⟩, c, d⟩; refine ⟨?_, ?_, ?_, ?_⟩ <;> linarith
  · rintro ⟨a, b, c, d⟩; refine ⟨⟨?_, ?_⟩, ?_, ?_⟩ <;> linarith

/-- C63: with a mask, a point inside a pixel of the panel is on the panel if the mask is true for that pixel, and a
point inside a pixel beyond the panel is not. -/
theorem clip_mask (hr : 0 < p.psr) (hc : 0 < p.psc) (m : Nat → Nat → Bool) {x y : ℝ} :
    (∀ i j : Nat, i < p.rows → j < p.cols → InPixel p.rows p.cols p.psr p.psc i j x y →
      onPanel p (.mask m) true (x, y) = m i j) ∧
    (∀ i j : Int, i < 0 ∨ p.rows ≤ i ∨ j < 0 ∨ p.cols ≤ j → InPixel p.rows p.cols p.psr p.psc i j x y →
      onPanel p (.mask m) true (x, y) = false) := by
  constructor
  · intro i j hi hj h
    have := pixel_index hr hc h
    simp only [onPanel, this]
    rw [if_neg]
    · simp
    · simp; omega
  · intro i j hij h
    have := pixel_index hr hc h
    simp only [onPanel, this]
    rw [if_pos]
    simp; omega

/-! ## C46: panel buffers -/

theorem inSlice_border (n : Nat) (b : Int) (hb : 0 ≤ b) (i : Nat) (hi : i < n) :
    inSlice n b (n - b) i = true ↔ b ≤ i ∧ i + b < n := by
  rw [inSlice, decide_eq_true_eq]
  unfold sliceBound
  rw [if_neg (by omega)]
  split <;> omega

variable (p) in
/-- C46: with border widths that are whole numbers of pixels, the mask is true exactly for the pixels with at least
that many pixels between them and each edge of the panel; nothing is left of a panel narrower than its borders. -/
theorem buffer_border (hr : 0 < p.psr) (hc : 0 < p.psc) (b0 b1 : Nat) (i j : Nat) (hi : i < p.rows) (hj : j < p.cols) :
    bufferAs2d p (.mm (b1 * p.psc) (b0 * p.psr)) i j = true ↔ b0 ≤ i ∧ i + b0 < p.rows ∧ b1 ≤ j ∧ j + b1 < p.cols := by
  have e0 : npRound (b0 * p.psr / p.psr) = b0 := by
    rw [mul_div_assoc, div_self hr.ne', mul_one]; exact npRound_int b0
  have e1 : npRound (b1 * p.psc / p.psc) = b1 := by
    rw [mul_div_assoc, div_self hc.ne', mul_one]; exact npRound_int b1
  simp only [bufferAs2d, e0, e1, Bool.and_eq_true, inSlice_border _ _ (Int.natCast_nonneg _) _ hi,
    inSlice_border _ _ (Int.natCast_nonneg _) _ hj]
  omega

variable (p) in
/-- C46: for other widths, the border is rounded to the nearest number of pixels. -/
theorem buffer_rounded (hr : 0 < p.psr) (hc : 0 < p.psc) (bx bY : ℝ) (hx : 0 ≤ bx) (hy : 0 ≤ bY) : ∃ b0 b1 : Nat,
    |b0 * p.psr - bY| ≤ p.psr / 2 ∧ |b1 * p.psc - bx| ≤ p.psc / 2 ∧
    ∀ i j : Nat, i < p.rows → j < p.cols →
      (bufferAs2d p (.mm bx bY) i j = true ↔ b0 ≤ i ∧ i + b0 < p.rows ∧ b1 ≤ j ∧ j + b1 < p.cols) := by
  have n0 := npRound_nonneg (div_nonneg hy hr.le)
  have n1 := npRound_nonneg (div_nonneg hx hc.le)
  have near : ∀ (s w : ℝ), 0 < s → 0 ≤ npRound (w / s) → |((npRound (w / s)).toNat : ℝ) * s - w| ≤ s / 2 := by
    intro s w hs hn
    have h := abs_le.1 (npRound_near (w / s))
    have e : (((npRound (w / s)).toNat : ℕ) : ℝ) = ((npRound (w / s) : Int) : ℝ) := by
      exact_mod_cast Int.toNat_of_nonneg hn
    rw [e, abs_le]
    have hw : w / s * s = w := by field_simp
    constructor <;> nlinarith
  refine ⟨_, _, near p.psr bY hr n0, near p.psc bx hc n1, fun i j hi hj => ?_⟩
  simp only [bufferAs2d, Bool.and_eq_true, inSlice_border _ _ n0 _ hi, inSlice_border _ _ n1 _ hj]
  omega

/-- C46: border widths that are whole numbers of pixels and the mask made from them agree: a point inside a pixel is
on the panel with the widths exactly if it is with the mask. -/
theorem buffer_agree_partial (hr : 0 < p.psr) (hc : 0 < p.psc) (b0 b1 : Nat) {i j : Nat} (hi : i < p.rows)
    (hj : j < p.cols) {x y : ℝ} (h : InPixel p.rows p.cols p.psr p.psc i j x y) :
    onPanel p (.mm (b1 * p.psc) (b0 * p.psr)) true (x, y) =
      onPanel p (.mask (bufferAs2d p (.mm (b1 * p.psc) (b0 * p.psr)))) true (x, y) := by
  rw [(clip_mask hr hc _).1 i j hi hj h, Bool.eq_iff_iff, clip_mm, buffer_border p hr hc b0 b1 i j hi hj]
  obtain ⟨h1, h2, h3, h4⟩ := h
  have cross : ∀ (a b : ℕ) (s : ℝ), 0 < s → (a : ℝ) * s < (b : ℝ) * s → a < b := by
    intro a b s hs hab
    exact_mod_cast lt_of_mul_lt_mul_right hab hs.le
  have mono : ∀ (a b : ℕ) (s : ℝ), 0 < s → a ≤ b → (a : ℝ) * s ≤ (b : ℝ) * s := by
    intro a b s hs hab
    exact mul_le_mul_of_nonneg_right (by exact_mod_cast hab) hs.le
  push_cast at h1 h2 h3 h4
  constructor
  · rintro ⟨a, b, c, d⟩
    have k1 : b1 < j + 1 := cross _ _ p.psc hc (by push_cast; linarith)
    have k2 : j + b1 < p.cols := cross _ _ p.psc hc (by push_cast; linarith)
    have k3 : b0 < i + 1 := cross _ _ p.psr hr (by push_cast; linarith)
    have k4 : i + b0 < p.rows := cross _ _ p.psr hr (by push_cast; linarith)
    omega
  · rintro ⟨a, b, c, d⟩
    have k1 := mono b1 j p.psc hc c
    have k2 := mono (j + b1 + 1) p.cols p.psc hc (by omega)
    have k3 := mono b0 i p.psr hr a
    have k4 := mono (i + b0 + 1) p.rows p.psr hr (by omega)
    push_cast at k1 k2 k3 k4
    refine ⟨?_, ?_, ?_, ?_⟩ <;> linarith

/-- C46 fails for other widths: with a border of 0.4 pixels, the mask is true everywhere, but a point 0.1 pixels from
the edge is clipped. -/
theorem buffer_disagree : let p : Panel := ⟨4, 4, 1, 1⟩
    InPixel p.rows p.cols p.psr p.psc 3 3 (19 / 10) (-1.5) ∧
    (∀ i j, i < 4 → j < 4 → bufferAs2d p (.mm (2 / 5) (2 / 5)) i j = true) ∧
    onPanel p (.mm (2 / 5) (2 / 5)) true (19 / 10, -1.5) = false := by
  intro p
  refine ⟨?_, ?_, ?_⟩
  · simp only [InPixel, p]; norm_num
  · intro i j hi hj
    have e : npRound (2 / 5 / 1) = 0 := npRound_eq (by norm_num) (by norm_num)
    simp only [bufferAs2d, p, e, Bool.and_eq_true, inSlice_border 4 0 le_rfl i hi, inSlice_border 4 0 le_rfl j hj]
    omega
  · rw [Bool.eq_false_iff]
    intro h
    rw [clip_mm] at h
    have := h.2.1
    simp only [p] at this
    norm_num at this

/-- C46: a negative width is not refused; a border of -1 pixel marks all but the last row and column as unusable. -/
theorem buffer_negative : let p : Panel := ⟨4, 4, 1, 1⟩
    ∀ i j, i < 4 → j < 4 → (bufferAs2d p (.mm (-1) (-1)) i j = true ↔ i = 3 ∧ j = 3) := by
  intro p i j hi hj
  have e : npRound (-1 / 1) = -1 := npRound_eq (by norm_num) (by norm_num)
  simp only [bufferAs2d, p, e, Bool.and_eq_true, inSlice, sliceBound, decide_eq_true_eq]
  norm_num
  omega

/-! ## Interpolation: the indices -/

section
variable (p : Panel)

theorem rowVec_edges (h : 2 ≤ p.rows) : ∃ n, p.rows = n + 2 ∧
    p.rowPixelVec = Hexrd.Grid.Spec.edges (n + 1) (p.psr * (1 / 2 * ((p.rows : ℝ) - 1))) (-p.psr) := by
  obtain ⟨n, hn⟩ := Nat.exists_eq_add_of_le h
  refine ⟨n, by omega, ?_⟩
  unfold Panel.rowPixelVec Hexrd.Grid.Spec.edges
  rw [show n + 1 + 1 = p.rows by omega]
  apply List.map_congr_left
  intro k _; ring

theorem colVec_edges (h : 2 ≤ p.cols) : ∃ n, p.cols = n + 2 ∧
    p.colPixelVec = Hexrd.Grid.Spec.edges (n + 1) (-(p.psc * (1 / 2 * ((p.cols : ℝ) - 1)))) p.psc := by
  obtain ⟨n, hn⟩ := Nat.exists_eq_add_of_le h
  refine ⟨n, by omega, ?_⟩
  unfold Panel.colPixelVec Hexrd.Grid.Spec.edges
  rw [show n + 1 + 1 = p.cols by omega]
  apply List.map_congr_left
  intro k _; ring

/-- Fractional coordinates are shifted by the tolerance near and beyond the last centre. -/
noncomputable def shifted (n : Nat) (z f : ℝ) : ℝ := if (n : ℝ) - 1 - z ≤ f then f - z else f

/-- The row index found by the code: the row centre at or above the point. -/
noncomputable def rowFloor (y : ℝ) : Int := ⌈shifted p.rows (ztol / p.psr) (cartToPixel p (0, y)).1⌉ - 1

/-- The column index found by the code. -/
noncomputable def colFloor (x : ℝ) : Int := ⌊shifted p.cols (ztol / p.psc) (cartToPixel p (x, 0)).2⌋

theorem row_cell (h : 2 ≤ p.rows) (hr : 0 < p.psr) (y : ℝ) : cellIndices p.rowPixelVec y = some (rowFloor p y) := by
  obtain ⟨n, hn, e⟩ := rowVec_edges p h
  have hr' := hr.ne'
  rw [e, Hexrd.Grid.cell_down n _ _ (by linarith), Option.some.injEq, rowFloor, cartToPixel_eq, shifted]
  have hrn : (p.rows : ℝ) = n + 2 := by rw [hn]; push_cast; ring
  have hc : y ≤ p.psr * (1 / 2 * ((p.rows : ℝ) - 1)) + ((n + 1 : ℕ) : ℝ) * -p.psr + ztol ↔
      (p.rows : ℝ) - 1 - ztol / p.psr ≤ (p.rows * p.psr / 2 - y) / p.psr - 1 / 2 := by
    rw [show (p.rows * p.psr / 2 - y) / p.psr - 1 / 2 = ((p.rows : ℝ) * p.psr / 2 - y - p.psr / 2) / p.psr by
      field_simp, show (p.rows : ℝ) - 1 - ztol / p.psr = (((p.rows : ℝ) - 1) * p.psr - ztol) / p.psr by field_simp,
      div_le_div_iff_of_pos_right hr, hrn]
    push_cast
    constructor <;> intro h <;> linarith
  by_cases hy : y ≤ p.psr * (1 / 2 * ((p.rows : ℝ) - 1)) + ((n + 1 : ℕ) : ℝ) * -p.psr + ztol
  · rw [if_pos hy, if_pos (hc.1 hy)]
    congr 2; field_simp; ring
  · rw [if_neg hy, if_neg (fun h => hy (hc.2 h))]
    congr 2; field_simp; ring

theorem col_cell (h : 2 ≤ p.cols) (hr : 0 < p.psc) (x : ℝ) : cellIndices p.colPixelVec x = some (colFloor p x) := by
  obtain ⟨n, hn, e⟩ := colVec_edges p h
  have hr' := hr.ne'
  rw [e, Hexrd.Grid.cell_up n _ _ hr, Option.some.injEq, colFloor, cartToPixel_eq, shifted]
  have hrn : (p.cols : ℝ) = n + 2 := by rw [hn]; push_cast; ring
  have hc : x ≥ -(p.psc * (1 / 2 * ((p.cols : ℝ) - 1))) + ((n + 1 : ℕ) : ℝ) * p.psc - ztol ↔
      (p.cols : ℝ) - 1 - ztol / p.psc ≤ (x + p.cols * p.psc / 2) / p.psc - 1 / 2 := by
    rw [show (x + p.cols * p.psc / 2) / p.psc - 1 / 2 = (x + (p.cols : ℝ) * p.psc / 2 - p.psc / 2) / p.psc by
      field_simp, show (p.cols : ℝ) - 1 - ztol / p.psc = (((p.cols : ℝ) - 1) * p.psc - ztol) / p.psc by field_simp,
      div_le_div_iff_of_pos_right hr, hrn]
    push_cast
    constructor <;> intro h <;> linarith
  by_cases hy : x ≥ -(p.psc * (1 / 2 * ((p.cols : ℝ) - 1))) + ((n + 1 : ℕ) : ℝ) * p.psc - ztol
  · rw [if_pos hy, if_pos (hc.1 hy)]
    congr 1; field_simp; ring
  · rw [if_neg hy, if_neg (fun h => hy (hc.2 h))]
    congr 1; field_simp; ring

theorem mapM_some {α β : Type} (f : α → Option β) (g : α → β) (l : List α) (h : ∀ a ∈ l, f a = some (g a)) :
    l.mapM f = some (l.map g) := by
  induction l with
  | nil => rfl
  | cons a l ih =>
    rw [List.mapM_cons, h a (by simp), ih fun b hb => h b (by simp [hb])]
    rfl

theorem rows_cells (h : 2 ≤ p.rows) (hr : 0 < p.psr) (ys : List ℝ) :
    cellIndicesL p.rowPixelVec ys = some (ys.map (rowFloor p)) := by
  rw [cellIndicesL, row_cell p h hr, if_neg (by simp)]
  exact mapM_some _ _ _ fun y _ => row_cell p h hr y

theorem cols_cells (h : 2 ≤ p.cols) (hr : 0 < p.psc) (xs : List ℝ) :
    cellIndicesL p.colPixelVec xs = some (xs.map (colFloor p)) := by
  rw [cellIndicesL, col_cell p h hr, if_neg (by simp)]
  exact mapM_some _ _ _ fun y _ => col_cell p h hr y

theorem scatter_map {α β : Type} (f : α → Bool) (v : α → β) (fill : β) (l : List α) :
    scatter fill (l.map f) ((l.filter f).map v) = l.map fun a => if f a then v a else fill := by
  induction l with
  | nil => rfl
  | cons a l ih =>
    cases h : f a
    · rw [List.map_cons, List.filter_cons, h, scatter, List.map_cons, h]
      simp only [Bool.false_eq_true, if_false]
      rw [ih]
    · rw [List.map_cons, List.filter_cons, h]
      simp only [if_true, List.map_cons, scatter, h]
      rw [ih]

/-- The bilinear interpolation on a panel with at least two rows and columns: point by point. -/
theorem bilinear_points (h2 : 2 ≤ p.rows) (h3 : 2 ≤ p.cols) (hr : 0 < p.psr) (hc : 0 < p.psc) (buf : Buffer)
    (xy : List (ℝ × ℝ)) (img : Nat → Nat → ℝ) (pad : Bool) :
    interpolateBilinear p buf xy img pad = some (xy.map fun q =>
      if onPanel p buf true q then some (bilinearAt p img q (rowFloor p q.2) (colFloor p q.1))
      else if pad then none else some 0) := by
  rw [interpolateBilinear]
  simp only [clip_points, rows_cells p h2 hr, cols_cells p h3 hc, Option.bind_eq_bind, Option.bind_some, Option.pure_def,
    Option.some.injEq]
  simp only [List.map_map]
  have e : ∀ l : List (ℝ × ℝ), (l.zip ((l.map (rowFloor p ∘ fun x => x.2)).zip (l.map (colFloor p ∘ fun x => x.1)))).map
      (fun q => some (bilinearAt p img q.1 q.2.1 q.2.2)) =
      l.map fun q => some (bilinearAt p img q (rowFloor p q.2) (colFloor p q.1)) := by
    intro l
    induction l with
    | nil => rfl
    | cons a l ih => simp only [List.map_cons, List.zip_cons_cons, ih, Function.comp]
  rw [e, scatter_map]

/-! ## C65: bilinear interpolation -/

theorem fixIndex_low {F : Int} {n : Nat} (h : F ≤ 0) (hn : 1 ≤ n) : (fixIndex F 0 (n - 1)).toNat = 0 := by
  unfold fixIndex; split <;> [rfl; (split <;> omega)]

theorem fixIndex_high {F : Int} {n : Nat} (h : (n : Int) - 1 ≤ F) (hn : 1 ≤ n) : (fixIndex F 0 (n - 1)).toNat = n - 1 := by
  unfold fixIndex; split <;> [omega; (split <;> omega)]

theorem fixIndex_mid {F : Int} {n : Nat} (h0 : 0 ≤ F) (h : F ≤ n - 1) : (fixIndex F 0 (n - 1)).toNat = F.toNat := by
  unfold fixIndex; split <;> [omega; (split <;> omega)]

/-- Along one direction: two adjacent pixels `k`, `k + 1` and a fraction `s` between them, such that `k + s` is the
fractional coordinate `f` limited to the range of the pixel centres, or overshoots it by less than `z` at the end. -/
def Between (n : Nat) (z f : ℝ) (k : Nat) (s : ℝ) : Prop :=
  k + 1 < n ∧ 0 ≤ s ∧ ((s ≤ 1 ∧ k + s = max 0 (min f (n - 1))) ∨ (k + 2 = n ∧ 1 < s ∧ s ≤ 1 + z ∧ k + s = f))

theorem axis_mix {n : Nat} (hn : 2 ≤ n) {z f : ℝ} (hz : 0 ≤ z) (hz2 : z < 1 / 2) {F : Int}
    (hF : (F : ℝ) ≤ shifted n z f) (hF' : shifted n z f ≤ F + 1) : ∃ k s, Between n z f k s ∧ ∀ g : Nat → ℝ,
      ((F + 1 : Int) - f) * g (fixIndex F 0 (n - 1)).toNat + (f - F) * g (fixIndex (F + 1) 0 (n - 1)).toNat =
        (1 - s) * g k + s * g (k + 1) := by
  have hnR : (2 : ℝ) ≤ n := by exact_mod_cast hn
  by_cases c1 : F + 1 ≤ 0
  · have hFR : (F : ℝ) + 1 ≤ 0 := by exact_mod_cast c1
    have hf : f ≤ 0 := by
      unfold shifted at hF'
      split at hF' <;> linarith
    refine ⟨0, 0, ⟨by omega, le_rfl, Or.inl ⟨by norm_num, ?_⟩⟩, fun g => ?_⟩
    · rw [min_eq_left (by linarith), max_eq_left hf]; norm_num
    · rw [fixIndex_low (by omega) (by omega), fixIndex_low c1 (by omega)]; push_cast; ring
  by_cases c2 : (n : Int) - 1 ≤ F
  · have hFR : (n : ℝ) - 1 ≤ F := by exact_mod_cast c2
    have hf : (n : ℝ) - 1 ≤ f := by
      unfold shifted at hF
      split at hF <;> linarith
    refine ⟨n - 2, 1, ⟨by omega, by norm_num, Or.inl ⟨le_rfl, ?_⟩⟩, fun g => ?_⟩
    · rw [min_eq_right hf, max_eq_right (by linarith), Nat.cast_sub hn]; push_cast; ring
    · rw [fixIndex_high c2 (by omega), fixIndex_high (by omega) (by omega), show n - 2 + 1 = n - 1 by omega]
      push_cast; ring
  · have hk : ((F.toNat : ℕ) : ℝ) = (F : ℝ) := by
      exact_mod_cast Int.toNat_of_nonneg (by omega)
    have hF0 : (0 : ℝ) ≤ F := by exact_mod_cast (show 0 ≤ F by omega)
    have hF1 : (F : ℝ) + 1 ≤ n - 1 := by
      have : F + 1 ≤ (n : Int) - 1 := by omega
      exact_mod_cast this
    have hs0 : (F : ℝ) ≤ f := by
      unfold shifted at hF
      split at hF <;> linarith
    refine ⟨F.toNat, f - F, ⟨by omega, by linarith, ?_⟩, fun g => ?_⟩
    · by_cases hs : f - F ≤ 1
      · left
        refine ⟨hs, ?_⟩
        rw [min_eq_left (by linarith), max_eq_right (by linarith), hk]; ring
      · right
        unfold shifted at hF'
        split at hF'
        · rename_i hsh
          have : (n : ℝ) - 3 < F := by linarith
          have : (n : Int) - 3 < F := by exact_mod_cast this
          refine ⟨by omega, by linarith, by linarith, by rw [hk]; ring⟩
        · exact absurd (by linarith) hs
    · rw [fixIndex_mid (by omega) (by omega), fixIndex_mid (by omega) (by omega), Int.toNat_add (by omega) (by omega)]
      push_cast
      ring

theorem bilinearAt_mix (img : Nat → Nat → ℝ) (q : ℝ × ℝ) (F G : Int) {k l : Nat} {s t : ℝ}
    (hi : ∀ g : Nat → ℝ, ((F + 1 : Int) - (cartToPixel p q).1) * g (fixIndex F 0 (p.rows - 1)).toNat +
      ((cartToPixel p q).1 - F) * g (fixIndex (F + 1) 0 (p.rows - 1)).toNat = (1 - s) * g k + s * g (k + 1))
    (hj : ∀ g : Nat → ℝ, ((G + 1 : Int) - (cartToPixel p q).2) * g (fixIndex G 0 (p.cols - 1)).toNat +
      ((cartToPixel p q).2 - G) * g (fixIndex (G + 1) 0 (p.cols - 1)).toNat = (1 - t) * g l + t * g (l + 1)) :
    bilinearAt p img q F G = mix img k l s t := by
  have e1 := hi fun i => (1 - t) * img i l + t * img i (l + 1)
  have e2 := hj fun j => img (fixIndex F 0 (p.rows - 1)).toNat j
  have e3 := hj fun j => img (fixIndex (F + 1) 0 (p.rows - 1)).toNat j
  rw [mix, ← e1, ← e2, ← e3, bilinearAt]
  ring

variable {p}

theorem rowFloor_spec (y x : ℝ) : (rowFloor p y : ℝ) ≤ shifted p.rows (ztol / p.psr) (cartToPixel p (x, y)).1 ∧
    shifted p.rows (ztol / p.psr) (cartToPixel p (x, y)).1 ≤ rowFloor p y + 1 := by
  rw [rowFloor]
  have e : (cartToPixel p (0, y)).1 = (cartToPixel p (x, y)).1 := rfl
  rw [e]
  push_cast
  constructor
  · have := Int.ceil_lt_add_one (shifted p.rows (ztol / p.psr) (cartToPixel p (x, y)).1); linarith
  · have := Int.le_ceil (shifted p.rows (ztol / p.psr) (cartToPixel p (x, y)).1); linarith

theorem colFloor_spec (y x : ℝ) : (colFloor p x : ℝ) ≤ shifted p.cols (ztol / p.psc) (cartToPixel p (x, y)).2 ∧
    shifted p.cols (ztol / p.psc) (cartToPixel p (x, y)).2 ≤ colFloor p x + 1 := by
  rw [colFloor]
  have e : (cartToPixel p (x, 0)).2 = (cartToPixel p (x, y)).2 := rfl
  rw [e]
  exact ⟨Int.floor_le _, (Int.lt_floor_add_one _).le⟩

/-- Every point kept by clipping is within half a pixel of the range of the pixel centres. -/
theorem onPanel_range (hr : 0 < p.psr) (hc : 0 < p.psc) {buf : Buffer} (hb : ∀ x y, buf = .mm x y → 0 ≤ x ∧ 0 ≤ y)
    {x y : ℝ} (h : onPanel p buf true (x, y) = true) :
    (-1 / 2 ≤ (cartToPixel p (x, y)).1 ∧ (cartToPixel p (x, y)).1 ≤ p.rows - 1 / 2) ∧
    (-1 / 2 ≤ (cartToPixel p (x, y)).2 ∧ (cartToPixel p (x, y)).2 ≤ p.cols - 1 / 2) := by
  have key : ∀ x y : ℝ, InRectangle p.rows p.cols p.psr p.psc 0 0 x y →
      (-1 / 2 ≤ (cartToPixel p (x, y)).1 ∧ (cartToPixel p (x, y)).1 ≤ p.rows - 1 / 2) ∧
      (-1 / 2 ≤ (cartToPixel p (x, y)).2 ∧ (cartToPixel p (x, y)).2 ≤ p.cols - 1 / 2) := by
    rintro x y ⟨a, b, c, d⟩
    obtain ⟨⟨a1, a2⟩, b1, b2⟩ := frac_bounds hr hc x y ((p.cols : ℝ) - 1 / 2) (-1 / 2) ((p.rows : ℝ) - 1 / 2) (-1 / 2)
    refine ⟨⟨?_, ?_⟩, ?_, ?_⟩
    · by_contra hn; have := b2.1 (not_le.1 hn); linarith
    · by_contra hn; have := b1.1 (not_le.1 hn); linarith
    · by_contra hn; have := a2.1 (not_le.1 hn); linarith
    · by_contra hn; have := a1.1 (not_le.1 hn); linarith
  cases buf with
  | none => exact key x y ((clip_plain p .none true (Or.inr (by simp)) x y).1 h)
  | mm bx bY =>
    obtain ⟨a, b, c, d⟩ := (clip_mm p bx bY x y).1 h
    obtain ⟨hx, hy⟩ := hb bx bY rfl
    exact key x y ⟨by linarith, by linarith, by linarith, by linarith⟩
  | mask m =>
    simp only [onPanel] at h
    split at h
    · exact absurd h (by simp)
    · rename_i hn
      simp only [cartToPixelInt] at hn
      simp only [Bool.or_eq_true, decide_eq_true_eq, not_or, not_lt, ge_iff_le, not_le] at hn
      obtain ⟨⟨n1, n2⟩, n3, n4⟩ := hn
      have r1 := abs_le.1 (npRound_near (cartToPixel p (x, y)).1)
      have r2 := abs_le.1 (npRound_near (cartToPixel p (x, y)).2)
      have m1 : (0 : ℝ) ≤ npRound (cartToPixel p (x, y)).1 := by exact_mod_cast n1
      have m2 : (npRound (cartToPixel p (x, y)).1 : ℝ) ≤ p.rows - 1 := by
        have : npRound (cartToPixel p (x, y)).1 ≤ (p.rows : Int) - 1 := by omega
        exact_mod_cast this
      have m3 : (0 : ℝ) ≤ npRound (cartToPixel p (x, y)).2 := by exact_mod_cast n3
      have m4 : (npRound (cartToPixel p (x, y)).2 : ℝ) ≤ p.cols - 1 := by
        have : npRound (cartToPixel p (x, y)).2 ≤ (p.cols : Int) - 1 := by omega
        exact_mod_cast this
      refine ⟨⟨?_, ?_⟩, ?_, ?_⟩ <;> linarith

theorem ztol_div {s : ℝ} (h : 2 * ztol < s) : 0 ≤ ztol / s ∧ ztol / s < 1 / 2 := by
  have := ztol_pos
  have hs : 0 < s := by linarith
  refine ⟨by positivity, ?_⟩
  rw [div_lt_iff₀ hs]; linarith

/-- C65: the value at a point kept by clipping is linear interpolation, in both directions, between the four pixels
around the point (limited to the range of the pixel centres, so that outside it the outermost pixels count alone).
Within the tolerance (1.5e-8 mm) beyond the last centres it is the linear extrapolation.  Points not kept are NaN or
0 as requested. -/
theorem bilinear_value (h2 : 2 ≤ p.rows) (h3 : 2 ≤ p.cols) (hr : 2 * ztol < p.psr) (hc : 2 * ztol < p.psc)
    {buf : Buffer} (xy : List (ℝ × ℝ)) (img : Nat → Nat → ℝ) (pad : Bool) :
    ∃ out, interpolateBilinear p buf xy img pad = some out ∧ out.length = xy.length ∧ ∀ (n : Nat) (q : ℝ × ℝ), xy[n]? = some q →
      (onPanel p buf true q = false → out[n]? = some (if pad then none else some 0)) ∧
      (onPanel p buf true q = true → ∃ k l s t, Between p.rows (ztol / p.psr) (cartToPixel p q).1 k s ∧
        Between p.cols (ztol / p.psc) (cartToPixel p q).2 l t ∧ out[n]? = some (some (mix img k l s t))) := by
  have hz := ztol_pos
  have hr0 : 0 < p.psr := by linarith
  have hc0 : 0 < p.psc := by linarith
  refine ⟨_, bilinear_points p h2 h3 hr0 hc0 buf xy img pad, by simp, fun n q hq => ⟨fun h => ?_, fun h => ?_⟩⟩
  · rw [List.getElem?_map, hq, Option.map_some, h]; simp
  · obtain ⟨x, y⟩ := q
    obtain ⟨z1, z2⟩ := ztol_div hr
    obtain ⟨z3, z4⟩ := ztol_div hc
    obtain ⟨r1, r2⟩ := rowFloor_spec (p := p) y x
    obtain ⟨c1, c2⟩ := colFloor_spec (p := p) y x
    obtain ⟨k, s, hs, hi⟩ := axis_mix h2 z1 z2 r1 r2
    obtain ⟨l, t, ht, hj⟩ := axis_mix h3 z3 z4 c1 c2
    refine ⟨k, l, s, t, hs, ht, ?_⟩
    rw [List.getElem?_map, hq, Option.map_some, h, if_pos rfl, bilinearAt_mix p img (x, y) _ _ hi hj]

theorem mix_const (c : ℝ) (k l : Nat) (s t : ℝ) : mix (fun _ _ => c) k l s t = c := by unfold mix; ring

/-- C65: a constant image is interpolated to the constant at every point of the panel. -/
theorem bilinear_constant (h2 : 2 ≤ p.rows) (h3 : 2 ≤ p.cols) (hr : 2 * ztol < p.psr) (hc : 2 * ztol < p.psc)
    {buf : Buffer} (q : ℝ × ℝ) (h : onPanel p buf true q = true) (c : ℝ)
    (pad : Bool) : interpolateBilinear p buf [q] (fun _ _ => c) pad = some [some c] := by
  obtain ⟨out, h1, hl, hv⟩ := bilinear_value h2 h3 hr hc [q] (fun _ _ => c) pad
  obtain ⟨k, l, s, t, -, -, ho⟩ := (hv 0 q rfl).2 h
  rw [mix_const] at ho
  rw [h1]
  match out, hl with
  | [a], _ => simpa using ho

theorem between_centre {n : Nat} {z : ℝ} {i k : Nat} {s : ℝ} (hi : i < n) (h : Between n z i k s) :
    (k = i ∧ s = 0) ∨ (k + 1 = i ∧ s = 1) := by
  obtain ⟨hk, h0, ⟨h1, h2⟩ | ⟨h1, h2, h3, h4⟩⟩ := h
  · have hiR : (i : ℝ) ≤ n - 1 := by
      have : i + 1 ≤ n := hi
      have : ((i + 1 : ℕ) : ℝ) ≤ n := by exact_mod_cast this
      push_cast at this; linarith
    rw [min_eq_left hiR, max_eq_right (by positivity)] at h2
    by_cases hs : s = 0
    · left; subst hs; exact ⟨by exact_mod_cast (show (k : ℝ) = i by linarith), rfl⟩
    · right
      have hs0 : 0 < s := lt_of_le_of_ne h0 (Ne.symm hs)
      have a : k < i := by exact_mod_cast (show (k : ℝ) < i by linarith)
      have b : (i : ℝ) ≤ ((k + 1 : ℕ) : ℝ) := by push_cast; linarith
      have b' : i ≤ k + 1 := by exact_mod_cast b
      have c : i = k + 1 := by omega
      subst c
      push_cast at h2
      exact ⟨rfl, by linarith⟩
  · have : ((k + 1 : ℕ) : ℝ) < i := by push_cast; linarith
    have : k + 1 < i := by exact_mod_cast this
    omega

/-- C65: at the centre of a pixel the value is that of the pixel. -/
theorem bilinear_centre (h2 : 2 ≤ p.rows) (h3 : 2 ≤ p.cols) (hr : 2 * ztol < p.psr) (hc : 2 * ztol < p.psc)
    {buf : Buffer} (img : Nat → Nat → ℝ) (pad : Bool) {i j : Nat}
    (hi : i < p.rows) (hj : j < p.cols) (h : onPanel p buf true (centre p.rows p.cols p.psr p.psc i j) = true) :
    interpolateBilinear p buf [centre p.rows p.cols p.psr p.psc i j] img pad = some [some (img i j)] := by
  have hz := ztol_pos
  obtain ⟨out, h1, hl, hv⟩ := bilinear_value h2 h3 hr hc [centre p.rows p.cols p.psr p.psc i j] img pad
  obtain ⟨k, l, s, t, hs, ht, ho⟩ := (hv 0 _ rfl).2 h
  have hpix : cartToPixel p (centre p.rows p.cols p.psr p.psc i j) = ((i : ℝ), (j : ℝ)) := by
    rw [← pixelToCart_eq]; exact (pixel_cart_inverse (by linarith) (by linarith) _).1
  rw [hpix] at hs ht
  have e : mix img k l s t = img i j := by
    rcases between_centre hi hs with ⟨rfl, rfl⟩ | ⟨rfl, rfl⟩ <;>
      rcases between_centre hj ht with ⟨rfl, rfl⟩ | ⟨rfl, rfl⟩ <;> unfold mix <;> ring
  rw [e] at ho
  rw [h1]
  match out, hl with
  | [a], _ => simpa using ho

/-- C65: between the pixel centres, the value lies between the smallest and the largest pixel value. -/
theorem bilinear_bounds (h2 : 2 ≤ p.rows) (h3 : 2 ≤ p.cols) (hr : 2 * ztol < p.psr) (hc : 2 * ztol < p.psc)
    {buf : Buffer} (img : Nat → Nat → ℝ) (pad : Bool) {q : ℝ × ℝ}
    (h : onPanel p buf true q = true) (hq1 : (cartToPixel p q).1 ≤ p.rows - 1) (hq2 : (cartToPixel p q).2 ≤ p.cols - 1)
    {lo hi : ℝ} (hl : ∀ i j, i < p.rows → j < p.cols → lo ≤ img i j ∧ img i j ≤ hi) :
    ∃ v, interpolateBilinear p buf [q] img pad = some [some v] ∧ lo ≤ v ∧ v ≤ hi := by
  obtain ⟨out, h1, hlen, hv⟩ := bilinear_value h2 h3 hr hc [q] img pad
  obtain ⟨k, l, s, t, ⟨hk, hs0, hs⟩, ⟨hk', ht0, ht⟩, ho⟩ := (hv 0 _ rfl).2 h
  have hs1 : s ≤ 1 := by
    rcases hs with hs | ⟨a, b, c, d⟩
    · exact hs.1
    · have : (k : ℝ) + 2 = p.rows := by exact_mod_cast a
      linarith
  have ht1 : t ≤ 1 := by
    rcases ht with ht | ⟨a, b, c, d⟩
    · exact ht.1
    · have : (l : ℝ) + 2 = p.cols := by exact_mod_cast a
      linarith
  have line : ∀ u a b : ℝ, 0 ≤ u → u ≤ 1 → (lo ≤ a ∧ a ≤ hi) → (lo ≤ b ∧ b ≤ hi) →
      lo ≤ (1 - u) * a + u * b ∧ (1 - u) * a + u * b ≤ hi := by
    rintro u a b u0 u1 ⟨a1, a2⟩ ⟨b1, b2⟩
    constructor <;> nlinarith
  refine ⟨mix img k l s t, ?_, ?_⟩
  · rw [h1]
    match out, hlen with
    | [a], _ => simpa using ho
  · unfold mix
    exact line s _ _ hs0 hs1 (line t _ _ ht0 ht1 (hl _ _ (by omega) (by omega)) (hl _ _ (by omega) (by omega)))
      (line t _ _ ht0 ht1 (hl _ _ (by omega) (by omega)) (hl _ _ (by omega) (by omega)))

/-- C65: an image whose values are a function of degree one in the row and in the column is reproduced exactly between
the outermost pixel centres. -/
theorem bilinear_reproduces (h2 : 2 ≤ p.rows) (h3 : 2 ≤ p.cols) (hr : 2 * ztol < p.psr) (hc : 2 * ztol < p.psc)
    {buf : Buffer} (a b c d : ℝ) (pad : Bool) {u v : ℝ}
    (h : onPanel p buf true (centre p.rows p.cols p.psr p.psc u v) = true) (hu0 : 0 ≤ u) (hu1 : u ≤ p.rows - 1)
    (hv0 : 0 ≤ v) (hv1 : v ≤ p.cols - 1) :
    interpolateBilinear p buf [centre p.rows p.cols p.psr p.psc u v] (fun i j => a + b * i + c * j + d * i * j) pad =
      some [some (a + b * u + c * v + d * u * v)] := by
  have hz := ztol_pos
  obtain ⟨out, h1, hlen, hv⟩ := bilinear_value h2 h3 hr hc [centre p.rows p.cols p.psr p.psc u v]
    (fun i j => a + b * i + c * j + d * i * j) pad
  obtain ⟨k, l, s, t, ⟨hk, hs0, hs⟩, ⟨hk', ht0, ht⟩, ho⟩ := (hv 0 _ rfl).2 h
  have hpix : cartToPixel p (centre p.rows p.cols p.psr p.psc u v) = (u, v) := by
    rw [← pixelToCart_eq]; exact (pixel_cart_inverse (by linarith) (by linarith) _).1
  rw [hpix] at hs ht
  have e1 : (k : ℝ) + s = u := by
    rcases hs with ⟨_, hs⟩ | ⟨_, _, _, d⟩
    · simpa only [min_eq_left hu1, max_eq_right hu0] using hs
    · exact d
  have e2 : (l : ℝ) + t = v := by
    rcases ht with ⟨_, ht⟩ | ⟨_, _, _, d⟩
    · simpa only [min_eq_left hv1, max_eq_right hv0] using ht
    · exact d
  have e : mix (fun i j => a + b * (i : ℝ) + c * (j : ℝ) + d * i * j) k l s t = a + b * u + c * v + d * u * v := by
    rw [← e1, ← e2]; unfold mix; push_cast; ring
  rw [e] at ho
  rw [h1]
  match out, hlen with
  | [a], _ => simpa using ho

/-- C65: for an image of integers, the interpolated value is truncated: halfway between pixels of 0 and 1 it is 0. -/
theorem bilinear_integer : let p : Panel := ⟨2, 2, 1, 1⟩
    interpolateBilinearInt p .none [(0, 0)] (fun _ j => j) true = some [some 0] ∧
    interpolateBilinear p .none [(0, 0)] (fun _ j => j) true = some [some (1 / 2)] := by
  intro p
  have hz : ztol = 1 / 67108864 := rfl
  have hc : centre p.rows p.cols p.psr p.psc (1 / 2) (1 / 2) = (0, 0) := by
    simp only [centre, p, Prod.mk.injEq]; norm_num
  have h : interpolateBilinear p .none [(0, 0)] (fun _ j => j) true = some [some (1 / 2)] := by
    have e := bilinear_reproduces (p := p) le_rfl le_rfl (by simp only [p, hz]; norm_num) (by simp only [p, hz]; norm_num)
      (buf := .none) 0 0 1 0 true (u := 1 / 2) (v := 1 / 2)
      (by rw [hc, clip_plain p .none true (Or.inr (by simp))]; simp only [InRectangle, p]; norm_num)
      (by norm_num) (by simp only [p]; norm_num) (by norm_num) (by simp only [p]; norm_num)
    rw [hc] at e
    simpa using e
  refine ⟨?_, h⟩
  rw [interpolateBilinearInt]
  simp only [Int.cast_natCast, h, Option.map_some, List.map_cons, List.map_nil]
  have : Hexrd.Grid.truncate (1 / 2) = 0 := by
    rw [Hexrd.Grid.truncate, if_pos (by norm_num), Int.floor_eq_iff]; norm_num
  rw [this]; simp

/-- C65, C64: a panel with a single row or column cannot be interpolated at all. -/
theorem single_row (buf : Buffer) (xy : List (ℝ × ℝ)) (img : Nat → Nat → ℝ) (pad : Bool) (h : p.rows = 1) :
    interpolateBilinear p buf xy img pad = none ∧ interpolateNearest p buf xy img pad = none := by
  have e : ∀ ys, cellIndicesL p.rowPixelVec ys = none := by
    intro ys
    have : p.rowPixelVec = [p.psr * (1 / 2 * ((p.rows : ℝ) - 1) - (0 : ℕ))] := by
      unfold Panel.rowPixelVec; rw [h]; rfl
    rw [cellIndicesL, this, if_pos (by simp [cellIndices])]
  constructor
  · simp only [interpolateBilinear, e]; rfl
  · simp only [interpolateNearest, e]; rfl

/-! ## C64: nearest-neighbour interpolation -/

/-- The index an array access uses for an index from -1 to n - 1. -/
def wrap (n : Nat) (F : Int) : Nat := if F < 0 then n - 1 else F.toNat

theorem pyIndex_wrap {n : Nat} {F : Int} (h1 : -1 ≤ F) (h2 : F < n) (hn : 1 ≤ n) : pyIndex n F = some (wrap n F) := by
  rw [pyIndex, wrap]
  by_cases h : 0 ≤ F
  · rw [if_pos h, if_pos h2, if_neg (by omega)]
  · rw [if_neg h, if_pos (by omega), if_pos (by omega)]; congr 1; omega

theorem floor_range {n : Nat} {z f : ℝ} (hz : 0 ≤ z) (hz2 : z < 1 / 2) (hn : 2 ≤ n) (h0 : -1 / 2 ≤ f) (h1 : f ≤ n - 1 / 2) {F : Int}
    (hF : (F : ℝ) ≤ shifted n z f) (hF' : shifted n z f ≤ F + 1) : -1 ≤ F ∧ F < n := by
  have hnR : (2 : ℝ) ≤ n := by exact_mod_cast hn
  unfold shifted at hF hF'
  have a : (-2 : ℝ) < F := by split at hF' <;> linarith
  have b : (F : ℝ) < n := by split at hF <;> linarith
  have a' : (-2 : Int) < F := by exact_mod_cast a
  have b' : F < (n : Int) := by exact_mod_cast b
  omega

/-- Nearest-neighbour interpolation, point by point: no exception occurs. -/
theorem nearest_points (h2 : 2 ≤ p.rows) (h3 : 2 ≤ p.cols) (hr : 2 * ztol < p.psr) (hc : 2 * ztol < p.psc)
    {buf : Buffer} (hb : ∀ x y, buf = .mm x y → 0 ≤ x ∧ 0 ≤ y) (xy : List (ℝ × ℝ)) (img : Nat → Nat → ℝ) (pad : Bool) :
    interpolateNearest p buf xy img pad = some (xy.map fun q =>
      if onPanel p buf true q then some (img (wrap p.rows (rowFloor p q.2)) (wrap p.cols (colFloor p q.1)))
      else if pad then none else some 0) := by
  have hz := ztol_pos
  have hr0 : 0 < p.psr := by linarith
  have hc0 : 0 < p.psc := by linarith
  obtain ⟨z1, z2⟩ := ztol_div hr
  obtain ⟨z3, z4⟩ := ztol_div hc
  rw [interpolateNearest]
  simp only [clip_points, rows_cells p h2 hr0, cols_cells p h3 hc0, Option.bind_eq_bind, Option.bind_some,
    Option.pure_def, List.map_map]
  have e : ∀ l : List (ℝ × ℝ), (∀ q ∈ l, onPanel p buf true q = true) →
      ((l.map (rowFloor p ∘ fun x => x.2)).zip (l.map (colFloor p ∘ fun x => x.1))).mapM (fun (ij : Int × Int) =>
        (pyIndex p.rows ij.1).bind fun i => (pyIndex p.cols ij.2).bind fun j => some (some (img i j))) =
      some (l.map fun q => some (img (wrap p.rows (rowFloor p q.2)) (wrap p.cols (colFloor p q.1)))) := by
    intro l
    induction l with
    | nil => intro _; rfl
    | cons q l ih =>
      intro hq
      obtain ⟨x, y⟩ := q
      obtain ⟨⟨a1, a2⟩, b1, b2⟩ := onPanel_range hr0 hc0 hb (hq (x, y) (by simp))
      obtain ⟨r1, r2⟩ := rowFloor_spec (p := p) y x
      obtain ⟨c1, c2⟩ := colFloor_spec (p := p) y x
      obtain ⟨f1, f2⟩ := floor_range z1 z2 h2 a1 a2 r1 r2
      obtain ⟨f3, f4⟩ := floor_range z3 z4 h3 b1 b2 c1 c2
      rw [List.map_cons, List.map_cons, List.zip_cons_cons, List.mapM_cons, ih fun q hq' => hq q (by simp [hq'])]
      simp only [Function.comp, pyIndex_wrap f1 f2 (by omega), pyIndex_wrap f3 f4 (by omega)]
      rfl
  rw [e _ fun q hq => (List.mem_filter.1 hq).2]
  simp only [Option.bind_some, scatter_map]

theorem rowFloor_mid {i : Nat} {x y : ℝ} (h1 : (i : ℝ) < (cartToPixel p (x, y)).1) (h2 : (cartToPixel p (x, y)).1 ≤ i + 1)
    (h3 : (cartToPixel p (x, y)).1 < p.rows - 1 - ztol / p.psr) : wrap p.rows (rowFloor p y) = i := by
  have e : rowFloor p y = i := by
    rw [rowFloor, show (cartToPixel p (0, y)).1 = (cartToPixel p (x, y)).1 from rfl, shifted, if_neg (by linarith)]
    have : ⌈(cartToPixel p (x, y)).1⌉ = (i : Int) + 1 := by
      rw [Int.ceil_eq_iff]; push_cast; constructor <;> linarith
    omega
  rw [e, wrap, if_neg (by omega)]; simp

theorem rowFloor_top (h2 : 2 ≤ p.rows) (hr : 2 * ztol < p.psr) {x y : ℝ} (h1 : -1 < (cartToPixel p (x, y)).1)
    (h3 : (cartToPixel p (x, y)).1 ≤ 0) : wrap p.rows (rowFloor p y) = p.rows - 1 := by
  obtain ⟨z1, z2⟩ := ztol_div hr
  have hR : (2 : ℝ) ≤ p.rows := by exact_mod_cast h2
  have e : rowFloor p y = -1 := by
    rw [rowFloor, show (cartToPixel p (0, y)).1 = (cartToPixel p (x, y)).1 from rfl, shifted, if_neg (by linarith)]
    have : ⌈(cartToPixel p (x, y)).1⌉ = (0 : Int) := by
      rw [Int.ceil_eq_iff]; push_cast; constructor <;> linarith
    omega
  rw [e, wrap, if_pos (by omega)]

theorem colFloor_mid {j : Nat} {x y : ℝ} (h1 : (j : ℝ) ≤ (cartToPixel p (x, y)).2) (h2 : (cartToPixel p (x, y)).2 < j + 1)
    (h3 : (cartToPixel p (x, y)).2 < p.cols - 1 - ztol / p.psc) : wrap p.cols (colFloor p x) = j := by
  have e : colFloor p x = j := by
    rw [colFloor, show (cartToPixel p (x, 0)).2 = (cartToPixel p (x, y)).2 from rfl, shifted, if_neg (by linarith)]
    rw [Int.floor_eq_iff]; push_cast; constructor <;> linarith
  rw [e, wrap, if_neg (by omega)]; simp

theorem colFloor_left (h2 : 2 ≤ p.cols) (hr : 2 * ztol < p.psc) {x y : ℝ} (h1 : -1 ≤ (cartToPixel p (x, y)).2)
    (h3 : (cartToPixel p (x, y)).2 < 0) : wrap p.cols (colFloor p x) = p.cols - 1 := by
  obtain ⟨z1, z2⟩ := ztol_div hr
  have hR : (2 : ℝ) ≤ p.cols := by exact_mod_cast h2
  have e : colFloor p x = -1 := by
    rw [colFloor, show (cartToPixel p (x, 0)).2 = (cartToPixel p (x, y)).2 from rfl, shifted, if_neg (by linarith)]
    rw [Int.floor_eq_iff]; push_cast; constructor <;> linarith
  rw [e, wrap, if_pos (by omega)]

/-- C64 fails in general: the value is that of the pixel whose *centre* is next above and to the left of the point
(`i < u ≤ i + 1` and `j ≤ v < j + 1` pixels from the centre of pixel `(0, 0)`), which is the pixel of the point only
in one quarter of the cases. -/
theorem nearest_floor (h2 : 2 ≤ p.rows) (h3 : 2 ≤ p.cols) (hr : 2 * ztol < p.psr) (hc : 2 * ztol < p.psc)
    {buf : Buffer} (hb : ∀ x y, buf = .mm x y → 0 ≤ x ∧ 0 ≤ y) (img : Nat → Nat → ℝ) (pad : Bool) {i j : Nat} {u v : ℝ}
    (h : onPanel p buf true (centre p.rows p.cols p.psr p.psc u v) = true) (hu : i < u) (hu' : u ≤ i + 1)
    (hv : j ≤ v) (hv' : v < j + 1) (hu1 : u < p.rows - 1 - ztol / p.psr) (hv1 : v < p.cols - 1 - ztol / p.psc) :
    interpolateNearest p buf [centre p.rows p.cols p.psr p.psc u v] img pad = some [some (img i j)] := by
  have hz := ztol_pos
  have hpix : cartToPixel p (centre p.rows p.cols p.psr p.psc u v) = (u, v) := by
    rw [← pixelToCart_eq]; exact (pixel_cart_inverse (by linarith) (by linarith) _).1
  rw [nearest_points h2 h3 hr hc hb]
  rcases hcen : centre p.rows p.cols p.psr p.psc u v with ⟨x, y⟩
  rw [hcen] at hpix h
  rw [List.map_cons, h, if_pos rfl, List.map_nil,
    rowFloor_mid (x := x) (i := i) (by rw [hpix]; exact hu) (by rw [hpix]; exact hu') (by rw [hpix]; exact hu1),
    colFloor_mid (y := y) (j := j) (by rw [hpix]; exact hv) (by rw [hpix]; exact hv') (by rw [hpix]; exact hv1)]

/-- C64, where it holds: a point of pixel `(i, j)` that is below the pixel's centre and not to the left of it, in
another than the last row and column, gets the value of its pixel. -/
theorem nearest_partial (h2 : 2 ≤ p.rows) (h3 : 2 ≤ p.cols) (hr : 2 * ztol < p.psr) (hc : 2 * ztol < p.psc)
    {buf : Buffer} (hb : ∀ x y, buf = .mm x y → 0 ≤ x ∧ 0 ≤ y) (img : Nat → Nat → ℝ) (pad : Bool) {i j : Nat} {x y : ℝ}
    (hi : i + 1 < p.rows) (hj : j + 1 < p.cols) (hin : InPixel p.rows p.cols p.psr p.psc i j x y)
    (hx : (centre p.rows p.cols p.psr p.psc i j).1 ≤ x) (hy : y < (centre p.rows p.cols p.psr p.psc i j).2)
    (h : onPanel p buf true (x, y) = true) : interpolateNearest p buf [(x, y)] img pad = some [some (img i j)] := by
  have hz := ztol_pos
  have hr0 : 0 < p.psr := by linarith
  have hc0 : 0 < p.psc := by linarith
  obtain ⟨z1, z2⟩ := ztol_div hr
  obtain ⟨z3, z4⟩ := ztol_div hc
  obtain ⟨a, b, c, d⟩ := hin
  simp only [centre] at hx hy
  push_cast at a b c d
  obtain ⟨⟨a1, a2⟩, b1, b2⟩ := frac_bounds hr0 hc0 x y j (j + 1 / 2) i (i + 1 / 2)
  have k1 := b1.2 (by linarith)
  have k2 := b2.2 (by linarith)
  have k3 := a2.2 (by linarith)
  have k4 : (j : ℝ) ≤ (cartToPixel p (x, y)).2 := by
    by_contra hn
    have := ((frac_bounds hr0 hc0 x y j j i i).1.2).1 (not_le.1 hn)
    linarith
  have hiR : (i : ℝ) + 2 ≤ p.rows := by exact_mod_cast hi
  have hjR : (j : ℝ) + 2 ≤ p.cols := by exact_mod_cast hj
  rw [nearest_points h2 h3 hr hc hb, List.map_cons, h, if_pos rfl, List.map_nil,
    rowFloor_mid (x := x) k1 (by linarith) (by linarith), colFloor_mid (y := y) k4 (by linarith) (by linarith)]

/-- C64 fails at the first row and column: a point of the upper half of the first row, or of its middle, gets the
value of the last row (and one of the left half of the first column that of the last column). -/
theorem nearest_wrap (h2 : 2 ≤ p.rows) (h3 : 2 ≤ p.cols) (hr : 2 * ztol < p.psr) (hc : 2 * ztol < p.psc)
    {buf : Buffer} (hb : ∀ x y, buf = .mm x y → 0 ≤ x ∧ 0 ≤ y) (img : Nat → Nat → ℝ) (pad : Bool) {u v : ℝ}
    (h : onPanel p buf true (centre p.rows p.cols p.psr p.psc u v) = true) :
    (∀ j : Nat, u ≤ 0 → j ≤ v → v < j + 1 → v < p.cols - 1 - ztol / p.psc →
      interpolateNearest p buf [centre p.rows p.cols p.psr p.psc u v] img pad = some [some (img (p.rows - 1) j)]) ∧
    (∀ i : Nat, v < 0 → i < u → u ≤ i + 1 → u < p.rows - 1 - ztol / p.psr →
      interpolateNearest p buf [centre p.rows p.cols p.psr p.psc u v] img pad = some [some (img i (p.cols - 1))]) := by
  have hz := ztol_pos
  have hr0 : 0 < p.psr := by linarith
  have hc0 : 0 < p.psc := by linarith
  have hpix : cartToPixel p (centre p.rows p.cols p.psr p.psc u v) = (u, v) := by
    rw [← pixelToCart_eq]; exact (pixel_cart_inverse hr0 hc0 _).1
  rw [nearest_points h2 h3 hr hc hb]
  rcases hcen : centre p.rows p.cols p.psr p.psc u v with ⟨x, y⟩
  rw [hcen] at hpix h
  have hrange := onPanel_range hr0 hc0 hb h
  rw [hpix] at hrange
  obtain ⟨⟨a1, a2⟩, b1, b2⟩ := hrange
  simp only at a1 a2 b1 b2
  constructor
  · intro j hu hv hv' hv1
    rw [List.map_cons, h, if_pos rfl, List.map_nil,
      rowFloor_top (x := x) h2 hr (by rw [hpix]; simp only; linarith) (by rw [hpix]; exact hu),
      colFloor_mid (y := y) (j := j) (by rw [hpix]; exact hv) (by rw [hpix]; exact hv') (by rw [hpix]; exact hv1)]
  · intro i hv hu hu' hu1
    rw [List.map_cons, h, if_pos rfl, List.map_nil,
      colFloor_left (y := y) h3 hc (by rw [hpix]; simp only; linarith) (by rw [hpix]; exact hv),
      rowFloor_mid (x := x) (i := i) (by rw [hpix]; exact hu) (by rw [hpix]; exact hu') (by rw [hpix]; exact hu1)]

/-- C64 fails at the centres of pixels: the value is that of the pixel above. -/
theorem nearest_centre (h2 : 2 ≤ p.rows) (h3 : 2 ≤ p.cols) (hr : 2 * ztol < p.psr) (hc : 2 * ztol < p.psc)
    (img : Nat → Nat → ℝ) (pad : Bool) {i j : Nat} (hi : i + 2 < p.rows) (hj : j + 1 < p.cols) :
    interpolateNearest p .none [centre p.rows p.cols p.psr p.psc (i + 1 : ℕ) j] img pad = some [some (img i j)] := by
  have hz := ztol_pos
  obtain ⟨z1, z2⟩ := ztol_div hr
  obtain ⟨z3, z4⟩ := ztol_div hc
  have hiR : (i : ℝ) + 3 ≤ p.rows := by exact_mod_cast hi
  have hjR : (j : ℝ) + 2 ≤ p.cols := by exact_mod_cast hj
  have hi0 : (0 : ℝ) ≤ i := by positivity
  have hj0 : (0 : ℝ) ≤ j := by positivity
  refine nearest_floor h2 h3 hr hc (buf := .none) (by simp) img pad ?_ ?_ ?_ le_rfl ?_ ?_ ?_
  · rw [centre, clip_plain p .none true (Or.inr (by simp))]
    unfold InRectangle
    push_cast
    refine ⟨?_, ?_, ?_, ?_⟩ <;> nlinarith
  all_goals push_cast
  all_goals linarith

/-- The hypotheses of the theorems on interpolation are met: a panel of 2048 × 2048 pixels of 0.2 mm with a border. -/
example : ∃ p : Panel, 2 ≤ p.rows ∧ 2 ≤ p.cols ∧ 2 * ztol < p.psr ∧ 2 * ztol < p.psc ∧
    onPanel p (.mm 2 2) true (centre p.rows p.cols p.psr p.psc 100 (401 / 2)) = true := by
  refine ⟨⟨2048, 2048, 1 / 5, 1 / 5⟩, by norm_num, by norm_num, ?_, ?_, ?_⟩
  · unfold ztol; norm_num
  · unfold ztol; norm_num
  · rw [centre, clip_mm]; simp only [InRectangle]; norm_num

end

end

end Hexrd.Detector
