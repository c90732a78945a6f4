import Mathlib.Data.Real.Basic
import Mathlib.Algebra.BigOperators.Fin
import Mathlib.Algebra.Order.Round
import Mathlib.Algebra.Order.Archimedean.Real.Basic
import Mathlib.Analysis.SpecialFunctions.Log.Basic
import Mathlib.Analysis.SpecialFunctions.Exp
import Mathlib.Analysis.Real.Sqrt

/-!
# Model of the background estimation in `hexrd/core/imageutil.py`, with `hexrd/core/convolution`

A row of `n` pixels is a function on positions of which only those below `n` matter, an image a function on two
positions.  `none` is NaN.  Real numbers are exact, so the choice of the convolution method does not matter.
-/
namespace Hexrd.Snip

open Finset

noncomputable section

/-- A row of pixels. -/
abbrev Row := Nat → Option ℝ

/-- An image: row, column. -/
abbrev Image := Nat → Nat → Option ℝ

/-- `_scale_image_snip` with `invert=False`, imageutil.py:47. -/
def scale (offset y : ℝ) : ℝ := Real.log (Real.log (√(y - offset) + 1) + 1)

/-- `_scale_image_snip` with `invert=True`, imageutil.py:45. -/
def unscale (offset z : ℝ) : ℝ := (Real.exp (Real.exp z - 1) - 1) ^ 2 + offset

/-- The values of an image that are not NaN, row by row. -/
def values (rows cols : Nat) (y : Image) : List ℝ :=
  (List.range rows).flatMap fun r => (List.range cols).filterMap (y r)

/-- `np.nanmin(y)`, imageutil.py:77; `none` is NaN (no value at all). -/
def nanmin (rows cols : Nat) (y : Image) : Option ℝ := (values rows cols y).min?

/-! ### `convolution/convolve.py`, `convolution/src/convolve.c` -/

/-- `_copy_input_if_needed` with a mask, convolve.py:91-93: masked values become NaN. -/
def masked (z : Row) (mask : Nat → Bool) : Row := fun i => if mask i then none else z i

/-- `np.pad(..., mode='edge')`, convolve.py:362-364, for a row of `n` values: the value at position `j` of the padded
row. -/
def padEdge (n width : Nat) (z : Row) : Row := fun j => z (min (j - width) (n - 1))

/-- The accumulated products, convolve.c:252-270 (`top`); `g` is the kernel of `nk` values. -/
def top (nk : Nat) (g : Nat → ℝ) (f : Row) (i : Nat) : ℝ :=
  ∑ ii ∈ range nk, match f (i + ii) with
    | some val => val * g (nk - 1 - ii)
    | none => 0

/-- The accumulated weights of the values that are not NaN, convolve.c:262-266 (`bot`). -/
def bot (nk : Nat) (g : Nat → ℝ) (f : Row) (i : Nat) : ℝ :=
  ∑ ii ∈ range nk, match f (i + ii) with
    | some _ => g (nk - 1 - ii)
    | none => 0

/-- `convolve1d` with `embed_result_within_padded_region` false, convolve.c:248-287, on the padded row `f`.  With
`nanInterp` false the row has no NaN. -/
def convolve1d (nanInterp : Bool) (nk : Nat) (g : Nat → ℝ) (f : Row) (i : Nat) : Option ℝ :=
  if nanInterp then
    if bot nk g f i = 0 then f (i + nk / 2) else some (top nk g f i / bot nk g f i)
  else some (top nk g f i)

open Classical in
/-- `convolve` for a row of `n` values with `boundary='extend'`, `nan_treatment='interpolate'`,
`normalize_kernel=True` and `preserve_nan=True`, convolve.py:236-396.  The checks of the kernel (odd length, sum at least
1/100) hold for the kernels used below and are left out. -/
def convolve (n : Nat) (z : Row) (nk : Nat) (g : Nat → ℝ) (mask : Nat → Bool) : Row :=
  let a := masked z mask
  let nanInterp := decide (∃ i < n, a i = none)
  let f := padEdge n (nk / 2) a
  fun i =>
    if a i = none then none
    else if nanInterp then convolve1d true nk g f i
    else (convolve1d false nk g f i).map (· / ∑ k ∈ range nk, g k)

/-! ### `snip1d` -/

/-- imageutil.py:117-118: the kernel of width `2 p + 1` with one half at both ends. -/
def kernel (p k : Nat) : ℝ := if k = 0 ∨ k = 2 * p then 1 / 2 else 0

/-- `np.minimum`: NaN if one of the arguments is. -/
def minimum : Option ℝ → Option ℝ → Option ℝ
  | some a, some b => some (min a b)
  | _, _ => none

/-- imageutil.py:116-129: the loop over the window `p = w, …, 1`, from `b`; the convolved row `z` is the same in all
rounds. -/
def windows (n : Nat) (mask : Nat → Bool) (z : Row) : Nat → Row → Row
  | 0, b => b
  | p + 1, b =>
    windows n mask z p (fun i => minimum (b i) (convolve n z (2 * (p + 1) + 1) (kernel (p + 1)) mask i))

/-- imageutil.py:115-130: `numiter` rounds, each starting from the result of the one before. -/
def rounds (n : Nat) (mask : Nat → Bool) (w : Nat) : Nat → Row → Row
  | 0, z => z
  | k + 1, z => rounds n mask w k (windows n mask z w z)

/-- `_run_snip1d_row`, imageutil.py:108-131: a row of `n` scaled values. -/
def runRow (n w numiter : Nat) (minVal : ℝ) (z : Row) (mask : Nat → Bool) : Row :=
  if ∀ i < n, mask i = true then fun _ => none
  else fun i => (rounds n mask w numiter z i).map (unscale minVal)

open Classical in
/-- imageutil.py:81-84: the mask; a comparison with NaN is false. -/
def mask (threshold : Option ℝ) (y : Image) : Nat → Nat → Bool := fun r c =>
  match threshold, y r c with
  | some t, some v => decide (v ≤ t)
  | _, _ => false

/-- imageutil.py:77-78: the scaled image.  If there is no value at all, everything is NaN. -/
def scaled (minVal : Option ℝ) (y : Image) : Image := fun r c =>
  match minVal with
  | some m => (y r c).map (scale m)
  | none => none

/-- The result for row `r`, imageutil.py:87-88 with `_run_snip1d_row`. -/
def rowResult (rows cols w numiter : Nat) (threshold : Option ℝ) (y : Image) (r : Nat) : Row :=
  let m := nanmin rows cols y
  runRow cols w numiter (m.getD 0) (scaled m y r) (mask threshold y r)

/-- imageutil.py:90-101: the results `(k, row)` are stored as they come. -/
def store (results : List (Nat × Row)) : Image :=
  results.foldl (fun bkg kr => Function.update bkg kr.1 kr.2) (fun _ _ => some 0)

/-- imageutil.py:103-104: NaN is replaced by the threshold (`None` is stored as NaN). -/
def fillNan (threshold : Option ℝ) (b : Option ℝ) : Option ℝ :=
  match b with
  | some v => some v
  | none => threshold

/-- `snip1d` on an image of floating point numbers, imageutil.py:68-105; `order` gives the order in which the rows are
finished (by one process or by many). -/
def snip1d (rows cols w numiter : Nat) (threshold : Option ℝ) (y : Image) (order : List Nat) : Image := fun r c =>
  fillNan threshold (store (order.map fun k => (k, rowResult rows cols w numiter threshold y k)) r c)

/-- Storing a result in an image of integers (`np.zeros_like(y)` has the type of `y`, imageutil.py:76): truncation toward
zero. -/
def toInt (b : ℝ) : ℤ := if 0 ≤ b then ⌊b⌋ else ⌈b⌉

/-! ### `fast_snip1d`, `snip1d_quad`, `snip2d`: images without NaN -/

/-- `signal.convolve(z, kernel, mode='same')` with the kernel above, imageutil.py:59-62: zeros outside the row. -/
def convolveSame (n p : Nat) (z : Nat → ℝ) (i : Nat) : ℝ :=
  ∑ j ∈ range n, z j * if j ≤ i + p then kernel p (i + p - j) else 0

/-- The loop over the windows, given by the list of filters; imageutil.py:57-63 and the like. -/
def filters {ι : Type} (cs : List ((ι → ℝ) → ι → ℝ)) (z : ι → ℝ) : ι → ℝ :=
  cs.foldl (fun b c i => min (b i) (c z i)) z

/-- `numiter` rounds. -/
def iterFilters {ι : Type} (cs : List ((ι → ℝ) → ι → ℝ)) : Nat → (ι → ℝ) → ι → ℝ
  | 0, z => z
  | k + 1, z => iterFilters cs k (filters cs z)

/-- `w, w-1, …, 1` -/
def down (w : Nat) : List Nat := (List.range w).map fun k => w - k

/-- `fast_snip1d` for one row of `n` values, imageutil.py:50-65. -/
def fastRow (n w numiter : Nat) (minVal : ℝ) (y : Nat → ℝ) : Nat → ℝ := fun i =>
  unscale minVal (iterFilters ((down w).map fun p => convolveSame n p) numiter (fun i => scale minVal (y i)) i)

/-- `ndimage.convolve1d(z, kern, mode='nearest')` with a kernel of `2 p + 1` values, imageutil.py:156-157. -/
def convolveNearest (n p : Nat) (g : Nat → ℝ) (z : Nat → ℝ) (i : Nat) : ℝ :=
  ∑ k ∈ range (2 * p + 1), g k * z (min (i + p - k) (n - 1))

/-- The quadratic kernel, imageutil.py:147-149. -/
def quadKernel (p k : Nat) : ℝ :=
  if k = p / 2 ∨ k = 3 * p / 2 then 4 / 6 else if k = 0 ∨ k = 2 * p then -1 / 6 else 0

/-- `range(w, 1, -2)`, imageutil.py:140. -/
def downTwo (w : Nat) : List Nat := (List.range (w / 2)).map fun k => w - 2 * k

/-- imageutil.py:155-158: the larger one of the two filters. -/
def quadFilter (n p : Nat) (z : Nat → ℝ) (i : Nat) : ℝ :=
  max (convolveNearest n p (kernel p) z i) (convolveNearest n p (quadKernel p) z i)

/-- `snip1d_quad` for one row, imageutil.py:134-162. -/
def quadRow (n w numiter : Nat) (minVal : ℝ) (y : Nat → ℝ) : Nat → ℝ := fun i =>
  unscale minVal (iterFilters ((downTwo w).map fun p => quadFilter n p) numiter (fun i => scale minVal (y i)) i)

/-- The points of an `N × N` kernel, `N = 2 p1 + 1`, at rounded distance `rad` from its centre, imageutil.py:204-206.
`np.round` takes halves to the even side and `round` up; no square root of an integer is a half. -/
def circle (p1 rad : Nat) : Finset (Nat × Nat) :=
  (range (2 * p1 + 1) ×ˢ range (2 * p1 + 1)).filter fun xy =>
    round √(((xy.1 : ℝ) - p1) ^ 2 + ((xy.2 : ℝ) - p1) ^ 2) = (rad : ℤ)

/-- imageutil.py:207. -/
def linKernel2 (p1 : Nat) (x y : Nat) : ℝ := if (x, y) ∈ circle p1 p1 then 1 / (circle p1 p1).card else 0

/-- imageutil.py:211-216: the second assignment overwrites. -/
def quadKernel2 (p1 : Nat) (x y : Nat) : ℝ :=
  let p2 := p1 / 2
  if (x, y) ∈ circle p1 (2 * p2) then (-1 / 3) / (circle p1 (2 * p2)).card
  else if (x, y) ∈ circle p1 p2 then (4 / 3) / (circle p1 p2).card
  else 0

/-- `ndimage.convolve(z, kern, mode='nearest')`, imageutil.py:225-229. -/
def convolve2 (rows cols p1 : Nat) (g : Nat → Nat → ℝ) (z : Nat × Nat → ℝ) (rc : Nat × Nat) : ℝ :=
  ∑ xy ∈ range (2 * p1 + 1) ×ˢ range (2 * p1 + 1),
    g xy.1 xy.2 * z (min (rc.1 + p1 - xy.1) (rows - 1), min (rc.2 + p1 - xy.2) (cols - 1))

/-- imageutil.py:222-229. -/
def filter2 (rows cols order p : Nat) (z : Nat × Nat → ℝ) (rc : Nat × Nat) : ℝ :=
  if order > 1 then
    max (convolve2 rows cols (order * p) (linKernel2 (order * p)) z rc)
      (convolve2 rows cols (order * p) (quadKernel2 (order * p)) z rc)
  else convolve2 rows cols (order * p) (linKernel2 (order * p)) z rc

/-- `snip2d`, imageutil.py:165-233. -/
def snip2d (rows cols w numiter order : Nat) (minVal : ℝ) (y : Nat × Nat → ℝ) : Nat × Nat → ℝ := fun rc =>
  unscale minVal
    (iterFilters ((down w).map fun p => filter2 rows cols order p) numiter (fun rc => scale minVal (y rc)) rc)

end

end Hexrd.Snip
