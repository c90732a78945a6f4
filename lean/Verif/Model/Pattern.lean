import Mathlib.Data.Real.Basic
import Mathlib.Algebra.Order.Floor.Ring
import Mathlib.Algebra.Order.Archimedean.Real.Basic
import Mathlib.Algebra.BigOperators.Group.List.Basic

/-!
# Model of the powder pattern with operations (`hexrd/powder/wppf/spectrum.py`)

Floating-point numbers are real numbers. The two arrays are a list of points. The background of a pattern, itself a pattern, is given by
its `data`; the smoothing filter of scipy is an argument.
-/

namespace Hexrd.Pattern

/-- A list of points: position and value. -/
abbrev Pts := List (ℝ × ℝ)

/-- `Spectrum` (wppf/spectrum.py:27-40). There are two attributes for a background: `upper` is `bkg_Spectrum`, set to None in
`__init__` and used by `data`; `lower` is `bkg_spectrum`, set by `set_background`. -/
structure Spec where
  pts : Pts
  scaling : ℝ
  offset : ℝ
  smoothing : ℝ
  upper : Option Pts
  lower : Option Pts

/-- `Spectrum(x, y)` (wppf/spectrum.py:27-40). -/
def mk (pts : Pts) : Spec := ⟨pts, 1, 0, 0, none, none⟩

/-- `set_background` (wppf/spectrum.py:61-62), with the data of the background. -/
def setBackground (s : Spec) (b : Pts) : Spec := { s with lower := some b }

/-- The `scaling` setter (wppf/spectrum.py:204-209). -/
noncomputable def setScaling (s : Spec) (v : ℝ) : Spec := { s with scaling := if v < 0 then 0 else v }

/-- The `data` setter (wppf/spectrum.py:162-168). -/
noncomputable def setData (s : Spec) (pts : Pts) : Spec := { setScaling { s with pts := pts } 1 with offset := 0 }

/-- `original_data` (wppf/spectrum.py:180-182). -/
def originalData (s : Spec) : Pts := s.pts.map fun p => (p.1, p.2 * s.scaling + s.offset)

/-- `interp1d(x, y, kind='linear')` (wppf/spectrum.py:136) at a position between the first and the last point, for increasing positions. -/
noncomputable def interp : Pts → ℝ → ℝ
  | [], _ => 0
  | [p], _ => p.2
  | p :: q :: l, x => if x ≤ q.1 then p.2 + (q.2 - p.2) / (q.1 - p.1) * (x - p.1) else interp (q :: l) x

open Classical in
/-- The points between the smallest and the largest position of another pattern (wppf/spectrum.py:139-141, 277-279, 300-302). -/
noncomputable def overlap (p o : Pts) : Pts :=
  p.filter fun a => decide ((∃ b ∈ o, a.1 ≤ b.1) ∧ ∃ b ∈ o, b.1 ≤ a.1)

open Classical in
/-- `data` (wppf/spectrum.py:128-160); `none` is the exception for patterns that do not overlap. -/
noncomputable def data (smooth : ℝ → List ℝ → List ℝ) (s : Spec) : Option Pts := do
  let d ← match s.upper with
    | none => some (originalData s)
    | some b =>
      if b.map Prod.fst = s.pts.map Prod.fst then
        some (List.zipWith (fun p q => (p.1, p.2 * s.scaling + s.offset - q.2)) s.pts b)
      else if overlap s.pts b = [] then none
      else some ((overlap s.pts b).map fun p => (p.1, p.2 * s.scaling + s.offset - interp b p.1))
  some (if 0 < s.smoothing then (d.map Prod.fst).zip (smooth s.smoothing (d.map Prod.snd)) else d)

open Classical in
/-- `__add__` and `__sub__` (wppf/spectrum.py:266-312) on the data of the two patterns; `op` is the sum or the difference. -/
noncomputable def combine (op : ℝ → ℝ → ℝ) (p o : Pts) : Option Spec :=
  if p.length ≠ o.length then
    if overlap p o = [] then none else some (mk ((overlap p o).map fun a => (a.1, op a.2 (interp o a.1))))
  else some (mk (List.zipWith (fun a b => (a.1, op a.2 b.2)) p o))

/-- `__rmul__` (wppf/spectrum.py:314-316) on the data. -/
def rmul (c : ℝ) (p : Pts) : Spec := mk (p.map fun a => (a.1, a.2 * c))

open Classical in
/-- `limit` (wppf/spectrum.py:211-216) on the data. -/
noncomputable def limit (lo hi : ℝ) (p : Pts) : Spec := mk (p.filter fun a => decide (lo < a.1 ∧ a.1 < hi))

/-- `np.arange(start, stop, step)`. -/
noncomputable def arange (start stop step : ℝ) : List ℝ :=
  (List.range ⌈(stop - start) / step⌉.toNat).map fun (k : ℕ) => start + k * step

/-- `np.mean(np.diff(x))` (wppf/spectrum.py:228) of at least two positions. -/
noncomputable def meanStep (x : List ℝ) : ℝ := (List.zipWith (fun a b => b - a) x x.tail).sum / (x.length - 1 : ℕ)

open Classical in
/-- `extend_to` (wppf/spectrum.py:218-248), with the smallest and the largest position. The raw values are used, and the returned pattern
has no scaling and no offset. -/
noncomputable def extendTo (s : Spec) (xmin xmax xValue yValue : ℝ) : Spec :=
  let step := meanStep (s.pts.map Prod.fst)
  if xValue < xmin then
    mk (((arange (xmin - step) (xValue - step * 0.5) (-step)).reverse.map fun x => (x, yValue)) ++ s.pts)
  else if xValue > xmax then
    mk (s.pts ++ (arange (xmax + step) (xValue + step * 0.5) step).map fun x => (x, yValue))
  else s

/-- `np.round`: to the nearest integer, halves to the even one. -/
noncomputable def roundEven (x : ℝ) : ℤ :=
  if x - ⌊x⌋ < 1 / 2 then ⌊x⌋ else if 1 / 2 < x - ⌊x⌋ then ⌊x⌋ + 1 else if ⌊x⌋ % 2 = 0 then ⌊x⌋ else ⌊x⌋ + 1

/-- `new_x` (wppf/spectrum.py:75-77), with the smallest and the largest position. -/
noncomputable def newX (xmin xmax bin : ℝ) : List ℝ :=
  let x0 := roundEven (xmin / bin) * bin
  let x1 := roundEven (xmax / bin) * bin
  arange x0 (x1 + 0.1 * bin) bin

/-- `bins` (wppf/spectrum.py:79). -/
noncomputable def edges (xmin xmax bin : ℝ) : List ℝ :=
  (roundEven (xmin / bin) * bin - bin * 0.5) :: (newX xmin xmax bin).map fun x => x + bin * 0.5

open Classical in
/-- The points in the bin `k` of `np.histogram` with given edges: half open, but for the last bin. -/
noncomputable def inBin (e : List ℝ) (k : ℕ) (p : Pts) : Pts :=
  p.filter fun a => decide (e.getD k 0 ≤ a.1 ∧ (a.1 < e.getD (k + 1) 0 ∨ k + 2 = e.length ∧ a.1 = e.getD (k + 1) 0))

/-- `rebin` (wppf/spectrum.py:70-82) on the data; `none` is the NaN of zero over zero. -/
noncomputable def rebin (p : Pts) (xmin xmax bin : ℝ) : List (ℝ × Option ℝ) :=
  (List.range (newX xmin xmax bin).length).map fun k =>
    let q := inBin (edges xmin xmax bin) k p
    ((newX xmin xmax bin).getD k 0, if q.length = 0 then none else some ((q.map Prod.snd).sum / q.length))

end Hexrd.Pattern
