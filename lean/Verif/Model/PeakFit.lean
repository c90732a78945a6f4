import Verif.Model.Peaks
import Mathlib.Algebra.BigOperators.Group.List.Basic

/-!
Model of the set-up of peak fits, `hexrd/core/fitting/fitpeak.py`: initial guesses, bounds, residuals.

Simplifications: real arithmetic; the four peak types of `Hexrd.Peaks.PkType` (not the pink-beam types); the linear
background that SNIP and `curve_fit` deliver is an argument (intercept `bg0`, slope `bg1`), and the optimizers are not
modelled.
-/

namespace Hexrd.PeakFit
open Hexrd.Peaks

/-- `np.argmin`: the first position with the smallest value. -/
noncomputable def argmin : List ℝ → Nat
  | [] => 0
  | a :: l => open Classical in if ∀ b ∈ l, a ≤ b then 0 else argmin l + 1

/-- `np.argmax`: the first position with the largest value. -/
noncomputable def argmax : List ℝ → Nat
  | [] => 0
  | a :: l => open Classical in if ∀ b ∈ l, b ≤ a then 0 else argmax l + 1

/-- `_amplitude_guess` (`fitpeak.py:91-94`); `none` when the window is empty and `np.max` raises. -/
noncomputable def amplitudeGuess (x : List ℝ) (x0 : ℝ) (y : List ℝ) (fwhm : ℝ) : Option ℝ :=
  let ptL := argmin (x.map fun t => |t - (x0 - 1 / 2 * fwhm)|)
  let ptH := argmin (x.map fun t => |t - (x0 + 1 / 2 * fwhm)|)
  ((y.take (ptH + 1)).drop ptL).max?

/-- The data without the linear background (`fitpeak.py:137`, `fitpeak.py:427`; `lin_fit_obj` at 72-73). -/
def subtractLine (x f : List ℝ) (bg0 bg1 : ℝ) : List ℝ := List.zipWith (fun f x => f - (bg1 * x + bg0)) f x

/-- Samples nearest to half of the height `a`, in a part of the data. -/
noncomputable def nearHalf (l : List ℝ) (a : ℝ) : Nat := argmin (l.map fun v => |v - 1 / 2 * a|)

/-- The positions on the left and on the right of the peak (`fitpeak.py:143-151`); the right one counts from the peak. -/
noncomputable def halfPoints (pint : List ℝ) : Nat × Nat :=
  let npts := pint.length
  let cen := argmax pint
  let a := pint.getD cen 0
  if 0 < cen ∧ cen < npts - 1 then (nearHalf (pint.take cen) a, nearHalf (pint.drop cen) a)
  else if cen = 0 then (nearHalf (pint.drop cen) a, nearHalf (pint.drop cen) a)
  else (nearHalf (pint.take cen) a, nearHalf (pint.take cen) a)

/-- The width of the guess (`fitpeak.py:154-160`): an `IndexError` counts as zero; a width that is not positive or is
larger than three quarters of the number of points is replaced by a quarter of the range. -/
noncomputable def fwhmGuess (x pint : List ℝ) : Option ℝ := do
  let cen := argmax pint
  let (l, r) := halfPoints pint
  let first ← x.head?
  let last ← x.getLast?
  let w := match x[cen + r]?, x[l]? with
    | some b, some a => b - a
    | _, _ => 0
  pure (if w ≤ 0 ∨ 3 / 4 * (x.length : ℝ) < w then 1 / 4 * (last - first) else w)

/-- The guess as a parameter vector (`fitpeak.py:163-168`). -/
noncomputable def guessVector (t : PkType) (a x0 w bg0 bg1 : ℝ) : List ℝ :=
  match t with
  | .gaussian | .lorentzian => [a, x0, w, bg0, bg1]
  | .pvoigt => [a, x0, w, 1 / 2, bg0, bg1]
  | .splitPvoigt => [a, x0, w, w, 1 / 2, 1 / 2, bg0, bg1]

/-- `estimate_pk_parms_1d` (`fitpeak.py:102-181`) with the linear background given; `none` for empty data. -/
noncomputable def estimate1d (x f : List ℝ) (t : PkType) (bg0 bg1 : ℝ) : Option (List ℝ) := do
  let pint := subtractLine x f bg0 bg1
  let cen := argmax pint
  let a ← pint[cen]?
  let x0 ← x[cen]?
  let w ← fwhmGuess x pint
  pure (guessVector t a x0 w bg0 bg1)

/-- The bounds `lb`, `ub` of `fit_pk_parms_1d` (`fitpeak.py:232-233` for the pseudo-Voigt, `fitpeak.py:241-242` for the
split one, whose bound of the background intercept uses entry 4 of the guess); `none` in the code means unbounded.  The
other two types are fitted without bounds. -/
noncomputable def bounds1d (t : PkType) (p0 : List ℝ) (xmin xmax : ℝ) : List (Option (ℝ × ℝ)) :=
  let p := fun i => p0.getD i 0
  match t with
  | .gaussian | .lorentzian => []
  | .pvoigt => [some (p 0 * (1 / 2), p 0 * 2), some (xmin, xmax), some (0, 4 * p 2), some (0, 1), some (0, 2 * p 4), none]
  | .splitPvoigt => [some (p 0 * (1 / 2), p 0 * 2), some (xmin, xmax), some (0, 4 * p 2), some (0, 4 * p 2), some (0, 1),
      some (0, 1), some (0, 2 * p 4), none]

/-- The single-peak functions with their linear background (`fitpeak.py:694-701`, `fitpeak.py:718-725`). -/
noncomputable def peak1d (t : PkType) (p : List ℝ) (x : ℝ) : ℝ :=
  let q := fun i => p.getD i 0
  match t with
  | .gaussian => gaussian1d q x
  | .lorentzian => lorentzian1d q x
  | .pvoigt => pvoigt1d q x
  | .splitPvoigt => splitPvoigt1d q x

/-- `fit_pk_obj_1d` for the four types (`fitpeak.py:667-714`). -/
noncomputable def residual (t : PkType) (p x f0 : List ℝ) : List ℝ := List.zipWith (fun x f => peak1d t p x - f) x f0

/-- One of the entries appended for the bounds (`fitpeak.py:741-745`). -/
noncomputable def penalty (weight : ℝ) (p : ℝ) : Option (ℝ × ℝ) → ℝ
  | none => 0
  | some (lb, ub) => weight * max (max (-(p - lb)) 0) (p - ub)

/-- `fit_pk_obj_1d_bnded` (`fitpeak.py:717-747`). -/
noncomputable def residualBounded (t : PkType) (p x f0 : List ℝ) (weight : ℝ) (b : List (Option (ℝ × ℝ))) : List ℝ :=
  residual t p x f0 ++ List.zipWith (penalty weight) p b

/-! ### Several peaks -/

/-- The options of `estimate_mpk_parms_1d` that make bounds (`fitpeak.py:350-351`). -/
structure Limits where
  ampLo : ℝ
  ampHi : ℝ
  fwhmLo : ℝ
  fwhmHi : ℝ

/-- Guess, lower bound and upper bound of the parameters of one peak (`fitpeak.py:440-502`).  The upper bound of the
amplitude of a pseudo-Voigt is reduced by the smallest data value. -/
noncomputable def peakRows (t : PkType) (amp pos fwhm cb minVal : ℝ) (m : Limits) : List (ℝ × ℝ × ℝ) :=
  let c := (pos, pos - cb, pos + cb)
  let w := (fwhm, fwhm * m.fwhmLo, fwhm * m.fwhmHi)
  let n := (1 / 2, 0, 1)
  match t with
  | .gaussian | .lorentzian => [(amp, amp * m.ampLo, amp * m.ampHi), c, w]
  | .pvoigt => [(amp, amp * m.ampLo, (amp - minVal + 1) * m.ampHi), c, w, n]
  | .splitPvoigt => [(amp, amp * m.ampLo, amp * m.ampHi), c, w, w, n, n]

/-- The names of the backgrounds of `estimate_mpk_parms_1d` (`fitpeak.py:603-652`). -/
inductive Bg
  | constant | linear | quadratic | cubic
  deriving DecidableEq

/-- The background type that `mpeak_1d` makes of the name. -/
def Bg.toBgType : Bg → BgType
  | .constant => .constant
  | .linear => .linear
  | .quadratic => .quadratic
  | .cubic => .other

/-- Guess of the background coefficients (`fitpeak.py:611`, 623-624, 636-637, 649-650); `avg` is the average of the SNIP
background. -/
def bgGuess (b : Bg) (avg bg0 bg1 : ℝ) : List ℝ :=
  match b with
  | .constant => [avg]
  | .linear => [bg0, bg1]
  | .quadratic => [bg0, bg1, 0]
  | .cubic => [bg0, bg1, 0, 0]

/-- The two vectors at the end of `estimate_mpk_parms_1d` (`fitpeak.py:602-654`): the guess and, per parameter, its bounds
(`none` for infinite ones).  A peak is its amplitude guess, position, width guess and bound of the centre. -/
noncomputable def assemble (t : PkType) (pks : List (ℝ × ℝ × ℝ × ℝ)) (minVal : ℝ) (m : Limits) (b : Bg)
    (avg bg0 bg1 : ℝ) : List ℝ × List (Option (ℝ × ℝ)) :=
  let rows := pks.map fun (a, pos, w, cb) => peakRows t a pos w cb minVal m
  let c := bgGuess b avg bg0 bg1
  ((rows.map fun r => r.map Prod.fst).flatten ++ c,
    (rows.map fun r => r.map fun e => some e.2).flatten ++ c.map fun _ => none)

/-- The default width guess (`fitpeak.py:396-397`). -/
noncomputable def defaultWidth (xmin xmax : ℝ) (n : Nat) : ℝ := (xmax - xmin) / (20 * n)

/-- `estimate_mpk_parms_1d` (`fitpeak.py:342-654`): a peak is its position, width guess and bound of the centre; `none`
when an amplitude window is empty. -/
noncomputable def estimateMulti (x f : List ℝ) (t : PkType) (pks : List (ℝ × ℝ × ℝ)) (m : Limits) (b : Bg)
    (avg bg0 bg1 : ℝ) : Option (List ℝ × List (Option (ℝ × ℝ))) := do
  let minVal ← f.min?
  let y := subtractLine x f bg0 bg1
  let amps ← pks.mapM fun (pos, w, _) => amplitudeGuess x pos y w
  pure (assemble t (List.zipWith (fun a (pos, w, cb) => (a, pos, w, cb)) amps pks) minVal m b avg bg0 bg1)

/-- `scipy.optimize.least_squares` raises unless the start is within its bounds and every lower bound is below its upper
one. -/
def Feasible (p : List ℝ) (b : List (Option (ℝ × ℝ))) : Prop :=
  p.length = b.length ∧ ∀ e ∈ p.zip b, ∀ lo hi, e.2 = some (lo, hi) → lo < hi ∧ lo ≤ e.1 ∧ e.1 ≤ hi

/-! ### Two dimensions -/

/-- The plane through the corners in `estimate_pk_parms_2d` (`fitpeak.py:787-793`): `x0`, `x1` are the positions of the
first and last column, `y0`, `y1` those of the first and last row; `f` gives the corner values. -/
noncomputable def cornerPlane (f : ℝ → ℝ → ℝ) (x0 x1 y0 y1 : ℝ) : ℝ × ℝ × ℝ :=
  let f00 := f x0 y0
  let f10 := f x0 y1
  let f11 := f x1 y1
  let f01 := f x1 y0
  ((f00 + f10 + f11 + f01) / 4, ((f11 + f01) / 2 - (f00 + f10) / 2) / (x1 - x0),
    ((f11 + f10) / 2 - (f00 + f01) / 2) / (y1 - y0))

/-- `fnobg` (`fitpeak.py:795`). -/
noncomputable def withoutPlane (f : ℝ → ℝ → ℝ) (x0 x1 y0 y1 x y : ℝ) : ℝ :=
  let (b0, bx, bY) := cornerPlane f x0 x1 y0 y1
  f x y - (b0 + bx * x + bY * y)

/-! ### Goodness of fit -/

/-- `goodness_of_fit` (`fitpeak.py:902-926`). -/
noncomputable def goodness (f f0 : List ℝ) : ℝ × ℝ :=
  ((List.zipWith (fun a b => (a - b) ^ 2) f f0).sum / (f0.map fun b => b ^ 2).sum,
    (List.zipWith (fun a b => |b * (a - b) ^ 2|) f f0).sum / (f0.map fun b => |b ^ 3|).sum)

end Hexrd.PeakFit
