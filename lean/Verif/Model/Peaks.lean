import Mathlib.Analysis.SpecialFunctions.Log.Basic
import Mathlib.Analysis.SpecialFunctions.Exp
import Mathlib.Analysis.SpecialFunctions.Trigonometric.Basic
import Mathlib.Analysis.SpecialFunctions.Pow.Real
import Mathlib.Analysis.Real.Sqrt

/-!
Model of the analytic peak functions, `hexrd/core/fitting/peakfunctions.py`.

Simplifications: real arithmetic; the functions act on one position in place of an array of them (every function treats
the positions alone, except for the pink beam functions, which normalise by a maximum or an integral over the array).
A parameter vector is a function from indices; the lists of the multi-peak functions are lists.
-/

namespace Hexrd.Peaks

/-- `gauss_width_fact` (`peakfunctions.py:36`, `constants.py:62`). -/
noncomputable def gaussWidth : ℝ := 2 * √(2 * Real.log 2)

/-- `lorentz_width_fact` (`peakfunctions.py:37`). -/
noncomputable def lorentzWidth : ℝ := 2

/-! ### One dimension -/

/-- `_unit_gaussian` (`peakfunctions.py:60-75`). -/
noncomputable def unitGaussian (x0 fwhm x : ℝ) : ℝ :=
  let sigma := fwhm / gaussWidth
  Real.exp (-((x - x0) ^ 2) / (2 * sigma ^ 2))

/-- `_gaussian1d_no_bg` (`peakfunctions.py:78-90`). -/
noncomputable def gaussianNoBg (p : Nat → ℝ) (x : ℝ) : ℝ := p 0 * unitGaussian (p 1) (p 2) x

/-- `gaussian1d` (`peakfunctions.py:93-108`). -/
noncomputable def gaussian1d (p : Nat → ℝ) (x : ℝ) : ℝ := gaussianNoBg p x + p 3 + p 4 * x

/-- Row `i` of `_gaussian1d_no_bg_deriv` (`peakfunctions.py:111-138`). -/
noncomputable def gaussianNoBgDeriv (p : Nat → ℝ) (x : ℝ) (i : Nat) : ℝ :=
  let x0 := p 1
  let sigma := p 2 / gaussWidth
  match i with
  | 0 => unitGaussian (p 1) (p 2) x
  | 1 => gaussianNoBg p x * ((x - x0) / sigma ^ 2)
  | 2 => gaussianNoBg p x * ((x - x0) ^ 2 / sigma ^ 3) / gaussWidth
  | _ => 0

/-- Row `i` of `gaussian1d_deriv` (`peakfunctions.py:141-157`). -/
noncomputable def gaussian1dDeriv (p : Nat → ℝ) (x : ℝ) (i : Nat) : ℝ :=
  if i < 3 then gaussianNoBgDeriv p x i else if i = 3 then 1 else if i = 4 then x else 0

/-- `_unit_lorentzian` (`peakfunctions.py:163-178`). -/
noncomputable def unitLorentzian (x0 fwhm x : ℝ) : ℝ :=
  let gamma := fwhm / lorentzWidth
  gamma ^ 2 / ((x - x0) ^ 2 + gamma ^ 2)

/-- `_lorentzian1d_no_bg` (`peakfunctions.py:181-194`). -/
noncomputable def lorentzianNoBg (p : Nat → ℝ) (x : ℝ) : ℝ := p 0 * unitLorentzian (p 1) (p 2) x

/-- `lorentzian1d` (`peakfunctions.py:197-212`). -/
noncomputable def lorentzian1d (p : Nat → ℝ) (x : ℝ) : ℝ := lorentzianNoBg p x + p 3 + p 4 * x

/-- Row `i` of `_lorentzian1d_no_bg_deriv` (`peakfunctions.py:215-243`). -/
noncomputable def lorentzianNoBgDeriv (p : Nat → ℝ) (x : ℝ) (i : Nat) : ℝ :=
  let x0 := p 1
  let gamma := p 2 / lorentzWidth
  match i with
  | 0 => unitLorentzian (p 1) (p 2) x
  | 1 => lorentzianNoBg p x * (2 * (x - x0) / ((x - x0) ^ 2 + gamma ^ 2))
  | 2 => lorentzianNoBg p x * (2 * (x - x0) ^ 2 / (gamma * ((x - x0) ^ 2 + gamma ^ 2))) / lorentzWidth
  | _ => 0

/-- Row `i` of `lorentzian1d_deriv` (`peakfunctions.py:246-262`). -/
noncomputable def lorentzian1dDeriv (p : Nat → ℝ) (x : ℝ) (i : Nat) : ℝ :=
  if i < 3 then lorentzianNoBgDeriv p x i else if i = 3 then 1 else if i = 4 then x else 0

/-- `_unit_pvoigt1d` (`peakfunctions.py:270-283`): the mixing parameter is the weight of the Gaussian. -/
noncomputable def unitPvoigt (x0 fwhm n x : ℝ) : ℝ := n * unitGaussian x0 fwhm x + (1 - n) * unitLorentzian x0 fwhm x

/-- `_pvoigt1d_no_bg` (`peakfunctions.py:286-298`). -/
noncomputable def pvoigtNoBg (p : Nat → ℝ) (x : ℝ) : ℝ := p 0 * unitPvoigt (p 1) (p 2) (p 3) x

/-- `pvoigt1d` (`peakfunctions.py:301-316`). -/
noncomputable def pvoigt1d (p : Nat → ℝ) (x : ℝ) : ℝ := pvoigtNoBg p x + p 4 + p 5 * x

/-- `_split_pvoigt1d_no_bg` (`peakfunctions.py:324-352`). -/
noncomputable def splitPvoigtNoBg (p : Nat → ℝ) (x : ℝ) : ℝ :=
  if x ≥ p 1 then p 0 * unitPvoigt (p 1) (p 3) (p 5) x else p 0 * unitPvoigt (p 1) (p 2) (p 4) x

/-- `split_pvoigt1d` (`peakfunctions.py:355-371`). -/
noncomputable def splitPvoigt1d (p : Nat → ℝ) (x : ℝ) : ℝ := splitPvoigtNoBg p x + p 6 + p 7 * x

/-- `_mixing_factor_pv` (`peakfunctions.py:416-448`, and the same in `fitting/utils.py:139-171`): the fraction of the
Lorentzian and the width. -/
noncomputable def mixingFactor (g l : ℝ) : ℝ × ℝ :=
  let fwhm := (g ^ 5 + 2.69269 * g ^ 4 * l + 2.42843 * g ^ 3 * l ^ 2 + 4.47163 * g ^ 2 * l ^ 3 + 0.07842 * g * l ^ 4 +
    l ^ 5) ^ (0.20 : ℝ)
  let eta := 1.36603 * (l / fwhm) - 0.47719 * (l / fwhm) ^ 2 + 0.11116 * (l / fwhm) ^ 3
  (if eta < 0 then 0 else if eta > 1 then 1 else eta, fwhm)

/-- `_gaussian_pink_beam` before the normalisation, at one position within five degrees (`peakfunctions.py:451-493`);
the complementary error function is a parameter. -/
noncomputable def gaussianPink (erfc : ℝ → ℝ) (x0 alpha beta fwhm x : ℝ) : ℝ :=
  let d := x - x0
  let sigsqr := fwhm ^ 2
  let f1 := alpha * sigsqr + 2 * d
  let f2 := beta * sigsqr - 2 * d
  let f3 := √2 * fwhm
  let u := 1 / 2 * alpha * f1
  let v := 1 / 2 * beta * f2
  let y := (f1 - d) / f3
  let z := (f2 + d) / f3
  1 / 2 * (alpha * beta) / (alpha + beta) * Real.exp u * erfc y + Real.exp v * erfc z

/-! ### Two and three dimensions -/

/-- `_2d_coord_transform` (`peakfunctions.py:932-939`): the rotated centre and position. -/
noncomputable def coordTransform (theta x0 y0 x y : ℝ) : ℝ × ℝ × ℝ × ℝ :=
  (Real.cos theta * x0 + Real.sin theta * y0, -Real.sin theta * x0 + Real.cos theta * y0,
    Real.cos theta * x + Real.sin theta * y, -Real.sin theta * x + Real.cos theta * y)

/-- `_gaussian2d_no_bg` (`peakfunctions.py:947-960`). -/
noncomputable def gaussian2dNoBg (p : Nat → ℝ) (x y : ℝ) : ℝ :=
  p 0 * unitGaussian (p 1) (p 3) x * unitGaussian (p 2) (p 4) y

/-- `_gaussian2d_rot_no_bg` (`peakfunctions.py:963-986`). -/
noncomputable def gaussian2dRotNoBg (p : Nat → ℝ) (x y : ℝ) : ℝ :=
  let t := coordTransform (p 5) (p 1) (p 2) x y
  gaussian2dNoBg (Function.update (Function.update p 1 t.1) 2 t.2.1) t.2.2.1 t.2.2.2

/-- `gaussian2d_rot` (`peakfunctions.py:989-1005`). -/
noncomputable def gaussian2dRot (p : Nat → ℝ) (x y : ℝ) : ℝ := gaussian2dRotNoBg p x y + (p 6 + p 7 * x + p 8 * y)

/-- `gaussian2d` (`peakfunctions.py:1008-1024`). -/
noncomputable def gaussian2d (p : Nat → ℝ) (x y : ℝ) : ℝ := gaussian2dNoBg p x y + (p 5 + p 6 * x + p 7 * y)

/-- `_split_pvoigt2d_no_bg` (`peakfunctions.py:1032-1079`). -/
noncomputable def splitPvoigt2dNoBg (p : Nat → ℝ) (x y : ℝ) : ℝ :=
  if x ≥ p 1 ∧ y ≥ p 2 then p 0 * unitPvoigt (p 1) (p 4) (p 8) x * unitPvoigt (p 2) (p 6) (p 10) y
  else if x ≥ p 1 ∧ y < p 2 then p 0 * unitPvoigt (p 1) (p 4) (p 8) x * unitPvoigt (p 2) (p 5) (p 9) y
  else if x < p 1 ∧ y ≥ p 2 then p 0 * unitPvoigt (p 1) (p 3) (p 7) x * unitPvoigt (p 2) (p 6) (p 10) y
  else if x < p 1 ∧ y < p 2 then p 0 * unitPvoigt (p 1) (p 3) (p 7) x * unitPvoigt (p 2) (p 5) (p 9) y
  else 0

/-- `_split_pvoigt2d_rot_no_bg` (`peakfunctions.py:1082-1105`). -/
noncomputable def splitPvoigt2dRotNoBg (p : Nat → ℝ) (x y : ℝ) : ℝ :=
  let t := coordTransform (p 11) (p 1) (p 2) x y
  splitPvoigt2dNoBg (Function.update (Function.update p 1 t.1) 2 t.2.1) t.2.2.1 t.2.2.2

/-- `split_pvoigt2d_rot` (`peakfunctions.py:1108-1126`). -/
noncomputable def splitPvoigt2dRot (p : Nat → ℝ) (x y : ℝ) : ℝ :=
  splitPvoigt2dRotNoBg p x y + (p 12 + p 13 * x + p 14 * y)

/-- `_gaussian3d_no_bg` (`peakfunctions.py:1134-1153`). -/
noncomputable def gaussian3dNoBg (p : Nat → ℝ) (x y z : ℝ) : ℝ :=
  p 0 * unitGaussian (p 1) (p 4) x * unitGaussian (p 2) (p 5) y * unitGaussian (p 3) (p 6) z

/-- `gaussian3d` (`peakfunctions.py:1156-1174`). -/
noncomputable def gaussian3d (p : Nat → ℝ) (x y z : ℝ) : ℝ :=
  gaussian3dNoBg p x y z + (p 7 + p 8 * x + p 9 * y + p 10 * z)

/-! ### Several peaks -/

/-- The peak types of the multi-peak functions that are modelled (`peakfunctions.py:44-52`); the pink beam types
normalise over the array of positions and are left out. -/
inductive PkType
  | gaussian | lorentzian | pvoigt | splitPvoigt
  deriving DecidableEq

/-- `mpeak_nparams_dict` (`peakfunctions.py:44-52`). -/
def PkType.nparams : PkType → Nat
  | .gaussian => 3
  | .lorentzian => 3
  | .pvoigt => 4
  | .splitPvoigt => 6

/-- One peak of the given type (`peakfunctions.py:1205-1220`). -/
noncomputable def PkType.noBg : PkType → (Nat → ℝ) → ℝ → ℝ
  | .gaussian => gaussianNoBg
  | .lorentzian => lorentzianNoBg
  | .pvoigt => pvoigtNoBg
  | .splitPvoigt => splitPvoigtNoBg

/-- `_mpeak_1d_no_bg` (`peakfunctions.py:1182-1222`): peak `k` has the parameters from `k` times the number of
parameters on; `none` when `np.reshape` raises because the list is too short. -/
noncomputable def mpeakNoBg (p : List ℝ) (x : ℝ) (t : PkType) (n : Nat) : Option ℝ :=
  if (p.take (t.nparams * n)).length = n * t.nparams then
    some ((List.range n).foldl (fun f k => f + t.noBg (fun i => p.getD (k * t.nparams + i) 0) x) 0)
  else none

/-- The background types of `mpeak_1d` (`peakfunctions.py:1244-1251`); every other name, like `cubic`, adds nothing. -/
inductive BgType
  | constant | linear | quadratic | other
  deriving DecidableEq

/-- `p[-k]` of a list. -/
def fromEnd (p : List ℝ) (k : Nat) : Option ℝ := if k = 0 ∨ p.length < k then none else p[p.length - k]?

/-- `mpeak_1d` (`peakfunctions.py:1225-1253`). -/
noncomputable def mpeak1d (p : List ℝ) (x : ℝ) (t : PkType) (n : Nat) (bg : BgType) : Option ℝ := do
  let f ← mpeakNoBg p x t n
  match bg with
  | .linear =>
    let c0 ← fromEnd p 2
    let c1 ← fromEnd p 1
    pure (f + c0 + c1 * x)
  | .constant =>
    let c0 ← fromEnd p 1
    pure (f + c0)
  | .quadratic =>
    let c0 ← fromEnd p 3
    let c1 ← fromEnd p 2
    let c2 ← fromEnd p 1
    pure (f + c0 + c1 * x + c2 * x ^ 2)
  | .other => pure f

end Hexrd.Peaks
