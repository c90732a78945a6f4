import Verif.Model.PeakFit
import Mathlib.Data.List.Sort

/-!
Model of the spectrum fits of a calibration: `hexrd/core/fitting/spectrum.py` and the constraint helpers of
`hexrd/core/fitting/utils.py`.

Simplifications: real arithmetic; the peak types of `Hexrd.Peaks.PkType` for values, all peak types for constraints.
The names of the parameters (`pk0_cen`, ..., `pksep0`, ...) are structured values, and a name pattern like `*alpha*` is the
list of the keys that contain it.  Of `lmfit` only the documented meaning of a parameter set is used: a parameter with an
expression has the value of the expression, a parameter that does not vary keeps its value, and one that varies stays
within its bounds (bounds of parameters with an expression are not applied).
-/

namespace Hexrd.Spectrum
open Hexrd.Peaks Hexrd.PeakFit

/-! ### Functions -/

/-- `gaussian_1d` (`spectrum.py:153-154`; `fwhm_to_sigma` is the inverse of the width factor, `constants.py:62-63`). -/
noncomputable def gaussian1d (x amp cen fwhm : ℝ) : ℝ :=
  amp * Real.exp (-((x - cen) ^ 2) / (2 * (1 / gaussWidth * fwhm) ^ 2))

/-- `lorentzian_1d` (`spectrum.py:157-158`). -/
noncomputable def lorentzian1d (x amp cen fwhm : ℝ) : ℝ := amp * (1 / 2 * fwhm) ^ 2 / ((x - cen) ^ 2 + (1 / 2 * fwhm) ^ 2)

/-- `pvoigt_1d` (`spectrum.py:161-164`). -/
noncomputable def pvoigt1d (x amp cen fwhm mixing : ℝ) : ℝ :=
  mixing * gaussian1d x amp cen fwhm + (1 - mixing) * lorentzian1d x amp cen fwhm

/-- `split_pvoigt_1d` (`spectrum.py:167-175`): the values of the positions up to the centre, followed by the values of the
positions after it. -/
noncomputable def splitPvoigt1d (x : List ℝ) (amp cen fl fh ml mh : ℝ) : List ℝ :=
  ((x.filter fun t => t ≤ cen).map fun t => pvoigt1d t amp cen fl ml) ++
    (x.filter fun t => cen < t).map fun t => pvoigt1d t amp cen fh mh

/-- Chebyshev polynomials of the first kind, as `numpy.polynomial.chebyshev` uses them. -/
def cheb (u : ℝ) : Nat → ℝ
  | 0 => 1
  | 1 => u
  | k + 2 => 2 * u * cheb u (k + 1) - cheb u k

/-- A Chebyshev series on the window from `a` to `b` (`spectrum.py:118-150`): `linear_bkg` to `quintic_bkg` and
`chebyshev_bkg`.  `constant_bkg` (113-115) is the case of one coefficient. -/
noncomputable def chebBkg (c : List ℝ) (a b x : ℝ) : ℝ :=
  ((List.range c.length).map fun k => c.getD k 0 * cheb ((2 * x - (a + b)) / (b - a)) k).sum

/-- One peak of the composite model at one position (`spectrum.py:389-402`); the parameters are in the order of
`_function_dict_1d` (41-45). -/
noncomputable def peakAt (t : PkType) (q : List ℝ) (x : ℝ) : ℝ :=
  let p := fun i => q.getD i 0
  match t with
  | .gaussian => gaussian1d x (p 0) (p 1) (p 2)
  | .lorentzian => lorentzian1d x (p 0) (p 1) (p 2)
  | .pvoigt => pvoigt1d x (p 0) (p 1) (p 2) (p 3)
  | .splitPvoigt => if x ≤ p 1 then pvoigt1d x (p 0) (p 1) (p 2) (p 4) else pvoigt1d x (p 0) (p 1) (p 3) (p 5)

/-- The composite model (`_build_composite_model`, `spectrum.py:388-420`) with the parameters split as in
`SpectrumModel.__init__` (529-531): the last `nbg` entries are the background, the others are cut into peaks. -/
noncomputable def composite (t : PkType) (nbg n : Nat) (p0 : List ℝ) (a b x : ℝ) : Option ℝ :=
  let pk := p0.take (p0.length - nbg)
  if pk.length = n * t.nparams then
    some ((List.range n).foldl (fun s i => s + peakAt t ((pk.drop (i * t.nparams)).take t.nparams) x) 0 +
      chebBkg (p0.drop (p0.length - nbg)) a b x)
  else none

/-- Guess of one peak (`spectrum.py:302-335`): the amplitude is at least `min_ampl`. -/
noncomputable def guessRow (t : PkType) (amp minAmpl pos w : ℝ) : List ℝ :=
  match t with
  | .gaussian | .lorentzian => [max amp minAmpl, pos, w]
  | .pvoigt => [max amp minAmpl, pos, w, 1 / 2]
  | .splitPvoigt => [max amp minAmpl, pos, w, w, 1 / 2, 1 / 2]

/-- `_initial_guess` (`spectrum.py:236-380`) with the Chebyshev coefficients `c0`, `c1` of the line through the SNIP
background and its average given; `nbg` is the number of background parameters. -/
noncomputable def initialGuess (x f : List ℝ) (t : PkType) (nbg : Nat) (pks : List (ℝ × ℝ)) (minAmpl a b avg c0 c1 : ℝ) :
    Option (List ℝ) := do
  let y := List.zipWith (fun f x => f - chebBkg [c0, c1] a b x) f x
  let rows ← pks.mapM fun (pos, w) => do
    let amp ← amplitudeGuess x pos y w
    pure (guessRow t amp minAmpl pos w)
  pure (rows.flatten ++ if nbg = 1 then [avg] else [c0, c1] ++ List.replicate (nbg - 2) 0)

/-! ### Parameters and constraints -/

/-- The keys of `_function_dict_1d` (`spectrum.py:41-78`). -/
inductive Key
  | amp | cen | fwhm | mixing | fwhmL | fwhmH | mixingL | mixingH | alpha0 | alpha1 | beta0 | beta1 | fwhmG
  | sigma0 | sigma1 | tau0 | tau1 | tau2
  deriving DecidableEq

/-- A parameter name: `pk<i>_<key>` or `pksep<i>`. -/
inductive Name
  | pk (i : Nat) (k : Key)
  | sep (i : Nat)
  deriving DecidableEq

/-- Expressions of the constraints: another parameter, or the sum of two. -/
inductive Expr
  | same (n : Name)
  | add (a b : Name)
  deriving DecidableEq

/-- A parameter of `lmfit`; an infinite bound is `none`. -/
structure Param where
  value : ℝ
  min : Option ℝ := none
  max : Option ℝ := none
  vary : Bool := true
  expr : Option Expr := none

/-- An ordered set of parameters. -/
structure Params where
  names : List Name
  get : Name → Param

/-- Change one parameter. -/
def Params.set (ps : Params) (n : Name) (f : Param → Param) : Params := ⟨ps.names, Function.update ps.get n (f (ps.get n))⟩

/-- `Parameters.add`: a new name goes to the end, an existing one is replaced. -/
def Params.add (ps : Params) (n : Name) (p : Param) : Params :=
  ⟨if n ∈ ps.names then ps.names else ps.names ++ [n], Function.update ps.get n p⟩

/-- Setting an expression also stops the variation (`lmfit.Parameter.expr`). -/
def Param.setExpr (e : Expr) (p : Param) : Param := { p with expr := some e, vary := false }

/-- `_extract_parameters_by_name` (`utils.py:18-20`). -/
def extract (ps : Params) (pat : Key → Bool) : List Name :=
  ps.names.filter fun n => match n with
    | .pk _ k => pat k
    | .sep _ => false

/-- `_set_refinement_by_name` (`utils.py:23-29`); `none` for the `RuntimeWarning`. -/
def setVary (ps : Params) (pat : Key → Bool) (vary : Bool) : Option Params :=
  match extract ps pat with
  | [] => none
  | l => some (l.foldl (fun ps n => ps.set n fun p => { p with vary := vary }) ps)

/-- `_set_equality_constraints` with a pattern (`utils.py:32-39`): all but the first get the first as expression. -/
def setEqualAll (ps : Params) (pat : Key → Bool) : Option Params :=
  match extract ps pat with
  | [] => none
  | first :: rest => some (rest.foldl (fun ps n => ps.set n (Param.setExpr (.same first))) ps)

/-- `_set_equality_constraints` with pairs (`utils.py:40-43`). -/
def setEqualPairs (ps : Params) (l : List (Name × Name)) : Params :=
  l.foldl (fun ps e => ps.set e.1 (Param.setExpr (.same e.2))) ps

/-- `_set_bound_constraints` without a box (`utils.py:46-58`). -/
def setBounds (ps : Params) (pat : Key → Bool) (lo hi : Option ℝ) : Params :=
  (extract ps pat).foldl (fun ps n => ps.set n fun p => { p with min := lo, max := hi }) ps

/-- `_set_bound_constraints` with a box (`utils.py:59-64`). -/
noncomputable def setBox (ps : Params) (pat : Key → Bool) (box : ℝ) (percentage : Bool) : Params :=
  (extract ps pat).foldl (fun ps n => ps.set n fun p =>
    let hval := if percentage then 1 / 2 * |p.value * (box / 100)| else 1 / 2 * box
    { p with min := some (p.value - hval), max := some (p.value + hval) }) ps

/-- Names that contain `fwhm` (`utils.py:69`). -/
def isFwhm : Key → Bool
  | .fwhm | .fwhmL | .fwhmH | .fwhmG => true
  | _ => false
/-- Names that contain `mixing` (`utils.py:72`). -/
def isMixing : Key → Bool
  | .mixing | .mixingL | .mixingH => true
  | _ => false
/-- Names that contain `cen` (`utils.py:78`). -/
def isCen : Key → Bool
  | .cen => true
  | _ => false

/-- `_set_width_mixing_bounds` (`utils.py:67-74`). -/
def setWidthMixing (ps : Params) (minW maxW : ℝ) : Params :=
  setBounds (setBounds ps isFwhm (some minW) (some maxW)) isMixing (some 0) (some 1)

/-- What `_set_peak_center_bounds` ends with. -/
inductive Outcome
  | ok (ps : Params)
  | runtimeError
  | typeError

/-- Number of groups that `uniqueVectors` makes of one sorted row (`matrixutil.py:443-445`). -/
noncomputable def groups (tol : ℝ) : List ℝ → Nat
  | [] => 0
  | [_] => 1
  | a :: b :: l => (if tol < |b - a| then 1 else 0) + groups tol (b :: l)

/-- The loop over the peaks after the first (`utils.py:108-119`). -/
noncomputable def sepLoop (width minSep : ℝ) : Params → Nat → Name → List Name → Params
  | ps, _, _, [] => ps
  | ps, ip, prev, n :: rest =>
    let ps1 := ps.add (.sep ip)
      { value := (ps.get n).value - (ps.get prev).value, min := some minSep, max := some width }
    sepLoop width minSep (ps1.set n (Param.setExpr (.add prev (.sep ip)))) (ip + 1) n rest

/-- The centre names in increasing order of their values (`utils.py:99-102`). -/
noncomputable def sortedCentres (ps : Params) : List Name :=
  (extract ps isCen).insertionSort fun a b => (ps.get a).value ≤ (ps.get b).value

/-- `_set_peak_center_bounds` (`utils.py:77-119`).  With a single group the squeezed array has no length and `len` raises
a `TypeError`. -/
noncomputable def setCentres (ps : Params) (lo hi minSep : ℝ) : Outcome :=
  let names := extract ps isCen
  if names.length ≤ 1 then .ok ps
  else
    let ps1 := setBounds ps isCen (some (lo + minSep)) (some (hi - minSep))
    let sorted := sortedCentres ps
    let g := groups minSep (sorted.map fun n => (ps.get n).value)
    if g = 1 then .typeError
    else if g < names.length then .runtimeError
    else match sorted with
      | [] => .ok ps1
      | first :: rest => .ok (sepLoop (hi - lo) minSep ps1 0 first rest)

/-- The second stage of the fit of the `pink_beam_dcs` profile up to the bounds of the centres (`spectrum.py:665-686`). -/
def dcsStage2 (ps : Params) (minW maxW : ℝ) : Option Params := do
  let ps ← setVary ps (fun k => k = .alpha0) true
  let ps ← setVary ps (fun k => k = .alpha1) false
  let ps ← setVary ps (fun k => k = .beta0 || k = .beta1) true
  let ps ← setEqualAll ps fun k => k = .alpha0 || k = .alpha1
  let ps ← setEqualAll ps fun k => k = .beta0 || k = .beta1
  let ps := setBounds ps (fun k => k = .alpha0 || k = .alpha1) (some (-10)) (some 30)
  let ps := setBounds ps (fun k => k = .beta0 || k = .beta1) (some (-10)) (some 30)
  let ps := setWidthMixing ps minW maxW
  pure (setEqualPairs ps ((extract ps fun k => k = .fwhmG).zip (extract ps fun k => k = .fwhmL)))

/-- The names of `n` peaks with the given keys (`spectrum.py:534-539`). -/
def peakNames (keys : List Key) (n : Nat) : List Name := (List.range n).flatMap fun i => keys.map (Name.pk i)

/-- The keys of `pink_beam_dcs` (`spectrum.py:46-55`). -/
def dcsKeys : List Key := [.amp, .cen, .alpha0, .alpha1, .beta0, .beta1, .fwhmG, .fwhmL]

/-! ### Acceptance of a fitted ring -/

/-- Comparison of floating-point numbers that may be NaN (`none`). -/
def ltNaN : Option ℝ → Option ℝ → Prop
  | some a, some b => a < b
  | _, _ => False

/-- The end of `fit_ring` (`utils.py:290-298`): the fitted amplitudes and centres, `none` for NaN. -/
noncomputable def acceptRing (amps meas : List (Option ℝ)) (pred : List ℝ) (cutoff tol : ℝ) : Option (List (Option ℝ)) :=
  open Classical in
  let err := List.zipWith (fun m p => m.map fun m => 100 * |m / p - 1|) meas pred
  if (∃ a ∈ amps, ltNaN a (some cutoff)) ∨ ∃ e ∈ err, ltNaN (some tol) e then none else some meas

end Hexrd.Spectrum
