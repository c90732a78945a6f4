import Mathlib.Analysis.SpecialFunctions.Pow.Real
import Mathlib.Logic.Function.Basic

/-!
# Model of the calibration by azimuthal line-outs (`hexrd/powder/wppf/LeBailCalibration.py`)

The polar image is a list of rows, a masked pixel is `none`. Reals stand for floating point numbers. The spectra that are simulated,
the polar view itself and the least-squares fit are not modelled.
-/
namespace Hexrd.LeBailCalib

/-- `azimuthal_chunks` (LeBailCalibration.py:441-449) for `shp` rows and `npix` rows in a step; `none` is the exception of `np.arange`. -/
def bounds (shp npix : ℕ) : Option (List ℕ) :=
  if npix = 0 then none else some ((List.range ((shp + npix - 1) / npix)).map (fun k => k * npix) ++ [shp])

/-- `masked[:, c].sum()` of some rows (LeBailCalibration.py:166, 178). -/
def colSum (rows : List (List (Option ℝ))) (c : ℕ) : ℝ := (rows.map fun r => ((r[c]?).join).getD 0).sum

/-- `np.sum(~mask)` of a column (LeBailCalibration.py:166, 178-180). -/
def colCount (rows : List (List (Option ℝ))) (c : ℕ) : ℕ := rows.countP fun r => ((r[c]?).join).isSome

/-- One value of a line-out (LeBailCalibration.py:166, 178-180): masked if all pixels are. -/
noncomputable def mean (rows : List (List (Option ℝ))) (c : ℕ) : Option ℝ :=
  if colCount rows c = 0 then none else some (colSum rows c / colCount rows c)

/-- The rows of the line-outs (LeBailCalibration.py:172-178 `prepare_lineouts`). -/
def cut {α : Type} (rows : List α) (bs : List ℕ) : List (List α) := (bs.zip bs.tail).map fun b => (rows.take b.2).drop b.1

/-- The line-outs (LeBailCalibration.py:170-183), each as a function of the column. -/
noncomputable def lineouts (rows : List (List (Option ℝ))) (npix : ℕ) : Option (List (ℕ → Option ℝ)) :=
  (bounds rows.length npix).map fun bs => (cut rows bs).map mean

/-- The names of parameters: of the position and the tilt of a detector, and the others. In the code they are strings
(LeBailCalibration.py:360, 365, 488-489). -/
inductive PName where
  | tvec (det : String) (i : Fin 3)
  | tilt (det : String) (i : Fin 3)
  | other (s : String)
  deriving DecidableEq

/-- `self.params[p].vary = val` (LeBailCalibration.py:491-492, 508, 524). -/
def setVary (vary : PName → Bool) (p : PName) (val : Bool) : PName → Bool := fun q => if q = p then val else vary q

/-- `refine_instrument.setter` (LeBailCalibration.py:483-495). -/
def refineInstrument (dets : List String) (val : Bool) (vary : PName → Bool) : PName → Bool :=
  dets.foldl (fun v d => (List.finRange 3).foldl (fun v i => setVary (setVary v (.tvec d i) val) (.tilt d i) val) v) vary

/-- `refine_translation.setter` (LeBailCalibration.py:501-511). -/
def refineTranslation (dets : List String) (val : Bool) (vary : PName → Bool) : PName → Bool :=
  dets.foldl (fun v d => (List.finRange 3).foldl (fun v i => setVary v (.tvec d i) val) v) vary

/-- `refine_tilt.setter` (LeBailCalibration.py:517-527). -/
def refineTilt (dets : List String) (val : Bool) (vary : PName → Bool) : PName → Bool :=
  dets.foldl (fun v d => (List.finRange 3).foldl (fun v i => setVary v (.tilt d i) val) v) vary

/-- The flags `_refine_translation` and `_refine_tilt` (LeBailCalibration.py:504, 520). -/
structure Flags where
  translation : Option Bool
  tilt : Option Bool

/-- The getter of `refine_translation` (LeBailCalibration.py:497-499); `none` is AttributeError. -/
def getTranslation (f : Flags) : Option Bool := f.tilt

/-- A detector: its name, position and tilt (LeBailCalibration.py:358-368). -/
structure Det where
  name : String
  tvec : Fin 3 → ℝ
  tilt : Fin 3 → ℝ

/-- One turn of the inner loop of `update_instrument` (LeBailCalibration.py:359-369): parameters are values and whether they vary. -/
def detStep (params : PName → Option (ℝ × Bool)) (name : String) (s : Det × Bool) (i : Fin 3) : Det × Bool :=
  let s := match params (.tvec name i) with
    | some (x, true) => ({ s.1 with tvec := Function.update s.1.tvec i x }, true)
    | _ => s
  match params (.tilt name i) with
    | some (x, true) => ({ s.1 with tilt := Function.update s.1.tilt i x }, true)
    | _ => s

/-- One detector in `update_instrument` (LeBailCalibration.py:358-369). -/
def updateDet (params : PName → Option (ℝ × Bool)) (d : Det) : Det × Bool :=
  (List.finRange 3).foldl (detStep params d.name) (d, false)

/-- `update_instrument` (LeBailCalibration.py:356-373): the detectors, and whether the polar view is made anew. -/
def updateInstrument (params : PName → Option (ℝ × Bool)) (ds : List Det) : List Det × Bool :=
  (ds.map fun d => (updateDet params d).1, ds.any fun d => (updateDet params d).2)

/-- `update_shkl` (LeBailCalibration.py:335-354): for each phase, given with its valid names, what is handed to `_fill_shkl`
(wppfsupport.py:547-551), as a function of the name. `value` is the parameter of a phase and name. -/
def updateShkl (value : String → String → ℝ) : List (String × List String) → (String → Option ℝ) → List (String → ℝ)
  | [], _ => []
  | (p, valid) :: ps, dict =>
    let dict := valid.foldl (fun d s => fun t => if t = s then some (value p s) else d t) dict
    (fun t => (dict t).getD 0) :: updateShkl value ps dict

/-- `np.trapezoid` (LeBailCalibration.py:215-216). -/
noncomputable def trapezoid : List ℝ → List ℝ → ℝ
  | y₀ :: y₁ :: ys, x₀ :: x₁ :: xs => (x₁ - x₀) * (y₀ + y₁) / 2 + trapezoid (y₁ :: ys) (x₁ :: xs)
  | _, _ => 0

/-- A point of a line-out (LeBailCalibration.py:207-208): angle, weight, measured and simulated intensity. -/
structure Pt where
  x : ℝ
  w : ℝ
  e : ℝ
  s : ℝ

/-- `evec` (LeBailCalibration.py:208-210); the replacement of NaN is left out. -/
noncomputable def evec (l : List Pt) : List ℝ := l.map fun p => √(p.w * (p.e - p.s) ^ 2)

/-- `errvec` (LeBailCalibration.py:192, 211): the vectors of all line-outs, one after the other. -/
noncomputable def errvec (ls : List (List Pt)) : List ℝ := ls.foldl (fun acc l => acc ++ evec l) []

/-- `r` (LeBailCalibration.py:213-217): in percent. -/
noncomputable def rwp (l : List Pt) : ℝ :=
  √(trapezoid (evec l) (l.map Pt.x) / trapezoid (l.map fun p => p.w * p.e ^ 2) (l.map Pt.x)) * 100

end Hexrd.LeBailCalib
