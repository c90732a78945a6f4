import Verif.Model.Params
import Verif.Model.Pattern
import Verif.Model.PowderPeak
import Verif.Model.StructFac
import Mathlib.Analysis.SpecialFunctions.Pow.Real

/-!
# Model of the amorphous and the thermal diffuse scattering (`hexrd/powder/wppf/amorphous.py`, `tds.py`)

Floating-point numbers are real numbers. The Gaussian filter is an argument. Dictionaries with the keys of the components are lists of
components with a key. Compton scattering, which is read from a table, is left out.
-/

namespace Hexrd.Diffuse

open Hexrd.Params (Name Par Pars fixed addAll)
open Hexrd.Pattern (Pts interp)
open Hexrd.PowderPeak (splitUnitGaussian splitUnitPv)

/-! ### Amorphous scattering -/

/-- One entry of each of the dictionaries of `Amorphous`, under one key. -/
structure Comp where
  key : Name
  scale : ℝ
  shift : ℝ
  center : ℝ
  fwhm : List ℝ
  data : List ℝ

/-- `np.nanmin` of data without NaN. -/
noncomputable def minOf : List ℝ → ℝ
  | [] => 0
  | [a] => a
  | a :: b :: l => min a (minOf (b :: l))

/-- `np.interp(x, xp, fp, left=m, right=m)`. -/
noncomputable def interpOut (m : ℝ) (pts : Pts) (x : ℝ) : ℝ :=
  match pts.head?, pts.getLast? with
  | some a, some b => if x < a.1 then m else if b.1 < x then m else interp pts x
  | _, _ => m

/-- The data of a component on the points of the pattern (amorphous.py:190-195). -/
noncomputable def regrid (tth : List ℝ) (v : Pts) : List ℝ := tth.map (interpOut (minOf (v.map Prod.snd)) v)

/-- One component of the measured model (amorphous.py:311-327) at one point. -/
noncomputable def expTerm (smooth : List ℝ → List ℝ) (tth : List ℝ) (c : Comp) (x : ℝ) : ℝ :=
  let sm := smooth c.data
  let mi := minOf sm
  c.scale * interpOut 0 ((tth.map fun t => t + c.shift).zip (sm.map fun v => v - mi)) x + mi

/-- The three types of models; names in other letter cases pass the test of the setter (amorphous.py:151-156) but none of the later
comparisons (`none`). -/
inductive Kind where
  | experimental | splitGaussian | splitPv

/-- The comparison of the type of the model, as in amorphous.py:308, 329, 346-349. -/
def kindOf (t : Name) : Option Kind :=
  if t = ['e', 'x', 'p', 'e', 'r', 'i', 'm', 'e', 'n', 't', 'a', 'l'] then some .experimental
  else if t = ['s', 'p', 'l', 'i', 't', '_', 'g', 'a', 'u', 's', 's', 'i', 'a', 'n'] then some .splitGaussian
  else if t = ['s', 'p', 'l', 'i', 't', '_', 'p', 'v'] then some .splitPv
  else none

/-- `mtype.lower()` for letters of the alphabet. -/
def lower (t : Name) : Name := t.map Char.toLower

/-- The setter of `model_type` (amorphous.py:151-156): `none` is the exception. -/
def setModelType (t : Name) : Option Name := (kindOf (lower t)).map fun _ => t

/-- `peak_model` (amorphous.py:345-349) on the centre and the widths of a component (amorphous.py:332-334); `none` if there are too few widths. -/
noncomputable def peakAt (k : Kind) (c : Comp) (x : ℝ) : Option ℝ :=
  match k, c.fwhm with
  | .splitGaussian, wl :: wr :: _ => some (splitUnitGaussian c.center wl wr x)
  | .splitPv, gl :: ll :: gr :: lr :: _ => some (splitUnitPv c.center gl ll gr lr x)
  | _, _ => none

/-- `amorphous_lineout` (amorphous.py:307-336): `none` is an exception. -/
noncomputable def lineout (smooth : List ℝ → List ℝ) (tth : List ℝ) (t : Name) (cs : List Comp) : Option (List ℝ) :=
  match kindOf t with
  | some .experimental => some (tth.map fun x => (cs.map fun c => expTerm smooth tth c x).sum)
  | some k => tth.mapM fun x => (cs.mapM fun c => (peakAt k c x).map (c.scale * ·)).map List.sum
  | none => none

/-- The setter of `fwhm` (amorphous.py:287-304) of a model with peaks: other sizes are ignored. -/
def setFwhm (k : Kind) (old new : List (List ℝ)) : List (List ℝ) :=
  match k with
  | .splitGaussian => if new.all fun w => w.length == 2 then new else old
  | .splitPv => if new.all fun w => w.length == 4 then new else old
  | .experimental => old

/-- `f'{key}_amorphous_{field}'`. -/
def amName (key field : Name) : Name := key ++ (['_', 'a', 'm', 'o', 'r', 'p', 'h', 'o', 'u', 's', '_'] ++ field)

def fScale : Name := ['s', 'c', 'a', 'l', 'e']
def fShift : Name := ['s', 'h', 'i', 'f', 't']
def fCenter : Name := ['c', 'e', 'n', 't', 'e', 'r']

/-- The names of the widths (wppfsupport.py:338-386). -/
def fWidths : Kind → List Name
  | .experimental => []
  | .splitGaussian => [['f', 'w', 'h', 'm', '_', 'l'], ['f', 'w', 'h', 'm', '_', 'r']]
  | .splitPv => [['f', 'w', 'h', 'm', '_', 'g', '_', 'l'], ['f', 'w', 'h', 'm', '_', 'l', '_', 'l'], ['f', 'w', 'h', 'm', '_', 'g', '_', 'r'],
      ['f', 'w', 'h', 'm', '_', 'l', '_', 'r']]

/-- `_generate_default_parameters_amorphous_model` (wppfsupport.py:305-386) for one component. -/
noncomputable def amEntries (k : Kind) (c : Comp) : List (Name × Par) :=
  [(amName c.key fScale, fixed c.scale (some 0) none)]
  ++ (match k with
    | .experimental => [(amName c.key fShift, fixed c.shift none none)]
    | _ => [(amName c.key fCenter, fixed c.center none none)])
  ++ (fWidths k).zipIdx.map fun f => (amName c.key f.1, fixed (c.fwhm.getD f.2 0) (some 0) none)

/-- The parameters of all components. -/
noncomputable def amPars (k : Kind) (cs : List Comp) : Pars := addAll (cs.flatMap (amEntries k))

/-- `_set_amorphous_params_vals_to_class` (WPPF.py:613-694) for one component. -/
noncomputable def amSet (k : Kind) (ps : Pars) (c : Comp) : Comp :=
  let get := fun f d => ((ps (amName c.key f)).map Par.value).getD d
  { c with
    scale := get fScale c.scale
    shift := match k with
      | .experimental => get fShift c.shift
      | _ => c.shift
    center := match k with
      | .experimental => c.center
      | _ => get fCenter c.center
    fwhm := match k with
      | .experimental => c.fwhm
      | _ => (fWidths k).zipIdx.map fun f => get f.1 (c.fwhm.getD f.2 0) }

/-- `DOC` (WPPF.py:900-917) on `n` points: `sim` is the simulated pattern with the background. -/
noncomputable def doc (trapz : (ℕ → ℝ) → ℝ) (amorphous : Option (ℕ → ℝ)) (sim bkg : ℕ → ℝ) : ℝ :=
  match amorphous with
  | none => 1
  | some am => 1 - trapz am / trapz fun j => sim j - bkg j

/-! ### Thermal diffuse scattering -/

/-- `agm` (tds.py:295-301). -/
noncomputable def agm (sgnum : ℕ) : ℝ := if sgnum = 229 then (3 / Real.pi / 2) ^ (1 / 3 : ℝ) else (3 / Real.pi) ^ (1 / 3 : ℝ)

open Classical in
/-- `WarrenFunctionalForm` (tds.py:137-143) at one point; `none` is infinity, from the division by zero. -/
noncomputable def warren (am x xhkl : ℝ) : Option ℝ :=
  if x - xhkl = 0 then none else
  let xx := am / |x - xhkl|
  some (if 1 < xx then Real.log xx else 0)

open Classical in
/-- `get_TDS_contribution_hkl` (tds.py:195-212) at one point, from the length of the reciprocal lattice vector, the multiplicity and the
lattice parameter in nm; `none` is infinity or NaN. -/
noncomputable def contribution (am a glen : ℝ) (j : ℕ) (q : ℝ) : Option ℝ :=
  let xhkl := glen * a
  let x := 10 * a * q / Real.pi / 2
  if x = 0 then none else
  if |glen| ≤ 1e-8 then some (am ^ 2 / 3 / x ^ 2)
  else (warren am x xhkl).map fun w => am ^ 2 * (j / xhkl) / (6 * x) * w

/-- The sum `C` in `calcTDS` (tds.py:250-253). -/
noncomputable def sumC (am a : ℝ) (hkls : List (ℝ × ℕ)) (q : ℝ) : Option ℝ := do
  let c0 ← contribution am a 0 1 q
  let cs ← hkls.mapM fun g => contribution am a g.1 g.2 q
  some (cs.foldl (· + ·) c0)

/-- The bracket (tds.py:257-259) for one element, with `Ms` (tds.py:242-243). -/
noncomputable def bracket (ms c : ℝ) : ℝ := (1 - Real.exp (-2 * ms)) + Real.exp (-2 * ms) * (2 * ms + ms ^ 2) * (c - 1)

/-- `Ms` (tds.py:228, 242, 271) from the displacement parameter. -/
noncomputable def mOf (u s : ℝ) : ℝ := 8 * Real.pi ^ 2 * u * s ^ 2

/-- `formfactor` (tds.py:145-193) of a material whose atoms are all of different elements: each is calculated from the first row of the
scattering factors and of the anomalous data and from the last corrections. -/
noncomputable def formFactors (els : List (StructFac.Site × ℕ)) (s2 : ℝ) : List ℝ :=
  match els.head?, els.getLast? with
  | some f, some l => els.map fun e =>
      (e.2 : ℝ) * ‖StructFac.formFactor { f.1 with z := e.1.z, fNT := l.1.fNT, frel := l.1.frel } s2‖ ^ 2
  | _, _ => []

/-- The loop over the elements (tds.py:255-259): the value is assigned anew for each element. -/
noncomputable def thermal (els : List (ℝ × ℝ)) (c : ℝ) : ℝ := els.foldl (fun _ e => e.1 * bracket e.2 c) 0

/-- `calcTDS` (tds.py:214-263) at one point, from the momentum transfer; each element has its atom, number in the cell and displacement
parameter. -/
noncomputable def calcTDS (sgnum : ℕ) (a vol lam : ℝ) (els : List ((StructFac.Site × ℕ) × ℝ)) (hkls : List (ℝ × ℕ)) (q : ℝ) : Option ℝ := do
  let s := q / 4 / Real.pi
  let c ← sumC (agm sgnum) a hkls q
  let ff := formFactors (els.map Prod.fst) ((q / 4 / Real.pi) ^ 2)
  some (vol / lam ^ 3 * thermal (ff.zip (els.map fun e => mOf e.2 s)) c)

end Hexrd.Diffuse
