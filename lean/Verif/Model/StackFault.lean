import Mathlib.Analysis.SpecialFunctions.Trigonometric.Basic
import Mathlib.Analysis.SpecialFunctions.Sqrt

/-!
# Model of the shifts and widths by stacking faults (`hexrd/powder/wppf/xtal.py`, `phase.py`, `WPPF.py`)

The star of a reflection, the list of its equivalents (`_calcstar`, modelled in `Hkls.lean`), is an argument. Reals stand for floating
point numbers; a division by zero gives 0 here and infinity in the code.
-/
namespace Hexrd.StackFault

/-- Miller indices, a row of `hkls` (xtal.py:255). -/
abbrev H := ℤ × ℤ × ℤ

/-- `L0` of one equivalent (xtal.py:262). -/
def layer (g : H) : ℤ := g.1 + g.2.1 + g.2.2

/-- `sign` (xtal.py:263-264): `np.mod` has the sign of the divisor. -/
def sign (l : ℤ) : ℤ := if l % 3 = 2 then -1 else l % 3

/-- `Lfact[i]` (xtal.py:267). -/
def lfact (star : List H) : ℤ := (star.map fun g => layer g * sign (layer g)).sum

/-- `Lfact_broadening[i]` in the loop (xtal.py:268). -/
def labs (star : List H) : ℤ := (star.map fun g => |layer g|).sum

/-- One entry of `H2` (xtal.py:270). -/
def h2 (h : H) : ℤ := h.1 ^ 2 + h.2.1 ^ 2 + h.2.2 ^ 2

/-- One entry of the second result (xtal.py:271). -/
noncomputable def broadFactor (h : H) (star : List H) : ℝ := (h2 h * star.length : ℝ) / labs star

/-- One entry of `sf_f` (xtal.py:272). -/
noncomputable def shiftFactor (h : H) (star : List H) : ℝ := 90 * √3 / Real.pi ^ 2 * lfact star / (h2 h * star.length)

/-- `get_sf_hkl_factors` (phase.py:284-302) with the function that gives the stars; `none` is the pair of `None`. -/
noncomputable def factors (sgnum : ℕ) (star : H → List H) (hkls : List H) : Option (List ℝ × List ℝ) :=
  if sgnum ≠ 225 then none
  else some (hkls.map fun h => shiftFactor h (star h), hkls.map fun h => broadFactor h (star h))

/-- `x[mask]` (WPPF.py:270-284). -/
def select {α : Type} : List Bool → List α → List α
  | true :: m, a :: l => a :: select m l
  | false :: m, _ :: l => select m l
  | _, _ => []

/-- `sf_shift` for one reflection at `tth` degrees (WPPF.py:1166-1170). -/
noncomputable def sfShift (alpha tth factor : ℝ) : ℝ := alpha * Real.tan (1 / 2 * tth * (Real.pi / 180)) * factor

/-- `Xs` for one reflection, in degrees (WPPF.py:1171-1175). -/
noncomputable def sfWidth (alpha beta lam a factor : ℝ) : ℝ := 0.9 * (1.5 * alpha + beta) * (factor * lam / a) * (180 / Real.pi)

end Hexrd.StackFault
