import Mathlib.Data.Real.Basic

/-!
# Model of the density of a crystal, of the reflections below an angle and of the symmetry directions
(`hexrd/core/material/unitcell.py`, `hexrd/core/material/material.py`, `hexrd/core/material/spacegroup.py`)

Reals stand for floating point numbers.
-/
namespace Hexrd.CellSummary

/-- One entry of the asymmetric unit: the atomic number, the number of its positions in the cell and its occupation
(unitcell.py:712-714). -/
structure Site where
  z : ℕ
  num : ℕ
  occ : ℝ

/-- Weights, `constants.atom_weights`, are given as a function of the atomic number (unitcell.py:717). The sums start at zero and every
entry is added in turn (unitcell.py:703-719). -/
noncomputable def addSite (weight : ℕ → ℝ) (acc : ℝ × ℝ) (s : Site) : ℝ × ℝ :=
  (acc.1 + s.num * weight s.z * s.occ, acc.2 + s.num * s.z)

/-- `CalcDensity` (unitcell.py:698-726): the density, the mean atomic weight and the mean atomic number. `vol` is the volume in cubic
nanometres. Division by zero, which gives NaN or infinity in the code, is `0`; the theorems exclude it. -/
noncomputable def calcDensity (weight : ℕ → ℝ) (avogadro vol : ℝ) (sites : List Site) : ℝ × ℝ × ℝ :=
  let acc := sites.foldl (addSite weight) (0, 0)
  let density := acc.1 / (vol * 1.0e-21 * avogadro)
  let natom := (sites.map fun s => (s.num : ℝ) * s.occ).sum
  (density, acc.1 / natom, acc.2 / (sites.map fun s => (s.num : ℝ)).sum)

/-- A reflection with its scattering angle, `none` for NaN (core/material/material.py:378). -/
structure Refl where
  hkl : ℤ × ℤ × ℤ
  tth : Option ℝ

/-- The exclusion by the angle: a mask of ones in which the entries that are not NaN are set (core/material/material.py:393-395, 400-402). -/
noncomputable def byAngle (thr : ℝ) (r : Refl) : Bool :=
  match r.tth with
  | none => true
  | some t => !(decide (0 ≤ t) && decide (t ≤ thr))

/-- `dflt_excl[0] = False` (core/material/material.py:403); `none` is the exception for an empty array. -/
def clearFirst : List Bool → Option (List Bool)
  | [] => none
  | _ :: l => some (false :: l)

/-- `enable_hkls_below_tth` (core/material/material.py:372-404): the new exclusions. `file` holds the reflections read from a file, if any; `thr` is
the threshold in radians. -/
noncomputable def enableBelow (file : Option (List (ℤ × ℤ × ℤ))) (thr : ℝ) (l : List Refl) : Option (List Bool) :=
  match file with
  | some f => some ((l.map fun r => !decide (r.hkl ∈ f)).zipWith (· || ·) (l.map (byAngle thr)))
  | none => clearFirst (l.map (byAngle thr))

/-- The crystal systems that `latticeType` names (spacegroup.py:401-429). -/
inductive System
  | triclinic | monoclinic | orthorhombic | tetragonal | trigonal | hexagonal | cubic
  deriving DecidableEq

/-- `get_symmetry_directions` (spacegroup.py:380-431). -/
def directions : System → (ℤ × ℤ × ℤ) × (ℤ × ℤ × ℤ) × (ℤ × ℤ × ℤ)
  | .triclinic => ((0, 0, 1), (0, 1, 0), (1, 0, 0))
  | .monoclinic => ((0, 1, 0), (1, 0, 0), (0, 0, 1))
  | .orthorhombic => ((1, 0, 0), (0, 1, 0), (1, 0, 1))
  | .tetragonal => ((0, 0, 1), (1, 0, 0), (1, 1, 0))
  | .trigonal => ((0, 0, 1), (1, 0, 0), (1, 2, 0))
  | .hexagonal => ((0, 0, 1), (1, 0, 0), (1, 2, 0))
  | .cubic => ((0, 0, 1), (1, 1, 1), (1, 1, 0))

end Hexrd.CellSummary
