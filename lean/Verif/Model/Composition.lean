import Mathlib.Analysis.SpecialFunctions.Trigonometric.Basic
import Mathlib.Algebra.BigOperators.Group.List.Basic
import Mathlib.Algebra.BigOperators.Fin

/-!
# Model of the functions of the chemical composition (`hexrd/core/material/utils.py`)

Floating-point numbers are real numbers. A composition is a list of elements with their abundances; the parser of formulas and the tables
of atomic weights and of incoherent scattering are arguments.
-/

namespace Hexrd.Composition

abbrev Formula (ε : Type) := List (ε × ℝ)

/-- `calculate_molecular_mass` (core/material/utils.py:39-49). -/
noncomputable def molecularMass {ε : Type} (weight : ε → ℝ) (f : Formula ε) : ℝ := f.foldl (fun m e => m + e.2 * weight e.1) 0

/-- `cAvogadro` (hexrd/core/constants.py:364). -/
noncomputable def avogadro : ℝ := 6.02214076e23

/-- `calculate_number_density` (core/material/utils.py:60-63). -/
noncomputable def numberDensity {ε : Type} (weight : ε → ℝ) (density : ℝ) (f : Formula ε) : ℝ :=
  1e-21 * density * avogadro / molecularMass weight f

/-- `normalize_composition` (core/material/utils.py:194-208). -/
noncomputable def normalize {ε : Type} (f : Formula ε) : Formula ε :=
  let s := (f.map Prod.snd).sum
  f.map fun e => (e.1, e.2 / s)

/-- `convert_density_to_atoms_per_cubic_angstrom` (core/material/utils.py:211-230) of a composition. -/
noncomputable def atomsPerA3 {ε : Type} (weight : ε → ℝ) (f : Formula ε) (density : ℝ) : ℝ :=
  let meanZ := (normalize f).foldl (fun m e => m + e.2 * weight e.1) 0
  density / meanZ * 0.602214129

/-- The table of scattering factors of an element: five amplitudes, a constant and five rates. -/
structure Scat where
  amp : Fin 5 → ℝ
  const : ℝ
  rate : Fin 5 → ℝ

/-- `calculate_coherent_scattering_factor` (core/material/utils.py:233-242). -/
noncomputable def coherent (t : Scat) (q : ℝ) : ℝ :=
  let s := q / (4 * Real.pi)
  (List.finRange 5).foldl (fun fe j => fe + t.amp j * Real.exp (-t.rate j * s)) t.const

/-- `calculate_f_squared_mean` (core/material/utils.py:263-276) from the factors of the elements. -/
noncomputable def fSquaredMean {ε : Type} (fac : ε → ℝ) (f : Formula ε) : ℝ :=
  (normalize f).foldl (fun r e => r + e.2 * fac e.1 ^ 2) 0

/-- `calculate_f_mean_squared` (core/material/utils.py:279-292). -/
noncomputable def fMeanSquared {ε : Type} (fac : ε → ℝ) (f : Formula ε) : ℝ :=
  ((normalize f).foldl (fun r e => r + e.2 * fac e.1) 0) ^ 2

/-- `calculate_incoherent_scattering` (core/material/utils.py:295-308). -/
noncomputable def incoherent {ε : Type} (inc : ε → ℝ) (f : Formula ε) : ℝ :=
  (normalize f).foldl (fun r e => r + (e.2 * inc e.1) ^ 2) 0

end Hexrd.Composition
