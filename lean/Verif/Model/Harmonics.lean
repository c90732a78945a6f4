import Verif.Model.HarmonicTable
import Mathlib.Algebra.Polynomial.Derivative
import Mathlib.Algebra.BigOperators.Group.List.Basic
import Mathlib.Analysis.SpecialFunctions.Complex.Arg
import Mathlib.Analysis.SpecialFunctions.Trigonometric.Inverse
import Mathlib.Data.Fin.VecNotation

/-!
# Model of the harmonic texture model (`hexrd/powder/wppf/texture.py`)

`scipy.special.sph_harm_y` is modelled by its definition (Rodrigues' formula with the Condon-Shortley
phase). Angles are real numbers. An exception (`ValueError`, `KeyError`, `TypeError`) is `none`.
-/
namespace Hexrd.Texture

open Polynomial

/-- The entries of `SYMLIST` (texture.py:42-58). -/
inductive Sym
  | ci | c2h | d2h | c4h | d4h | s6 | d3d | c6h | d6h | th | oh
  | monoclinic | orthorhombic | triclinic | axial
deriving DecidableEq, Repr

/-- `SYMLIST` (texture.py:42-58), in its order. -/
def symList : List Sym :=
  [.ci, .c2h, .d2h, .c4h, .d4h, .s6, .d3d, .c6h, .d6h, .th, .oh,
   .monoclinic, .orthorhombic, .triclinic, .axial]

/-- `check_symmetry(sym, symtype='crystal')` (texture.py:435-436). -/
def isCrystal (sym : Sym) : Bool := decide (sym ∈ symList.take 11)

/-- `check_symmetry(sym, symtype='sample')` (texture.py:437-438). -/
def isSample (sym : Sym) : Bool := decide (sym ∈ symList.drop 11)

/-- `check_degrees` (texture.py:444-455). The list `['td', 'oh']` tested there has one entry of `SYMLIST`. -/
def checkDegrees (ell : ℤ) (sym : Sym) : Option Unit :=
  if ell < 0 then none
  else if ell % 2 ≠ 0 then none
  else if sym = .oh ∧ 16 < ell then none
  else some ()

/-- `nfold` (texture.py:495-517); `none` is `np.inf`. -/
def nfold : Sym → Option ℕ
  | .oh | .c4h | .d4h => some 4
  | .c6h | .d6h => some 6
  | .th | .c2h | .d2h | .orthorhombic | .monoclinic => some 2
  | .s6 | .d3d => some 3
  | .ci | .triclinic => some 1
  | .axial => none

/-- `n = int(deg / nfold)` (texture.py:519). -/
def count (deg : ℕ) (sym : Sym) : ℕ := ((nfold sym).map (deg / ·)).getD 0

/-- `Blmn[sym][deg]` (texture.py:71-405), in units of `10⁻¹⁸`. -/
def blmn : Sym → ℕ → Option (List (List ℤ))
  | .th, deg => blmn_th deg
  | .oh, deg => blmn_oh deg
  | _, _ => none

/-- The `m`-th derivative of the Legendre polynomial of degree `l` (Rodrigues). -/
noncomputable def legendre (l m : ℕ) : ℝ[X] :=
  C (1 / (2 ^ l * (l.factorial : ℝ))) * derivative^[l + m] ((X ^ 2 - 1) ^ l)

/-- The factor of `sph_harm_y` before the Legendre function, with the Condon-Shortley phase. -/
noncomputable def factor (l m : ℕ) : ℝ :=
  (-1) ^ m * √((2 * l + 1) / (4 * Real.pi) * (((l - m).factorial : ℝ) / ((l + m).factorial : ℝ)))

/-- `sph_harm_y(l, m, theta, phi)` for an order that is not negative. `theta` is a polar angle, so that
`(1 - cos² theta)^(m/2)` is `sin theta ^ m`. -/
noncomputable def harmNat (l m : ℕ) (theta phi : ℝ) : ℂ :=
  (factor l m * Real.sin theta ^ m * (legendre l m).eval (Real.cos theta) : ℝ) *
    Complex.exp (m * phi * Complex.I)

/-- `sph_harm_y(l, m, theta, phi)`. -/
noncomputable def harm (l : ℕ) (m : ℤ) (theta phi : ℝ) : ℂ :=
  if 0 ≤ m then harmNat l m.toNat theta phi
  else (-1) ^ m.natAbs * (starRingEnd ℂ) (harmNat l m.natAbs theta phi)

/-- A column of the cubic harmonics (texture.py:521-533), for one row of the table. -/
noncomputable def cubicColumn (deg nf n : ℕ) (row : List ℤ) (theta phi : ℝ) : ℝ :=
  ((List.range (2 * n + 1)).map fun k =>
    (((row.getD k 0 : ℤ) : ℂ) / 10 ^ 18) * harm deg (nf * ((k : ℤ) - n)) theta phi).sum.re

/-- A column of the dihedral harmonics (texture.py:547-576). -/
noncomputable def dihedralColumn (sym : Sym) (deg nf ii : ℕ) (theta phi : ℝ) : ℝ :=
  if ii = 0 then (harm deg (nf * ii) theta phi).re
  else if sym = .d3d ∧ ii % 2 ≠ 0 then
    ((harm deg (-(nf * ii)) theta phi + harm deg (nf * ii) theta phi) / (√2 : ℝ)).im
  else ((harm deg (-(nf * ii)) theta phi + harm deg (nf * ii) theta phi) / (√2 : ℝ)).re

/-- A column of the cyclic harmonics (texture.py:585-589), for the order `nf * ii`. -/
noncomputable def cyclicColumn (deg nf : ℕ) (ii : ℤ) (theta phi : ℝ) : ℝ :=
  if ii < 0 then (harm deg (nf * ii) theta phi).im else (harm deg (nf * ii) theta phi).re

/-- `calc_sym_sph_harm` for one direction (texture.py:458-591): the row of values. A row of the table that
is too short would be an `IndexError`. -/
noncomputable def symHarm (deg : ℕ) (theta phi : ℝ) (sym : Sym) : Option (List ℝ) := do
  let _ ← checkDegrees deg sym
  let n := count deg sym
  match sym with
  | .th | .oh =>
    let nf := (nfold sym).getD 0
    let rows ← blmn sym deg
    rows.mapM fun row =>
      if row.length < 2 * n + 1 then none else some (cubicColumn deg nf n row theta phi)
  | .axial => some [(harm deg 0 theta phi).re]
  | .d2h | .d3d | .d4h | .d6h | .orthorhombic =>
    some ((List.range (n + 1)).map fun ii => dihedralColumn sym deg ((nfold sym).getD 0) ii theta phi)
  | .ci | .c2h | .s6 | .c4h | .c6h | .monoclinic | .triclinic =>
    some ((List.range (2 * n + 1)).map fun k =>
      cyclicColumn deg ((nfold sym).getD 0) ((k : ℤ) - n) theta phi)

/-- `get_num_sym_harm` (texture.py:594-625). A symmetry that no branch names gives `None`; the branch for
`'d3h'` names no entry of `SYMLIST`. -/
def numHarm (ell : ℕ) : Sym → Option ℕ
  | .th => (blmn .th ell).map List.length
  | .oh => (blmn .oh ell).map List.length
  | .ci => some (2 * ell + 1)
  | .c2h => some (2 * (ell / 2) + 1)
  | .d2h => some (ell / 2 + 1)
  | .c4h => some (2 * (ell / 4) + 1)
  | .d4h => some (ell / 4 + 1)
  | .s6 => some (2 * (ell / 3) + 1)
  | .d3d => none
  | .c6h => some (2 * (ell / 6) + 1)
  | .d6h => some (ell / 6 + 1)
  | .axial => some 1
  | .monoclinic => some (2 * (ell / 2) + 1)
  | .orthorhombic => some (ell / 2 + 1)
  | .triclinic => some (2 * ell + 1)

/-- The polar and azimuthal angles of a direction (texture.py:1670-1675, 2023). -/
noncomputable def angles (v : Fin 3 → ℝ) : ℝ × ℝ :=
  (Real.arccos (v 2), Complex.arg (v 0 + v 1 * Complex.I))

/-- `range(2, ell_max + 1, 2)`. -/
def degrees (ellMax : ℕ) : List ℕ := (List.range (ellMax / 2)).map fun k => 2 * (k + 1)

/-- The names of the parameters `{phase}_c_{ell}_{ii}_{jj}` (texture.py:959-970), as `(ell, ii, jj)`. A count
that is `None` is a `TypeError`. -/
def parameterNames (csym ssym : Sym) (ellMax : ℕ) : Option (List (ℕ × ℕ × ℕ)) :=
  ((degrees ellMax).mapM fun ell => do
    let nc ← numHarm ell csym
    let ns ← numHarm ell ssym
    some ((List.range ns).flatMap fun ii => (List.range nc).map fun jj => (ell, ii, jj))).map List.flatten

/-- The parameters: a value for a name, `none` if the name is missing. -/
abbrev Params := ℕ × ℕ × ℕ → Option ℝ

/-- `get_parameters` without given parameters (texture.py:946-956): every name with the value zero. -/
def zeroParams (csym ssym : Sym) (ellMax : ℕ) : Option Params :=
  (parameterNames csym ssym ellMax).map fun names => fun p => if p ∈ names then some 0 else none

/-- The term of one degree in the series (texture.py:1206-1212, 1506-1512, 1543-1549): `pre * s · (C · c)`, with
the matrices of `get_c_matrix` (texture.py:985-994), `get_sph_s_matrix` (texture.py:996-1020) and
`get_sph_c_matrix` (texture.py:1022-1038). -/
noncomputable def seriesTerm (p : Params) (csym ssym : Sym) (ell : ℕ) (h s : ℝ × ℝ) : Option ℝ := do
  let nc ← numHarm ell csym
  let ns ← numHarm ell ssym
  let cs ← symHarm ell h.1 h.2 csym
  let ss ← symHarm ell s.1 s.2 ssym
  let rows ← (List.range ns).mapM fun ii => do
    let y ← ss[ii]?
    let row ← (List.range nc).mapM fun jj => do
      let c ← p (ell, ii, jj)
      let k ← cs[jj]?
      some (c * k)
    some (y * row.sum)
  some (4 * Real.pi / (2 * ell + 1) * rows.sum)

/-- The intensity of the pole figure of a reflection in a sample direction: `1` plus the series
(texture.py:1200-1216, 1540-1551). `h` and `s` are the angles of the reflection and of the sample direction. -/
noncomputable def intensity (p : Params) (csym ssym : Sym) (ellMax : ℕ) (h s : ℝ × ℝ) : Option ℝ :=
  ((degrees ellMax).mapM fun ell => seriesTerm p csym ssym ell h s).map fun l => 1 + l.sum

/-- `calc_texture_factor` for one reflection (texture.py:1238-1247): the mean of the intensities around the
ring that are not masked. The mean of nothing is NaN. -/
noncomputable def textureFactor (vs : List ℝ) (mask : List Bool) : Option ℝ :=
  let kept := ((vs.zip mask).filter fun x => !x.2).map Prod.fst
  if kept = [] then none else some (kept.sum / kept.length)

/-- `J`, the texture index (texture.py:1249-1264). -/
noncomputable def textureIndex (p : Params) (csym ssym : Sym) (ellMax : ℕ) : Option ℝ := do
  let names ← parameterNames csym ssym ellMax
  let terms ← names.mapM fun n => (p n).map fun c => 1 / (2 * (n.1 : ℝ) + 1) * c ^ 2
  some (1 + terms.sum)

end Hexrd.Texture
