import Verif.Model.UnitCell
import Verif.Model.ColorSpace
import Mathlib.Analysis.SpecialFunctions.Complex.Arg
import Mathlib.Analysis.SpecialFunctions.Trigonometric.Inverse
import Mathlib.Analysis.SpecialFunctions.Exp

/-!
# Model of the colours of inverse pole figures

`reduce_dirvector`, `inside_spheretriangle`, `color_directions` and `color_orientations` of
`hexrd/core/material/unitcell.py`, `GeneratePGSYM` of `hexrd/core/material/symmetry.py` and
`hexrd/hedm/ipfcolor/sphere_sector.py`.

Simplifications: floating-point numbers are real numbers; an exception is `none`; a row of NaN is the row `none`. A
determinant of three columns is the triple product.
-/
namespace Hexrd.Ipf

open Matrix Hexrd.SpaceGroup Hexrd.UnitCell

/-! ### Symmetry operators -/

/-- `SYM_GL_PG` (core/constants.py:4503-4536). -/
def glPG : PG → List Char
  | .c1 => ['1', 'a']
  | .ci => ['1', 'h']
  | .c2 => ['1', 'c']
  | .cs => ['1', 'j']
  | .c2h => ['2', 'c', 'h']
  | .d2 => ['2', 'b', 'c']
  | .c2v => ['2', 'b', 'j']
  | .d2h => ['3', 'b', 'c', 'h']
  | .c4 => ['1', 'g']
  | .s4 => ['1', 'm']
  | .c4h => ['2', 'g', 'h']
  | .d4 => ['2', 'c', 'g']
  | .c4v => ['2', 'g', 'j']
  | .d2d => ['2', 'c', 'm']
  | .d4h => ['3', 'c', 'g', 'h']
  | .c3 => ['1', 'n']
  | .s6 => ['2', 'h', 'n']
  | .d3 => ['2', 'e', 'n']
  | .c3v => ['2', 'k', 'n', ' ']
  | .d3d => ['3', 'f', 'h', 'n']
  | .c6 => ['2', 'b', 'n']
  | .c3h => ['2', 'i', 'n']
  | .c6h => ['3', 'b', 'h', 'n']
  | .d6 => ['3', 'b', 'e', 'n']
  | .c6v => ['3', 'b', 'k', 'n']
  | .d3h => ['3', 'i', 'k', 'n']
  | .d6h => ['4', 'b', 'e', 'n', 'h']
  | .t => ['2', 'c', 'd']
  | .th => ['3', 'c', 'd', 'h']
  | .o => ['2', 'd', 'g']
  | .td => ['2', 'd', 'm']
  | .oh => ['3', 'd', 'g', 'h']

/-- `MakeGenerators_PGSYM` (symmetry.py:313-327). -/
def pgGenerators : List Char → Option (List Mat)
  | [] => none
  | n :: s => if s.length < digit n then none else (s.take (digit n)).mapM genMat

/-- `GeneratePGSYM` (symmetry.py:330-371): the loops are those of `GenerateSGSym`, with the bound 48. -/
def generatePG (g : PG) : Option (List Mat) := (pgGenerators (glPG g)).map (outer Mat.mul 48 49 0)

/-- `SYM_PG_supergroup` and `SYM_PG_supergroup_laue` (unitcell.py:445-476), for crystals that are neither triclinic nor
monoclinic. -/
noncomputable def superSyms (L : Cell) (g : PG) : Option (List M3) := (generatePG g).map fun l => l.map (cartSym L)

/-- The same for triclinic and monoclinic crystals: the matrices as they are (unitcell.py:451-458), turned for the point
group `c1` (unitcell.py:505-514). -/
def superSymsLow (pointGroup g : PG) : Option (List M3) :=
  (generatePG g).map fun l => if pointGroup = .c1 then (l.map toReal).map turn else l.map toReal

/-! ### Sectors -/

/-- One entry of `pg2vertex`: the columns of the vertices, the columns of the connectivity (their number is the number of
triangles), and whether the hemisphere is `'upper'`. -/
structure Sector where
  vertices : List V3
  conn : List (Nat × Nat × Nat)
  upper : Bool

/-- `pg2vertex` (sphere_sector.py:66-284). Three of the arrays of vertices are not transposed in the code, so that their
columns come in another order. -/
noncomputable def sector : PG → Sector
  | .c1 =>
    ⟨[![0, 0, 1], ![1, 0, 0], ![-1 / 2, √3 / 2, 0], ![-1 / 2, -(√3 / 2), 0]], [(0, 1, 2), (0, 2, 3), (0, 3, 1)], false⟩
  | .ci | .cs =>
    ⟨[![0, 0, 1], ![1, 0, 0], ![-1 / 2, √3 / 2, 0], ![-1 / 2, -(√3 / 2), 0]], [(0, 1, 2), (0, 2, 3), (0, 3, 1)], true⟩
  | .c2 =>
    ⟨[![0, 0, 1], ![1, 0, 0], ![0, 1, 0], ![-1, 0, 0]], [(0, 1, 2), (0, 2, 3)], false⟩
  | .c2h | .d2 | .s4 =>
    ⟨[![0, 0, 1], ![1, 0, 0], ![0, 1, 0], ![-1, 0, 0]], [(0, 1, 2), (0, 2, 3)], true⟩
  | .c2v =>
    ⟨[![0, 0, 1], ![1, 0, 0], ![0, 1, 0], ![0, 0, -1]], [(0, 1, 2), (3, 1, 2)], false⟩
  | .d2h =>
    ⟨[![0, 0, 1], ![1, 0, 0], ![0, 1, 0]], [(0, 1, 2)], true⟩
  | .c4 =>
    ⟨[![0, 0, 1], ![1, 0, 0], ![0, 1, 0]], [(0, 1, 2)], false⟩
  | .c4h | .d4 | .d2d =>
    ⟨[![0, 1, 0], ![0, 0, 1], ![1, 0, 0]], [(0, 1, 2)], true⟩
  | .c4v =>
    ⟨[![0, 0, 1], ![1, 0, 0], ![1 / √2, 1 / √2, 0]], [(0, 1, 2)], false⟩
  | .d4h =>
    ⟨[![0, 0, 1], ![1, 0, 0], ![1 / √2, 1 / √2, 0]], [(0, 1, 2)], true⟩
  | .c3 =>
    ⟨[![0, 0, 1], ![√3 / 2, -1 / 2, 0], ![0, 1, 0]], [(0, 1, 2)], false⟩
  | .s6 | .d3 | .c3h =>
    ⟨[![0, 0, 1], ![1, 0, 0], ![-1 / 2, √3 / 2, 0]], [(0, 1, 2)], true⟩
  | .c3v =>
    ⟨[![0, 0, 1], ![√3 / 2, -1 / 2, 0], ![√3 / 2, 1 / 2, 0]], [(0, 1, 2)], false⟩
  | .d3d =>
    ⟨[![0, 0, 1], ![√3 / 2, -1 / 2, 0], ![√3 / 2, 1 / 2, 0]], [(0, 1, 2)], true⟩
  | .c6 | .d6 =>
    ⟨[![0, 0, 1], ![1, 0, 0], ![1 / 2, √3 / 2, 0]], [(0, 1, 2)], false⟩
  | .c6h =>
    ⟨[![0, 0, 1], ![1, 0, 0], ![1 / 2, √3 / 2, 0]], [(0, 1, 2)], true⟩
  | .c6v =>
    ⟨[![0, 0, 1], ![1, 0, 0], ![√3 / 2, 1 / 2, 0]], [(0, 1, 2)], false⟩
  | .d3h | .d6h =>
    ⟨[![0, 0, 1], ![1, 0, 0], ![√3 / 2, 1 / 2, 0]], [(0, 1, 2)], true⟩
  | .t =>
    ⟨[![0, 0, 1], ![1 / √3, -(1 / √3), 1 / √3], ![1 / √3, 1 / √3, 1 / √3], ![1, 0, 0]], [(0, 1, 2), (1, 3, 2)], true⟩
  | .th | .o =>
    ⟨[![0, 0, 1], ![1 / √2, 0, 1 / √2], ![1 / √3, 1 / √3, 1 / √3], ![0, 1 / √2, 1 / √2]], [(0, 1, 2), (0, 2, 3)], true⟩
  | .td =>
    ⟨[![0, 0, 1], ![1 / √3, -(1 / √3), 1 / √3], ![1 / √3, 1 / √3, 1 / √3]], [(0, 1, 2)], true⟩
  | .oh =>
    ⟨[![0, 0, 1], ![1 / √2, 0, 1 / √2], ![1 / √3, 1 / √3, 1 / √3]], [(0, 1, 2)], true⟩

/-- `constants.sqrt_epsf`. -/
noncomputable abbrev eps : ℝ := Cell.eps

/-- The determinant of the matrix with the columns `x`, `a`, `b`. -/
def triple (x a b : V3) : ℝ := x ⬝ᵥ cross a b

open Classical in
/-- A determinant next to 0 is 0 (unitcell.py:1154-1159, sphere_sector.py:439-440). -/
noncomputable def snapDet (d : ℝ) : ℝ := if |d| < eps then 0 else d

/-- Column of the vertices. -/
def vertex (s : Sector) (n : Nat) : V3 := s.vertices.getD n 0

open Classical in
/-- `inside_spheretriangle` for one direction (unitcell.py:1108-1180). The three signs of a row of NaN are one NaN, which is
not at least 0. -/
noncomputable def insideTriangle (s : Sector) (conn : Nat × Nat × Nat) : Option V3 → Bool
  | none => !s.upper
  | some x =>
    let A := vertex s conn.1
    let B := vertex s conn.2.1
    let C := vertex s conn.2.2
    let d1 := snapDet (triple A B x)
    let d2 := snapDet (triple A x C)
    let d3 := snapDet (triple x B C)
    let ss := [SignType.sign d1, SignType.sign d2, SignType.sign d3].dedup
    if s.upper then ss.all fun t => decide (0 ≤ t)
    else match ss.length with
      | 1 => true
      | 2 => ss.contains 0
      | _ => false

/-- The mask of one direction (unitcell.py:1272-1276); no entry of `pg2vertex` is without triangles. -/
noncomputable def inside (s : Sector) (x : Option V3) : Bool := s.conn.any fun c => insideTriangle s c x

/-! ### Reduction of directions -/

noncomputable def norm (v : V3) : ℝ := √(v ⬝ᵥ v)

open Classical in
/-- Normalisation (unitcell.py:1209-1228). The norm that is compared with the tolerance in the second case is that of the
whole array; a row of zeros becomes a row of NaN. -/
noncomputable def normalize (rows : List V3) : Option (List (Option V3)) :=
  if ∀ r ∈ rows, |norm r - 1| < eps then some (rows.map some)
  else if √((rows.map fun r => r ⬝ᵥ r).sum) > eps then
    some (rows.map fun r => if norm r = 0 then none else some ((norm r)⁻¹ • r))
  else none

/-- `l[mask]`. -/
def select {α : Type} (mask : List Bool) (l : List α) : List α := ((l.zip mask).filter (·.2)).map (·.1)

/-- The variables of the loop of `reduce_dirvector`. -/
structure State where
  copy : List (Option V3)
  idx : List Nat
  reduced : List (Option V3)
  idxRed : List Nat

/-- One round (unitcell.py:1261-1287). -/
noncomputable def round (s : Sector) (sop : M3) (st : State) : State :=
  if st.copy.isEmpty then st
  else
    let sym := st.copy.map fun r => r.map fun v => sop *ᵥ v
    let mask := sym.map (inside s)
    { copy := select (mask.map not) st.copy
      idx := select (mask.map not) st.idx
      reduced := st.reduced ++ select mask sym
      idxRed := st.idxRed ++ select mask st.idx }

/-- `a[idx, :] = rows`. -/
def scatter {α : Type} : List (Nat × α) → List α → Option (List α)
  | [], l => some l
  | (i, r) :: ps, l => if i < l.length then scatter ps (l.set i r) else none

/-- `reduce_dirvector` (unitcell.py:1202-1291) with the operators of the switch. If nothing was reduced, the array has one
dimension and the indices are refused. -/
noncomputable def reduce (syms : List M3) (s : Sector) (rows : List V3) : Option (List (Option V3)) := do
  let ns ← normalize rows
  let st := syms.foldl (fun st sop => round s sop st) ⟨ns, List.range rows.length, [], []⟩
  if st.reduced.isEmpty then none
  else scatter (st.idxRed.zip st.reduced) (List.replicate st.reduced.length (some 0))

/-! ### Colours -/

/-- The barycentre (sphere_sector.py:346-376). -/
noncomputable def barycenter (s : Sector) : V3 :=
  let b := ((s.vertices.length : ℝ)⁻¹) • s.vertices.sum
  (norm b)⁻¹ • b

/-- `inside_sphericalpatch` for one direction (sphere_sector.py:402-449). -/
noncomputable def insidePatch (vs : List V3) (x : V3) : Bool :=
  (List.range vs.length).all fun i =>
    decide (0 ≤ snapDet (triple x (vs.getD (i % vs.length) 0) (vs.getD ((i + 1) % vs.length) 0)))

open Classical in
/-- `fillet_region` for one direction (sphere_sector.py:451-503): the first fillet that contains it, or -1. -/
noncomputable def filletRegion (s : Sector) (x : V3) : Int :=
  let bar := barycenter s
  let vs := s.vertices.filter fun v => !decide (bar = v)
  let n := vs.length
  match (List.range n).find? fun i => insidePatch [bar, vs.getD (i % n) 0, vs.getD ((i + 1) % n) 0] x with
  | some i => i
  | none => -1

/-- The two vertices of an edge: `vertex[:, np.mod(f, nn)]` and `vertex[:, np.mod(f + 1, nn)]`
(sphere_sector.py:524-525, 574-575). -/
def edge (s : Sector) (f : Int) : V3 × V3 :=
  (vertex s (f % s.vertices.length).toNat, vertex s ((f + 1) % s.vertices.length).toNat)

open Classical in
/-- `point_on_boundary` for one direction (sphere_sector.py:505-542). A normal that is 0 over 0 in the code is 0 here; the
point is then the direction in both. -/
noncomputable def pointOnBoundary (s : Sector) (d : V3) : V3 :=
  let e := edge s (filletRegion s d)
  let nhat := cross e.2 e.1
  let nhat := (norm nhat)⁻¹ • nhat
  let lam := nhat ⬝ᵥ d
  let dp := d - lam • nhat
  if norm dp > 0 then (norm dp)⁻¹ • dp else d

open Classical in
/-- `calculate_rho` for one direction (sphere_sector.py:544-595). -/
noncomputable def rho (s : Sector) (d : V3) : ℝ :=
  if barycenter s = ![0, 0, 1] then Complex.arg ⟨d 0, d 1⟩ + Real.pi
  else
    let f := filletRegion s d
    let b := pointOnBoundary s d
    let e := edge s f
    let nn : ℝ := s.vertices.length
    let omega := e.1 ⬝ᵥ e.2
    let omega := if |omega| > 1 then (SignType.sign omega : ℝ) else omega
    let omegap := e.1 ⬝ᵥ b
    let omegap := if |omegap| > 1 then (SignType.sign omega : ℝ) else omegap
    let omega := Real.arccos omega
    let omegap := Real.arccos omegap
    if omegap ≠ 0 then 2 * Real.pi * omegap / omega / nn + f * 2 * Real.pi / nn else f * 2 * Real.pi / nn

open Classical in
/-- A cosine beyond 1 (sphere_sector.py:621-622, 628-634). -/
noncomputable def clampCos (x : ℝ) : ℝ := if |x| > 1 then (SignType.sign x : ℝ) else x

open Classical in
/-- `calculate_theta` for one direction (sphere_sector.py:597-643). -/
noncomputable def theta (s : Sector) (d : V3) : ℝ :=
  let bar := barycenter s
  if bar = ![0, 0, 1] then Real.arccos (clampCos (d 2))
  else
    let omega := Real.arccos (clampCos (bar ⬝ᵥ d))
    let omegap := Real.arccos (clampCos (bar ⬝ᵥ pointOnBoundary s d))
    if omegap = 0 then 0 else Real.pi * omega / omegap / 2

/-- `hue_speed` (sphere_sector.py:645-662). -/
noncomputable def hueSpeed (r : ℝ) : ℝ :=
  let r := r - Real.pi
  1 / 2 + Real.exp (-(4 / 7) * r ^ 2) + Real.exp (-(4 / 7) * (r - 2 * Real.pi / 3) ^ 2)
    + Real.exp (-(4 / 7) * (r + 2 * Real.pi / 3) ^ 2)

/-- `np.trapezoid(hue_speed(r), r)` with `r = np.linspace(0.0, x, 1000)` (sphere_sector.py:687-689, 694-696). -/
noncomputable def hueIntegral (x : ℝ) : ℝ :=
  ((List.range 999).map fun k : ℕ =>
    (x * (k + 1 : ℕ) / 999 - x * k / 999) * (hueSpeed (x * (k + 1 : ℕ) / 999) + hueSpeed (x * k / 999)) / 2).sum

/-- `calc_hue` for one direction (sphere_sector.py:667-698). -/
noncomputable def hue (s : Sector) (d : V3) : ℝ := hueIntegral (rho s d) / hueIntegral (2 * Real.pi)

/-- `calc_saturation` (sphere_sector.py:700-717). -/
noncomputable def saturation (l : ℝ) : ℝ := 1 - 2 * (1 / 4) * |l - 1 / 2|

/-- `calc_lightness` for one direction (sphere_sector.py:719-746). -/
noncomputable def lightness (s : Sector) (d : V3) (mask : Bool) : ℝ :=
  let t := Real.pi - theta s d
  let l := 35 / 100 * (t / Real.pi) + 65 / 100 * Real.sin (t / 2) ^ 2
  if mask then l else 1 - l

/-- `get_color` for one direction (sphere_sector.py:748-771). -/
noncomputable def getColor (s : Sector) (d : V3) (mask : Bool) : ColorSpace.Row :=
  let l := lightness s d mask
  ⟨hue s d, saturation l, l⟩

/-- The two groups of operators and sectors that `color_directions` uses: those of the Laue group (or point group) and those
of its supergroup (unitcell.py:1314-1330). -/
structure Scheme where
  syms : List M3
  sector : Sector
  superSyms : List M3
  superSector : Sector

open Classical in
/-- `color_directions` (unitcell.py:1295-1336). Left out: arrays of different length of which one has one row, and rows of
NaN (refused here). -/
noncomputable def colorDirections (c : Scheme) (rows : List V3) : Option (List ColorSpace.Row) := do
  let red ← reduce c.syms c.sector rows
  let sup ← reduce c.superSyms c.superSector rows
  let red ← red.mapM id
  let sup ← sup.mapM id
  if red.length = sup.length then
    (ColorSpace.hsl2rgb ((red.zip sup).map fun p => getColor c.superSector p.2 (decide (norm (p.1 - p.2) < eps)))).1
  else none

/-- `color_orientations` (unitcell.py:1338-1379) for an array of rotations. -/
noncomputable def colorOrientations (c : Scheme) (rmats : List M3) (refDir : V3) : Option (List ColorSpace.Row) :=
  colorDirections c (rmats.map fun r => rᵀ *ᵥ refDir)

end Hexrd.Ipf
