import Verif.Model.SGTables
import Mathlib.LinearAlgebra.Matrix.NonsingularInverse
import Mathlib.LinearAlgebra.Matrix.Notation
import Mathlib.LinearAlgebra.Matrix.Determinant.Basic
import Mathlib.Analysis.SpecialFunctions.Trigonometric.Basic

/-!
# Model of the matrices of the unit cell (`hexrd/core/material/unitcell.py`)

Floating-point numbers are real numbers. `np.linalg.inv` and `np.linalg.det` are the
inverse and the determinant; `np.sqrt` and the trigonometric functions are the real ones.
-/
namespace Hexrd.UnitCell

open Matrix Hexrd.SpaceGroup

abbrev M3 := Matrix (Fin 3) (Fin 3) ℝ
abbrev V3 := Fin 3 → ℝ

/-- The lattice parameters of a cell, angles in degrees (unitcell.py:1440-1456). -/
structure Cell where
  a : ℝ
  b : ℝ
  c : ℝ
  alpha : ℝ
  beta : ℝ
  gamma : ℝ

/-- `np.radians`. -/
noncomputable def radians (x : ℝ) : ℝ := x * Real.pi / 180

namespace Cell

variable (L : Cell)

/-- Cosines and sine of the angles (unitcell.py:154-164). -/
noncomputable def ca : ℝ := Real.cos (radians L.alpha)
noncomputable def cb : ℝ := Real.cos (radians L.beta)
noncomputable def cg : ℝ := Real.cos (radians L.gamma)
noncomputable def sg : ℝ := Real.sin (radians L.gamma)
noncomputable def tg : ℝ := Real.tan (radians L.gamma)

/-- Direct metric tensor (unitcell.py:169-175). -/
noncomputable def dmt : M3 :=
  !![L.a ^ 2, L.a * L.b * L.cg, L.a * L.c * L.cb;
     L.a * L.b * L.cg, L.b ^ 2, L.b * L.c * L.ca;
     L.a * L.c * L.cb, L.b * L.c * L.ca, L.c ^ 2]

/-- Volume (unitcell.py:176); the warning for small volumes is left out. -/
noncomputable def vol : ℝ := Real.sqrt L.dmt.det

/-- Reciprocal metric tensor (unitcell.py:184). -/
noncomputable def rmt : M3 := L.dmt⁻¹

/-- `constants.sqrt_epsf` (constants.py:66-68), the square root of 2^-52. -/
noncomputable def eps : ℝ := 1 / 2 ^ 26

/-- `m[np.abs(m) < eps] = 0.0` -/
noncomputable def clip (m : M3) : M3 := fun i j => if |m i j| < eps then 0 else m i j

/-- Direct structure matrix before small entries are cleared (unitcell.py:189-195). -/
noncomputable def dsm0 : M3 :=
  !![L.a, L.b * L.cg, L.c * L.cb;
     0, L.b * L.sg, -L.c * (L.cb * L.cg - L.ca) / L.sg;
     0, 0, L.vol / (L.a * L.b * L.sg)]

/-- Direct structure matrix (unitcell.py:189-197). -/
noncomputable def dsm : M3 := clip L.dsm0

/-- Reciprocal structure matrix before small entries are cleared (unitcell.py:202-212). At
a right angle the tangent is 0 here and a huge number in the code; the quotient is then 0
here and cleared to 0 in the code. -/
noncomputable def rsm0 : M3 :=
  !![1 / L.a, 0, 0;
     -1 / (L.a * L.tg), 1 / (L.b * L.sg), 0;
     L.b * L.c * (L.cg * L.ca - L.cb) / (L.vol * L.sg), L.a * L.c * (L.cb * L.cg - L.ca) / (L.vol * L.sg),
       L.a * L.b * L.sg / L.vol]

/-- Reciprocal structure matrix (unitcell.py:202-214). -/
noncomputable def rsm : M3 := clip L.rsm0

end Cell

/-- The spaces `'d'`, `'r'`, `'c'`. -/
inductive Space
  | d | r | c
deriving DecidableEq, Repr

/-- `TransSpace` (unitcell.py:231-261). The error branches for unknown letters cannot be
written here. -/
noncomputable def transSpace (L : Cell) (v : V3) (inspace outspace : Space) : V3 :=
  if inspace = outspace then v
  else match inspace, outspace with
    | .d, .r => v ᵥ* L.dmt
    | .d, .c => L.dsm *ᵥ v
    | .r, .d => v ᵥ* L.rmt
    | .r, .c => L.rsm *ᵥ v
    | .c, .r => v ᵥ* L.dsm
    | .c, .d => v ᵥ* L.rsm
    | _, _ => v

/-- The metric used in a space (unitcell.py:277-289). -/
noncomputable def metric (L : Cell) : Space → M3
  | .d => L.dmt
  | .r => L.rmt
  | .c => 1

/-- `CalcDot` (unitcell.py:265-275). -/
noncomputable def calcDot (L : Cell) (u v : V3) (s : Space) : ℝ :=
  match s with
  | .c => u ⬝ᵥ v
  | s => u ⬝ᵥ (metric L s *ᵥ v)

/-- `CalcLength` (unitcell.py:277-291 with `_calclength` 31-32). -/
noncomputable def calcLength (L : Cell) (u : V3) (s : Space) : ℝ := Real.sqrt (u ⬝ᵥ (metric L s *ᵥ u))

/-- Vector product of the components (unitcell.py:332-338). -/
def cross (p q : V3) : V3 := ![p 1 * q 2 - p 2 * q 1, p 2 * q 0 - p 0 * q 2, p 0 * q 1 - p 1 * q 0]

/-- `CalcCross` (unitcell.py:325-389). -/
noncomputable def calcCross (L : Cell) (p q : V3) (inspace outspace : Space) (volDivide : Bool) : V3 :=
  let vol := if volDivide then L.vol else 1
  let pxq := cross p q
  match inspace with
  | .d =>
    let pxq := vol • pxq
    match outspace with
    | .r => pxq
    | .d => transSpace L pxq .r .d
    | .c => transSpace L pxq .r .c
  | .r =>
    let pxq := vol⁻¹ • pxq
    match outspace with
    | .r => transSpace L pxq .d .r
    | .d => pxq
    | .c => transSpace L pxq .d .c
  | .c =>
    match outspace with
    | .r => transSpace L pxq .c .r
    | .d => transSpace L pxq .c .d
    | .c => pxq

/-- An integer matrix as a real one. -/
def toReal (m : Mat) : M3 := !![(m.a : ℝ), m.b, m.c; m.d, m.e, m.f; m.g, m.h, m.i]

/-- `np.round`: to the nearest integer, halves to the even one. -/
noncomputable def npRound (x : ℝ) : Int :=
  if Int.fract x < 1 / 2 then ⌊x⌋
  else if Int.fract x = 1 / 2 then (if ⌊x⌋ % 2 = 0 then ⌊x⌋ else ⌊x⌋ + 1)
  else ⌊x⌋ + 1

/-- Rounding a matrix to integers (unitcell.py:401, 407, 410-411). -/
noncomputable def roundMat (m : M3) : Mat :=
  ⟨npRound (m 0 0), npRound (m 0 1), npRound (m 0 2), npRound (m 1 0), npRound (m 1 1), npRound (m 1 2),
   npRound (m 2 0), npRound (m 2 1), npRound (m 2 2)⟩

/-- `GenerateRecipPGSym` (unitcell.py:391-411) for one list of rotations: the first, the
identity, is kept, the others are conjugated by the metric and rounded. -/
noncomputable def recipSym (L : Cell) : List Mat → List Mat
  | [] => []
  | g :: gs => g :: gs.map fun g => roundMat (L.dmt * (toReal g * L.rmt))

/-- One operator in the Cartesian frame (unitcell.py:424-427, 433-435). -/
noncomputable def cartSym (L : Cell) (g : Mat) : M3 := Cell.clip (L.dsm * (toReal g * L.rsmᵀ))

/-- `om` (unitcell.py:488, 503). -/
def om : M3 := !![1, 0, 0; 0, 0, 1; 0, -1, 0]

/-- `np.dot(om, np.dot(s, om.T))` (unitcell.py:491, 495). -/
def turn (s : M3) : M3 := om * (s * omᵀ)

/-- `SYM_PG_c` and `SYM_PG_c_laue` after `GenerateCartesianPGSym` (unitcell.py:413-497). If
the point group is its own Laue group, the two names denote the same array, and the loops
over both change it twice. The supergroups are left out. -/
noncomputable def cartSyms (L : Cell) (pointGroup laueGroup : PG) (lt : LatticeType) (pg laue : List Mat) :
    List M3 × List M3 :=
  if pointGroup = laueGroup then
    let c := pg.map (cartSym L)
    let c := if lt = .monoclinic then (c.map turn).map turn else c
    (c, c)
  else
    let c := pg.map (cartSym L)
    let cl := laue.map (cartSym L)
    if lt = .monoclinic then (c.map turn, cl.map turn) else (c, cl)

end Hexrd.UnitCell
