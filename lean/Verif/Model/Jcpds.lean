import Mathlib.Analysis.SpecialFunctions.Trigonometric.Basic
import Verif.Model.UnitCell

/-!
JCPDS cards (`hexrd/core/material/jcpds.py`).
-/

namespace Hexrd.Jcpds

/-- Names of symmetries; `manual` is the input of d spacings, `other` any other word or none. -/
inductive Sym | cubic | hexagonal | trigonal | tetragonal | orthorhombic | monoclinic | triclinic | manual | other
  deriving DecidableEq, Repr

/-- Lattice parameters: lengths and angles (degrees). -/
@[ext] structure Lat where
  a : ℝ
  b : ℝ
  c : ℝ
  al : ℝ
  be : ℝ
  ga : ℝ

/-- What is kept of a card. -/
structure Card where
  sym : Sym
  lat : Lat

/-- The symmetry of a crystal system in files of version 2, 3 and 4 (jcpds.py:59-75). Numbers outside 1..7 leave it empty. -/
def systemSym : ℕ → Sym
  | 1 => .cubic | 2 => .hexagonal | 3 => .tetragonal | 4 => .orthorhombic | 5 => .monoclinic | 6 => .triclinic | 7 => .manual
  | _ => .other

/-- The lattice parameters in files of version 2, 3 and 4 (jcpds.py:83-140), from the numbers of the line; `none` is an exception: a
missing number, or a crystal system outside 1..7. -/
def oldLat : ℕ → List ℝ → Option Lat
  | 1, a :: _ => some ⟨a, a, a, 90, 90, 90⟩
  | 7, a :: _ => some ⟨a, a, a, 90, 90, 90⟩
  | 2, a :: c :: _ => some ⟨a, a, c, 90, 90, 120⟩
  | 3, a :: c :: _ => some ⟨a, a, c, 90, 90, 90⟩
  | 4, a :: b :: c :: _ => some ⟨a, b, c, 90, 90, 90⟩
  | 5, a :: b :: c :: be :: _ => some ⟨a, b, c, 90, be, 90⟩
  | 6, a :: b :: c :: al :: be :: ga :: _ => some ⟨a, b, c, al, be, ga⟩
  | _, _ => none

/-- A card of version 2, 3 or 4 (jcpds.py:53-140). -/
def readOld (system : ℕ) (numbers : List ℝ) : Option Card := (oldLat system numbers).map fun l => ⟨systemSym system, l⟩

/-- A keyword line of a newer file that sets the symmetry or a lattice parameter (jcpds.py:185-210). -/
inductive Line
  | symmetry (s : Sym) | a (x : ℝ) | b (x : ℝ) | c (x : ℝ) | alpha (x : ℝ) | beta (x : ℝ) | gamma (x : ℝ) | other

/-- One line (jcpds.py:154-225). Lines that set nothing of the cell are `other`; blank lines, which are an
exception, do not occur. -/
def setLine (k : Card) : Line → Card
  | .symmetry s => { k with sym := s }
  | .a x => { k with lat := { k.lat with a := x } }
  | .b x => { k with lat := { k.lat with b := x } }
  | .c x => { k with lat := { k.lat with c := x } }
  | .alpha x => { k with lat := { k.lat with al := x } }
  | .beta x => { k with lat := { k.lat with be := x } }
  | .gamma x => { k with lat := { k.lat with ga := x } }
  | .other => k

/-- The parameters that follow from the symmetry (jcpds.py:227-256). -/
def complete (k : Card) : Card :=
  let l := k.lat
  { k with lat := match k.sym with
    | .cubic => ⟨l.a, l.a, l.a, 90, 90, 90⟩
    | .manual => ⟨l.a, l.a, l.a, 90, 90, 90⟩
    | .hexagonal => ⟨l.a, l.a, l.c, 90, 90, 120⟩
    | .trigonal => ⟨l.a, l.a, l.c, 90, 90, 120⟩
    | .tetragonal => ⟨l.a, l.a, l.c, 90, 90, 90⟩
    | .orthorhombic => ⟨l.a, l.b, l.c, 90, 90, 90⟩
    | .monoclinic => ⟨l.a, l.b, l.c, 90, l.be, 90⟩
    | .triclinic => l
    | .other => l }

/-- A newer card (jcpds.py:152-260), from the values of a fresh object (jcpds.py:7-12, 21). -/
def readNew (lines : List Line) : Card := complete (lines.foldl setLine ⟨.other, ⟨0, 0, 0, 0, 0, 0⟩⟩)

/-- `calc_volume_unitcell` (jcpds.py:311-322). -/
noncomputable def volume (l : Lat) : ℝ :=
  let ca := Real.cos (l.al * (Real.pi / 180))
  let cb := Real.cos (l.be * (Real.pi / 180))
  let cg := Real.cos (l.ga * (Real.pi / 180))
  l.a * l.b * l.c * √(1 - ca ^ 2 - cb ^ 2 - cg ^ 2 + 2 * ca * cb * cg)

/-- `matches_material` (jcpds.py:268-277, 287-292): an exception is `none`, a missing return value `some none`; `isClose` is `np.isclose`. -/
def matchesMaterial (isClose : ℝ → ℝ → Bool) (k : Card) (matSym : Sym) (mat : Lat) : Option (Option Bool) :=
  if matSym ≠ k.sym then none
  else
    let pairs := [(mat.a, k.lat.a), (mat.b, k.lat.b), (mat.c, k.lat.c), (mat.al, k.lat.al), (mat.be, k.lat.be), (mat.ga, k.lat.ga)]
    if pairs.any fun p => !isClose p.1 p.2 then some (some false) else some none

/-- The numbers that a lattice type leaves free, and the six numbers made of them: `_rqpDict` (unitcell.py:1764-1773). -/
def reduce : Sym → Lat → List ℝ
  | .triclinic, l => [l.a, l.b, l.c, l.al, l.be, l.ga]
  | .monoclinic, l => [l.a, l.b, l.c, l.be]
  | .orthorhombic, l => [l.a, l.b, l.c]
  | .cubic, l => [l.a]
  | .tetragonal, l => [l.a, l.c]
  | .trigonal, l => [l.a, l.c]
  | .hexagonal, l => [l.a, l.c]
  | _, _ => []

/-- See `reduce`; `none` is an exception. -/
def expand : Sym → List ℝ → Option Lat
  | .triclinic, [a, b, c, al, be, ga] => some ⟨a, b, c, al, be, ga⟩
  | .monoclinic, [a, b, c, be] => some ⟨a, b, c, 90, be, 90⟩
  | .orthorhombic, [a, b, c] => some ⟨a, b, c, 90, 90, 90⟩
  | .tetragonal, [a, c] => some ⟨a, a, c, 90, 90, 90⟩
  | .trigonal, [a, c] => some ⟨a, a, c, 90, 90, 120⟩
  | .hexagonal, [a, c] => some ⟨a, a, c, 90, 90, 120⟩
  | .cubic, [a] => some ⟨a, a, a, 90, 90, 90⟩
  | _, _ => none

/-- A material, as far as the card changes it: lattice type, lattice parameters and the volume at normal conditions. -/
structure Mat where
  sym : Sym
  lat : Lat
  v0 : ℝ

/-- `_reset_lparms` (material.py:241-259). -/
def resetLat (m : Mat) : Option Mat := (expand m.sym (reduce m.sym m.lat)).map fun l => { m with lat := l }

/-- `write_lattice_params_to_material` (jcpds.py:294-297, material.py:1288-1298, 345-346); `none` is an exception. The volume of the
material is that of its unit cell (unitcell.py:176), which is kept in other units there. -/
noncomputable def writeLat (k : Card) (m : Mat) : Option Mat :=
  if m.sym ≠ k.sym then none
  else
    let c : UnitCell.Cell := ⟨k.lat.a, k.lat.b, k.lat.c, k.lat.al, k.lat.be, k.lat.ga⟩
    some { m with lat := k.lat, v0 := c.vol }

end Hexrd.Jcpds
