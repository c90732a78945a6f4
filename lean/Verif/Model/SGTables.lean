import Verif.Model.Absences

/-!
# Model of the tables indexed by the space-group number
(`hexrd/core/material/spacegroup.py`, `unitcell.py`, `symmetry.py`, `symbols.py`,
`hexrd/core/rotations.py`)

Dictionaries are association lists in insertion order. Python strings naming point groups
and lattice types are constructors of `PG` and `LatticeType`; `none` is an exception.
-/
namespace Hexrd.SpaceGroup

/-- The Schoenflies symbols used in `_pgDict` (spacegroup.py:299-332). -/
inductive PG
  | c1 | ci | c2 | cs | c2h | d2 | c2v | d2h | c4 | s4 | c4h | d4 | c4v | d2d | d4h
  | c3 | s6 | d3 | c3v | d3d | c6 | c3h | c6h | d6 | c6v | d3h | d6h | t | th | o | td | oh
deriving DecidableEq, Repr

/-- `_sgrange` (spacegroup.py:295-296, unitcell.py:1812-1813): `range(min, max + 1)`. -/
structure SGRange where
  min : Int
  max : Int
deriving DecidableEq, Repr

/-- `v in k` for a range `k`. -/
def SGRange.has (k : SGRange) (v : Int) : Bool := decide (k.min ≤ v) && decide (v ≤ k.max)

/-- `_pgDict` of spacegroup.py:299-332: point group and Laue group. -/
def pgDictSG : List (SGRange × PG × PG) := [
  (⟨1, 1⟩, .c1, .ci),
  (⟨2, 2⟩, .ci, .ci),
  (⟨3, 5⟩, .c2, .c2h),
  (⟨6, 9⟩, .cs, .c2h),
  (⟨10, 15⟩, .c2h, .c2h),
  (⟨16, 24⟩, .d2, .d2h),
  (⟨25, 46⟩, .c2v, .d2h),
  (⟨47, 74⟩, .d2h, .d2h),
  (⟨75, 80⟩, .c4, .c4h),
  (⟨81, 82⟩, .s4, .c4h),
  (⟨83, 88⟩, .c4h, .c4h),
  (⟨89, 98⟩, .d4, .d4h),
  (⟨99, 110⟩, .c4v, .d4h),
  (⟨111, 122⟩, .d2d, .d4h),
  (⟨123, 142⟩, .d4h, .d4h),
  (⟨143, 146⟩, .c3, .s6),
  (⟨147, 148⟩, .s6, .s6),
  (⟨149, 155⟩, .d3, .d3d),
  (⟨156, 161⟩, .c3v, .d3d),
  (⟨162, 167⟩, .d3d, .d3d),
  (⟨168, 173⟩, .c6, .c6h),
  (⟨174, 174⟩, .c3h, .c6h),
  (⟨175, 176⟩, .c6h, .c6h),
  (⟨177, 182⟩, .d6, .d6h),
  (⟨183, 186⟩, .c6v, .d6h),
  (⟨187, 190⟩, .d3h, .d6h),
  (⟨191, 194⟩, .d6h, .d6h),
  (⟨195, 199⟩, .t, .th),
  (⟨200, 206⟩, .th, .th),
  (⟨207, 214⟩, .o, .oh),
  (⟨215, 220⟩, .td, .oh),
  (⟨221, 230⟩, .oh, .oh)]

/-- `_pgDict` of unitcell.py:1820-1874: point group, Laue group, supergroup of each. -/
def pgDictUC : List (SGRange × PG × PG × PG × PG) := [
  (⟨1, 1⟩, .c1, .ci, .cs, .c1),
  (⟨2, 2⟩, .ci, .ci, .c1, .c1),
  (⟨3, 5⟩, .c2, .c2h, .c2v, .d2h),
  (⟨6, 9⟩, .cs, .c2h, .cs, .d2h),
  (⟨10, 15⟩, .c2h, .c2h, .d2h, .d2h),
  (⟨16, 24⟩, .d2, .d2h, .d2h, .d2h),
  (⟨25, 46⟩, .c2v, .d2h, .c2v, .d2h),
  (⟨47, 74⟩, .d2h, .d2h, .d2h, .d2h),
  (⟨75, 80⟩, .c4, .c4h, .c4v, .d4h),
  (⟨81, 82⟩, .s4, .c4h, .c4, .d4h),
  (⟨83, 88⟩, .c4h, .c4h, .d4h, .d4h),
  (⟨89, 98⟩, .d4, .d4h, .d4h, .d4h),
  (⟨99, 110⟩, .c4v, .d4h, .c4v, .d4h),
  (⟨111, 122⟩, .d2d, .d4h, .d4h, .d4h),
  (⟨123, 142⟩, .d4h, .d4h, .d4h, .d4h),
  (⟨143, 146⟩, .c3, .s6, .c3v, .c3),
  (⟨147, 148⟩, .s6, .s6, .c3, .c3),
  (⟨149, 155⟩, .d3, .d3d, .c6v, .d6h),
  (⟨156, 161⟩, .c3v, .d3d, .c3v, .d6h),
  (⟨162, 167⟩, .d3d, .d3d, .d6h, .d6h),
  (⟨168, 173⟩, .c6, .c6h, .c6v, .d6h),
  (⟨174, 174⟩, .c3h, .c6h, .c6v, .d6h),
  (⟨175, 176⟩, .c6h, .c6h, .d6h, .d6h),
  (⟨177, 182⟩, .d6, .d6h, .d6h, .d6h),
  (⟨183, 186⟩, .c6v, .d6h, .c6v, .d6h),
  (⟨187, 190⟩, .d3h, .d6h, .d6h, .d6h),
  (⟨191, 194⟩, .d6h, .d6h, .d6h, .d6h),
  (⟨195, 199⟩, .t, .th, .td, .oh),
  (⟨200, 206⟩, .th, .th, .oh, .oh),
  (⟨207, 214⟩, .o, .oh, .oh, .oh),
  (⟨215, 220⟩, .td, .oh, .td, .oh),
  (⟨221, 230⟩, .oh, .oh, .oh, .oh)]

/-- The loops over the keys (spacegroup.py:136-140, unitcell.py:124-130): every key
containing the number assigns, so the last one wins. -/
def lookupRange {α : Type} (d : List (SGRange × α)) (v : Int) : Option α :=
  d.foldl (fun acc e => if e.1.has v then some e.2 else acc) none

/-- `_ltDict` (spacegroup.py:347-359); the keys are the eleven Laue groups. -/
def ltDict : List (PG × LatticeType) := [
  (.ci, .triclinic), (.c2h, .monoclinic), (.d2h, .orthorhombic), (.c4h, .tetragonal), (.d4h, .tetragonal),
  (.s6, .trigonal), (.d3d, .trigonal), (.c6h, .hexagonal), (.d6h, .hexagonal), (.th, .cubic), (.oh, .cubic)]

/-- `ltypeOfLaueGroup` (rotations.py:1295-1339) on the symbols above; the aliases `s2`,
`vh`, `c3i` and upper case are not modelled. -/
def ltypeOfLaueGroup (tag : PG) : Option LatticeType :=
  if tag = .ci then some .triclinic
  else if tag = .c2h then some .monoclinic
  else if tag = .d2h then some .orthorhombic
  else if tag = .c4h ∨ tag = .d4h then some .tetragonal
  else if tag = .s6 ∨ tag = .d3d then some .trigonal
  else if tag = .c6h ∨ tag = .d6h then some .hexagonal
  else if tag = .th ∨ tag = .oh then some .cubic
  else none

/-- `symmetry.latticeType` (symmetry.py:293-310) on Python integers. -/
def latticeTypeZ (sgnum : Int) : Option LatticeType :=
  if sgnum ≤ 2 then some .triclinic
  else if 2 < sgnum ∧ sgnum ≤ 15 then some .monoclinic
  else if 15 < sgnum ∧ sgnum ≤ 74 then some .orthorhombic
  else if 74 < sgnum ∧ sgnum ≤ 142 then some .tetragonal
  else if 142 < sgnum ∧ sgnum ≤ 167 then some .trigonal
  else if 167 < sgnum ∧ sgnum ≤ 194 then some .hexagonal
  else if 194 < sgnum ∧ sgnum ≤ 230 then some .cubic
  else none

/-- `xtal_sys_dict` (symbols.py:127-135). -/
def xtalSys : LatticeType → Nat
  | .cubic => 1
  | .tetragonal => 2
  | .orthorhombic => 3
  | .hexagonal => 4
  | .trigonal => 5
  | .monoclinic => 6
  | .triclinic => 7

/-- `xtal_dict` (symbols.py:118-126). -/
def xtalDict : Nat → Option LatticeType
  | 1 => some .cubic
  | 2 => some .tetragonal
  | 3 => some .orthorhombic
  | 4 => some .hexagonal
  | 5 => some .trigonal
  | 6 => some .monoclinic
  | 7 => some .triclinic
  | _ => none

/-- `HALL_STR` (symbols.py:239-770), already split: number before the colon and the rest of the line
(`_buildDict`, spacegroup.py:222-230). -/
def hallStr : List (Nat × List Char) := [
  (1, ['P',' ','1']),
  (2, ['-','P',' ','1']),
  (3, ['P',' ','2','y']),
  (3, ['P',' ','2']),
  (3, ['P',' ','2','x']),
  (4, ['P',' ','2','y','b']),
  (4, ['P',' ','2','c']),
  (4, ['P',' ','2','x','a']),
  (5, ['C',' ','2','y']),
  (5, ['A',' ','2','y']),
  (5, ['I',' ','2','y']),
  (5, ['A',' ','2']),
  (5, ['B',' ','2']),
  (5, ['I',' ','2']),
  (5, ['B',' ','2','x']),
  (5, ['C',' ','2','x']),
  (5, ['I',' ','2','x']),
  (6, ['P',' ','-','2','y']),
  (6, ['P',' ','-','2']),
  (6, ['P',' ','-','2','x']),
  (7, ['P',' ','-','2','y','c']),
  (7, ['P',' ','-','2','y','a','c']),
  (7, ['P',' ','-','2','y','a']),
  (7, ['P',' ','-','2','a']),
  (7, ['P',' ','-','2','a','b']),
  (7, ['P',' ','-','2','b']),
  (7, ['P',' ','-','2','x','b']),
  (7, ['P',' ','-','2','x','b','c']),
  (7, ['P',' ','-','2','x','c']),
  (8, ['C',' ','-','2','y']),
  (8, ['A',' ','-','2','y']),
  (8, ['I',' ','-','2','y']),
  (8, ['A',' ','-','2']),
  (8, ['B',' ','-','2']),
  (8, ['I',' ','-','2']),
  (8, ['B',' ','-','2','x']),
  (8, ['C',' ','-','2','x']),
  (8, ['I',' ','-','2','x']),
  (9, ['C',' ','-','2','y','c']),
  (9, ['A',' ','-','2','y','a','c']),
  (9, ['I',' ','-','2','y','a']),
  (9, ['A',' ','-','2','y','a']),
  (9, ['C',' ','-','2','y','b','c']),
  (9, ['I',' ','-','2','y','c']),
  (9, ['A',' ','-','2','a']),
  (9, ['B',' ','-','2','b','c']),
  (9, ['I',' ','-','2','b']),
  (9, ['B',' ','-','2','b']),
  (9, ['A',' ','-','2','a','c']),
  (9, ['I',' ','-','2','a']),
  (9, ['B',' ','-','2','x','b']),
  (9, ['C',' ','-','2','x','b','c']),
  (9, ['I',' ','-','2','x','c']),
  (9, ['C',' ','-','2','x','c']),
  (9, ['B',' ','-','2','x','b','c']),
  (9, ['I',' ','-','2','x','b']),
  (10, ['-','P',' ','2','y']),
  (10, ['-','P',' ','2']),
  (10, ['-','P',' ','2','x']),
  (11, ['-','P',' ','2','y','b']),
  (11, ['-','P',' ','2','c']),
  (11, ['-','P',' ','2','x','a']),
  (12, ['-','C',' ','2','y']),
  (12, ['-','A',' ','2','y']),
  (12, ['-','I',' ','2','y']),
  (12, ['-','A',' ','2']),
  (12, ['-','B',' ','2']),
  (12, ['-','I',' ','2']),
  (12, ['-','B',' ','2','x']),
  (12, ['-','C',' ','2','x']),
  (12, ['-','I',' ','2','x']),
  (13, ['-','P',' ','2','y','c']),
  (13, ['-','P',' ','2','y','a','c']),
  (13, ['-','P',' ','2','y','a']),
  (13, ['-','P',' ','2','a']),
  (13, ['-','P',' ','2','a','b']),
  (13, ['-','P',' ','2','b']),
  (13, ['-','P',' ','2','x','b']),
  (13, ['-','P',' ','2','x','b','c']),
  (13, ['-','P',' ','2','x','c']),
  (14, ['-','P',' ','2','y','b','c']),
  (14, ['-','P',' ','2','y','n']),
  (14, ['-','P',' ','2','y','a','b']),
  (14, ['-','P',' ','2','a','c']),
  (14, ['-','P',' ','2','n']),
  (14, ['-','P',' ','2','b','c']),
  (14, ['-','P',' ','2','x','a','b']),
  (14, ['-','P',' ','2','x','n']),
  (14, ['-','P',' ','2','x','a','c']),
  (15, ['-','C',' ','2','y','c']),
  (15, ['-','A',' ','2','y','a','c']),
  (15, ['-','I',' ','2','y','a']),
  (15, ['-','A',' ','2','y','a']),
  (15, ['-','C',' ','2','y','b','c']),
  (15, ['-','I',' ','2','y','c']),
  (15, ['-','A',' ','2','a']),
  (15, ['-','B',' ','2','b','c']),
  (15, ['-','I',' ','2','b']),
  (15, ['-','B',' ','2','b']),
  (15, ['-','A',' ','2','a','c']),
  (15, ['-','I',' ','2','a']),
  (15, ['-','B',' ','2','x','b']),
  (15, ['-','C',' ','2','x','b','c']),
  (15, ['-','I',' ','2','x','c']),
  (15, ['-','C',' ','2','x','c']),
  (15, ['-','B',' ','2','x','b','c']),
  (15, ['-','I',' ','2','x','b']),
  (16, ['P',' ','2',' ','2']),
  (17, ['P',' ','2','c',' ','2']),
  (17, ['P',' ','2','a',' ','2','a']),
  (17, ['P',' ','2',' ','2','b']),
  (18, ['P',' ','2',' ','2','a','b']),
  (18, ['P',' ','2','b','c',' ','2']),
  (18, ['P',' ','2','a','c',' ','2','a','c']),
  (19, ['P',' ','2','a','c',' ','2','a','b']),
  (20, ['C',' ','2','c',' ','2']),
  (20, ['A',' ','2','a',' ','2','a']),
  (20, ['B',' ','2',' ','2','b']),
  (21, ['C',' ','2',' ','2']),
  (21, ['A',' ','2',' ','2']),
  (21, ['B',' ','2',' ','2']),
  (22, ['F',' ','2',' ','2']),
  (23, ['I',' ','2',' ','2']),
  (24, ['I',' ','2','b',' ','2','c']),
  (25, ['P',' ','2',' ','-','2']),
  (25, ['P',' ','-','2',' ','2']),
  (25, ['P',' ','-','2',' ','-','2']),
  (26, ['P',' ','2','c',' ','-','2']),
  (26, ['P',' ','2','c',' ','-','2','c']),
  (26, ['P',' ','-','2','a',' ','2','a']),
  (26, ['P',' ','-','2',' ','2','a']),
  (26, ['P',' ','-','2',' ','-','2','b']),
  (26, ['P',' ','-','2','b',' ','-','2']),
  (27, ['P',' ','2',' ','-','2','c']),
  (27, ['P',' ','-','2','a',' ','2']),
  (27, ['P',' ','-','2','b',' ','-','2','b']),
  (28, ['P',' ','2',' ','-','2','a']),
  (28, ['P',' ','2',' ','-','2','b']),
  (28, ['P',' ','-','2','b',' ','2']),
  (28, ['P',' ','-','2','c',' ','2']),
  (28, ['P',' ','-','2','c',' ','-','2','c']),
  (28, ['P',' ','-','2','a',' ','-','2','a']),
  (29, ['P',' ','2','c',' ','-','2','a','c']),
  (29, ['P',' ','2','c',' ','-','2','b']),
  (29, ['P',' ','-','2','b',' ','2','a']),
  (29, ['P',' ','-','2','a','c',' ','2','a']),
  (29, ['P',' ','-','2','b','c',' ','-','2','c']),
  (29, ['P',' ','-','2','a',' ','-','2','a','b']),
  (30, ['P',' ','2',' ','-','2','b','c']),
  (30, ['P',' ','2',' ','-','2','a','c']),
  (30, ['P',' ','-','2','a','c',' ','2']),
  (30, ['P',' ','-','2','a','b',' ','2']),
  (30, ['P',' ','-','2','a','b',' ','-','2','a','b']),
  (30, ['P',' ','-','2','b','c',' ','-','2','b','c']),
  (31, ['P',' ','2','a','c',' ','-','2']),
  (31, ['P',' ','2','b','c',' ','-','2','b','c']),
  (31, ['P',' ','-','2','a','b',' ','2','a','b']),
  (31, ['P',' ','-','2',' ','2','a','c']),
  (31, ['P',' ','-','2',' ','-','2','b','c']),
  (31, ['P',' ','-','2','a','b',' ','-','2']),
  (32, ['P',' ','2',' ','-','2','a','b']),
  (32, ['P',' ','-','2','b','c',' ','2']),
  (32, ['P',' ','-','2','a','c',' ','-','2','a','c']),
  (33, ['P',' ','2','c',' ','-','2','n']),
  (33, ['P',' ','2','c',' ','-','2','a','b']),
  (33, ['P',' ','-','2','b','c',' ','2','a']),
  (33, ['P',' ','-','2','n',' ','2','a']),
  (33, ['P',' ','-','2','n',' ','-','2','a','c']),
  (33, ['P',' ','-','2','a','c',' ','-','2','n']),
  (34, ['P',' ','2',' ','-','2','n']),
  (34, ['P',' ','-','2','n',' ','2']),
  (34, ['P',' ','-','2','n',' ','-','2','n']),
  (35, ['C',' ','2',' ','-','2']),
  (35, ['A',' ','-','2',' ','2']),
  (35, ['B',' ','-','2',' ','-','2']),
  (36, ['C',' ','2','c',' ','-','2']),
  (36, ['C',' ','2','c',' ','-','2','c']),
  (36, ['A',' ','-','2','a',' ','2','a']),
  (36, ['A',' ','-','2',' ','2','a']),
  (36, ['B',' ','-','2',' ','-','2','b']),
  (36, ['B',' ','-','2','b',' ','-','2']),
  (37, ['C',' ','2',' ','-','2','c']),
  (37, ['A',' ','-','2','a',' ','2']),
  (37, ['B',' ','-','2','b',' ','-','2','b']),
  (38, ['A',' ','2',' ','-','2']),
  (38, ['B',' ','2',' ','-','2']),
  (38, ['B',' ','-','2',' ','2']),
  (38, ['C',' ','-','2',' ','2']),
  (38, ['C',' ','-','2',' ','-','2']),
  (38, ['A',' ','-','2',' ','-','2']),
  (39, ['A',' ','2',' ','-','2','c']),
  (39, ['B',' ','2',' ','-','2','c']),
  (39, ['B',' ','-','2','c',' ','2']),
  (39, ['C',' ','-','2','b',' ','2']),
  (39, ['C',' ','-','2','b',' ','-','2','b']),
  (39, ['A',' ','-','2','c',' ','-','2','c']),
  (40, ['A',' ','2',' ','-','2','a']),
  (40, ['B',' ','2',' ','-','2','b']),
  (40, ['B',' ','-','2','b',' ','2']),
  (40, ['C',' ','-','2','c',' ','2']),
  (40, ['C',' ','-','2','c',' ','-','2','c']),
  (40, ['A',' ','-','2','a',' ','-','2','a']),
  (41, ['A',' ','2',' ','-','2','a','c']),
  (41, ['B',' ','2',' ','-','2','b','c']),
  (41, ['B',' ','-','2','b','c',' ','2']),
  (41, ['C',' ','-','2','b','c',' ','2']),
  (41, ['C',' ','-','2','b','c',' ','-','2','b','c']),
  (41, ['A',' ','-','2','a','c',' ','-','2','a','c']),
  (42, ['F',' ','2',' ','-','2']),
  (42, ['F',' ','-','2',' ','2']),
  (42, ['F',' ','-','2',' ','-','2']),
  (43, ['F',' ','2',' ','-','2','d']),
  (43, ['F',' ','-','2','d',' ','2']),
  (43, ['F',' ','-','2','d',' ','-','2','d']),
  (44, ['I',' ','2',' ','-','2']),
  (44, ['I',' ','-','2',' ','2']),
  (44, ['I',' ','-','2',' ','-','2']),
  (45, ['I',' ','2',' ','-','2','c']),
  (45, ['I',' ','-','2','a',' ','2']),
  (45, ['I',' ','-','2','b',' ','-','2','b']),
  (46, ['I',' ','2',' ','-','2','a']),
  (46, ['I',' ','2',' ','-','2','b']),
  (46, ['I',' ','-','2','b',' ','2']),
  (46, ['I',' ','-','2','c',' ','2']),
  (46, ['I',' ','-','2','c',' ','-','2','c']),
  (46, ['I',' ','-','2','a',' ','-','2','a']),
  (47, ['-','P',' ','2',' ','2']),
  (48, ['P',' ','2',' ','2',' ','-','1','n']),
  (48, ['-','P',' ','2','a','b',' ','2','b','c']),
  (49, ['-','P',' ','2',' ','2','c']),
  (49, ['-','P',' ','2','a',' ','2']),
  (49, ['-','P',' ','2','b',' ','2','b']),
  (50, ['P',' ','2',' ','2',' ','-','1','a','b']),
  (50, ['-','P',' ','2','a','b',' ','2','b']),
  (50, ['P',' ','2',' ','2',' ','-','1','b','c']),
  (50, ['-','P',' ','2','b',' ','2','b','c']),
  (50, ['P',' ','2',' ','2',' ','-','1','a','c']),
  (50, ['-','P',' ','2','a',' ','2','c']),
  (51, ['-','P',' ','2','a',' ','2','a']),
  (51, ['-','P',' ','2','b',' ','2']),
  (51, ['-','P',' ','2',' ','2','b']),
  (51, ['-','P',' ','2','c',' ','2','c']),
  (51, ['-','P',' ','2','c',' ','2']),
  (51, ['-','P',' ','2',' ','2','a']),
  (52, ['-','P',' ','2','a',' ','2','b','c']),
  (52, ['-','P',' ','2','b',' ','2','n']),
  (52, ['-','P',' ','2','n',' ','2','b']),
  (52, ['-','P',' ','2','a','b',' ','2','c']),
  (52, ['-','P',' ','2','a','b',' ','2','n']),
  (52, ['-','P',' ','2','n',' ','2','b','c']),
  (53, ['-','P',' ','2','a','c',' ','2']),
  (53, ['-','P',' ','2','b','c',' ','2','b','c']),
  (53, ['-','P',' ','2','a','b',' ','2','a','b']),
  (53, ['-','P',' ','2',' ','2','a','c']),
  (53, ['-','P',' ','2',' ','2','b','c']),
  (53, ['-','P',' ','2','a','b',' ','2']),
  (54, ['-','P',' ','2','a',' ','2','a','c']),
  (54, ['-','P',' ','2','b',' ','2','c']),
  (54, ['-','P',' ','2','a',' ','2','b']),
  (54, ['-','P',' ','2','a','c',' ','2','c']),
  (54, ['-','P',' ','2','b','c',' ','2','b']),
  (54, ['-','P',' ','2','b',' ','2','a','b']),
  (55, ['-','P',' ','2',' ','2','a','b']),
  (55, ['-','P',' ','2','b','c',' ','2']),
  (55, ['-','P',' ','2','a','c',' ','2','a','c']),
  (56, ['-','P',' ','2','a','b',' ','2','a','c']),
  (56, ['-','P',' ','2','a','c',' ','2','b','c']),
  (56, ['-','P',' ','2','b','c',' ','2','a','b']),
  (57, ['-','P',' ','2','c',' ','2','b']),
  (57, ['-','P',' ','2','c',' ','2','a','c']),
  (57, ['-','P',' ','2','a','c',' ','2','a']),
  (57, ['-','P',' ','2','b',' ','2','a']),
  (57, ['-','P',' ','2','a',' ','2','a','b']),
  (57, ['-','P',' ','2','b','c',' ','2','c']),
  (58, ['-','P',' ','2',' ','2','n']),
  (58, ['-','P',' ','2','n',' ','2']),
  (58, ['-','P',' ','2','n',' ','2','n']),
  (59, ['P',' ','2',' ','2','a','b',' ','-','1','a','b']),
  (59, ['-','P',' ','2','a','b',' ','2','a']),
  (59, ['P',' ','2','b','c',' ','2',' ','-','1','b','c']),
  (59, ['-','P',' ','2','c',' ','2','b','c']),
  (59, ['P',' ','2','a','c',' ','2','a','c',' ','-','1','a','c']),
  (59, ['-','P',' ','2','c',' ','2','a']),
  (60, ['-','P',' ','2','n',' ','2','a','b']),
  (60, ['-','P',' ','2','n',' ','2','c']),
  (60, ['-','P',' ','2','a',' ','2','n']),
  (60, ['-','P',' ','2','b','c',' ','2','n']),
  (60, ['-','P',' ','2','a','c',' ','2','b']),
  (60, ['-','P',' ','2','b',' ','2','a','c']),
  (61, ['-','P',' ','2','a','c',' ','2','a','b']),
  (61, ['-','P',' ','2','b','c',' ','2','a','c']),
  (62, ['-','P',' ','2','a','c',' ','2','n']),
  (62, ['-','P',' ','2','b','c',' ','2','a']),
  (62, ['-','P',' ','2','c',' ','2','a','b']),
  (62, ['-','P',' ','2','n',' ','2','a','c']),
  (62, ['-','P',' ','2','n',' ','2','a']),
  (62, ['-','P',' ','2','c',' ','2','n']),
  (63, ['-','C',' ','2','c',' ','2']),
  (63, ['-','C',' ','2','c',' ','2','c']),
  (63, ['-','A',' ','2','a',' ','2','a']),
  (63, ['-','A',' ','2',' ','2','a']),
  (63, ['-','B',' ','2',' ','2','b']),
  (63, ['-','B',' ','2','b',' ','2']),
  (64, ['-','C',' ','2','b','c',' ','2']),
  (64, ['-','C',' ','2','b','c',' ','2','b','c']),
  (64, ['-','A',' ','2','a','c',' ','2','a','c']),
  (64, ['-','A',' ','2',' ','2','a','c']),
  (64, ['-','B',' ','2',' ','2','b','c']),
  (64, ['-','B',' ','2','b','c',' ','2']),
  (65, ['-','C',' ','2',' ','2']),
  (65, ['-','A',' ','2',' ','2']),
  (65, ['-','B',' ','2',' ','2']),
  (66, ['-','C',' ','2',' ','2','c']),
  (66, ['-','A',' ','2','a',' ','2']),
  (66, ['-','B',' ','2','b',' ','2','b']),
  (67, ['-','C',' ','2','b',' ','2']),
  (67, ['-','C',' ','2','b',' ','2','b']),
  (67, ['-','A',' ','2','c',' ','2','c']),
  (67, ['-','A',' ','2',' ','2','c']),
  (67, ['-','B',' ','2',' ','2','c']),
  (67, ['-','B',' ','2','c',' ','2']),
  (68, ['C',' ','2',' ','2',' ','-','1','b','c']),
  (68, ['-','C',' ','2','b',' ','2','b','c']),
  (68, ['C',' ','2',' ','2',' ','-','1','b','c']),
  (68, ['-','C',' ','2','b',' ','2','c']),
  (68, ['A',' ','2',' ','2',' ','-','1','a','c']),
  (68, ['-','A',' ','2','a',' ','2','c']),
  (68, ['A',' ','2',' ','2',' ','-','1','a','c']),
  (68, ['-','A',' ','2','a','c',' ','2','c']),
  (68, ['B',' ','2',' ','2',' ','-','1','b','c']),
  (68, ['-','B',' ','2','b','c',' ','2','b']),
  (68, ['B',' ','2',' ','2',' ','-','1','b','c']),
  (68, ['-','B',' ','2','b',' ','2','b','c']),
  (69, ['-','F',' ','2',' ','2']),
  (70, ['F',' ','2',' ','2',' ','-','1','d']),
  (70, ['-','F',' ','2','u','v',' ','2','v','w']),
  (71, ['-','I',' ','2',' ','2']),
  (72, ['-','I',' ','2',' ','2','c']),
  (72, ['-','I',' ','2','a',' ','2']),
  (72, ['-','I',' ','2','b',' ','2','b']),
  (73, ['-','I',' ','2','b',' ','2','c']),
  (73, ['-','I',' ','2','a',' ','2','b']),
  (74, ['-','I',' ','2','b',' ','2']),
  (74, ['-','I',' ','2','a',' ','2','a']),
  (74, ['-','I',' ','2','c',' ','2','c']),
  (74, ['-','I',' ','2',' ','2','b']),
  (74, ['-','I',' ','2',' ','2','a']),
  (74, ['-','I',' ','2','c',' ','2']),
  (75, ['P',' ','4']),
  (76, ['P',' ','4','w']),
  (77, ['P',' ','4','c']),
  (78, ['P',' ','4','c','w']),
  (79, ['I',' ','4']),
  (80, ['I',' ','4','b','w']),
  (81, ['P',' ','-','4']),
  (82, ['I',' ','-','4']),
  (83, ['-','P',' ','4']),
  (84, ['-','P',' ','4','c']),
  (85, ['P',' ','4','a','b',' ','-','1','a','b']),
  (85, ['-','P',' ','4','a']),
  (86, ['P',' ','4','n',' ','-','1','n']),
  (86, ['-','P',' ','4','b','c']),
  (87, ['-','I',' ','4']),
  (88, ['I',' ','4','b','w',' ','-','1','b','w']),
  (88, ['-','I',' ','4','a','d']),
  (89, ['P',' ','4',' ','2']),
  (90, ['P',' ','4','a','b',' ','2','a','b']),
  (91, ['P',' ','4','w',' ','2','c']),
  (92, ['P',' ','4','a','b','w',' ','2','n','w']),
  (93, ['P',' ','4','c',' ','2']),
  (94, ['P',' ','4','n',' ','2','n']),
  (95, ['P',' ','4','c','w',' ','2','c']),
  (96, ['P',' ','4','n','w',' ','2','a','b','w']),
  (97, ['I',' ','4',' ','2']),
  (98, ['I',' ','4','b','w',' ','2','b','w']),
  (99, ['P',' ','4',' ','-','2']),
  (100, ['P',' ','4',' ','-','2','a','b']),
  (101, ['P',' ','4','c',' ','-','2','c']),
  (102, ['P',' ','4','n',' ','-','2','n']),
  (103, ['P',' ','4',' ','-','2','c']),
  (104, ['P',' ','4',' ','-','2','n']),
  (105, ['P',' ','4','c',' ','-','2']),
  (106, ['P',' ','4','c',' ','-','2','a','b']),
  (107, ['I',' ','4',' ','-','2']),
  (108, ['I',' ','4',' ','-','2','c']),
  (109, ['I',' ','4','b','w',' ','-','2']),
  (110, ['I',' ','4','b','w',' ','-','2','c']),
  (111, ['P',' ','-','4',' ','2']),
  (112, ['P',' ','-','4',' ','2','c']),
  (113, ['P',' ','-','4',' ','2','a','b']),
  (114, ['P',' ','-','4',' ','2','n']),
  (115, ['P',' ','-','4',' ','-','2']),
  (116, ['P',' ','-','4',' ','-','2','c']),
  (117, ['P',' ','-','4',' ','-','2','a','b']),
  (118, ['P',' ','-','4',' ','-','2','n']),
  (119, ['I',' ','-','4',' ','-','2']),
  (120, ['I',' ','-','4',' ','-','2','c']),
  (121, ['I',' ','-','4',' ','2']),
  (122, ['I',' ','-','4',' ','2','b','w']),
  (123, ['-','P',' ','4',' ','2']),
  (124, ['-','P',' ','4',' ','2','c']),
  (125, ['P',' ','4',' ','2',' ','-','1','a','b']),
  (125, ['-','P',' ','4','a',' ','2','b']),
  (126, ['P',' ','4',' ','2',' ','-','1','n']),
  (126, ['-','P',' ','4','a',' ','2','b','c']),
  (127, ['-','P',' ','4',' ','2','a','b']),
  (128, ['-','P',' ','4',' ','2','n']),
  (129, ['P',' ','4','a','b',' ','2','a','b',' ','-','1','a','b']),
  (129, ['-','P',' ','4','a',' ','2','a']),
  (130, ['P',' ','4','a','b',' ','2','n',' ','-','1','a','b']),
  (130, ['-','P',' ','4','a',' ','2','a','c']),
  (131, ['-','P',' ','4','c',' ','2']),
  (132, ['-','P',' ','4','c',' ','2','c']),
  (133, ['P',' ','4','n',' ','2','c',' ','-','1','n']),
  (133, ['-','P',' ','4','a','c',' ','2','b']),
  (134, ['P',' ','4','n',' ','2',' ','-','1','n']),
  (134, ['-','P',' ','4','a','c',' ','2','b','c']),
  (135, ['-','P',' ','4','c',' ','2','a','b']),
  (136, ['-','P',' ','4','n',' ','2','n']),
  (137, ['P',' ','4','n',' ','2','n',' ','-','1','n']),
  (137, ['-','P',' ','4','a','c',' ','2','a']),
  (138, ['P',' ','4','n',' ','2','a','b',' ','-','1','n']),
  (138, ['-','P',' ','4','a','c',' ','2','a','c']),
  (139, ['-','I',' ','4',' ','2']),
  (140, ['-','I',' ','4',' ','2','c']),
  (141, ['I',' ','4','b','w',' ','2','b','w',' ','-','1','b','w']),
  (141, ['-','I',' ','4','b','d',' ','2']),
  (142, ['I',' ','4','b','w',' ','2','a','w',' ','-','1','b','w']),
  (142, ['-','I',' ','4','b','d',' ','2','c']),
  (143, ['P',' ','3']),
  (144, ['P',' ','3','1']),
  (145, ['P',' ','3','2']),
  (146, ['R',' ','3']),
  (146, ['P',' ','3','*']),
  (147, ['-','P',' ','3']),
  (148, ['-','R',' ','3']),
  (148, ['-','P',' ','3','*']),
  (149, ['P',' ','3',' ','2']),
  (150, ['P',' ','3',' ','2','"']),
  (151, ['P',' ','3','1',' ','2','c',' ','(','0',' ','0',' ','1',')']),
  (152, ['P',' ','3','1',' ','2','"']),
  (153, ['P',' ','3','2',' ','2','c',' ','(','0',' ','0',' ','-','1',')']),
  (154, ['P',' ','3','2',' ','2','"']),
  (155, ['R',' ','3',' ','2','"']),
  (155, ['P',' ','3','*',' ','2']),
  (156, ['P',' ','3',' ','-','2','"']),
  (157, ['P',' ','3',' ','-','2']),
  (158, ['P',' ','3',' ','-','2','"','c']),
  (159, ['P',' ','3',' ','-','2','c']),
  (160, ['R',' ','3',' ','-','2','"']),
  (160, ['P',' ','3','*',' ','-','2']),
  (161, ['R',' ','3',' ','-','2','"','c']),
  (161, ['P',' ','3','*',' ','-','2','n']),
  (162, ['-','P',' ','3',' ','2']),
  (163, ['-','P',' ','3',' ','2','c']),
  (164, ['-','P',' ','3',' ','2','"']),
  (165, ['-','P',' ','3',' ','2','"','c']),
  (166, ['-','R',' ','3',' ','2','"']),
  (166, ['-','P',' ','3','*',' ','2']),
  (167, ['-','R',' ','3',' ','2','"','c']),
  (167, ['-','P',' ','3','*',' ','2','n']),
  (168, ['P',' ','6']),
  (169, ['P',' ','6','1']),
  (170, ['P',' ','6','5']),
  (171, ['P',' ','6','2']),
  (172, ['P',' ','6','4']),
  (173, ['P',' ','6','c']),
  (174, ['P',' ','-','6']),
  (175, ['-','P',' ','6']),
  (176, ['-','P',' ','6','c']),
  (177, ['P',' ','6',' ','2']),
  (178, ['P',' ','6','1',' ','2',' ','(','0',' ','0',' ','-','1',')']),
  (179, ['P',' ','6','5',' ','2',' ','(','0',' ','0',' ','1',')']),
  (180, ['P',' ','6','2',' ','2','c',' ','(','0',' ','0',' ','1',')']),
  (181, ['P',' ','6','4',' ','2','c',' ','(','0',' ','0',' ','-','1',')']),
  (182, ['P',' ','6','c',' ','2','c']),
  (183, ['P',' ','6',' ','-','2']),
  (184, ['P',' ','6',' ','-','2','c']),
  (185, ['P',' ','6','c',' ','-','2']),
  (186, ['P',' ','6','c',' ','-','2','c']),
  (187, ['P',' ','-','6',' ','2']),
  (188, ['P',' ','-','6','c',' ','2']),
  (189, ['P',' ','-','6',' ','-','2']),
  (190, ['P',' ','-','6','c',' ','-','2','c']),
  (191, ['-','P',' ','6',' ','2']),
  (192, ['-','P',' ','6',' ','2','c']),
  (193, ['-','P',' ','6','c',' ','2']),
  (194, ['-','P',' ','6','c',' ','2','c']),
  (195, ['P',' ','2',' ','2',' ','3']),
  (196, ['F',' ','2',' ','2',' ','3']),
  (197, ['I',' ','2',' ','2',' ','3']),
  (198, ['P',' ','2','a','c',' ','2','a','b',' ','3']),
  (199, ['I',' ','2','b',' ','2','c',' ','3']),
  (200, ['-','P',' ','2',' ','2',' ','3']),
  (201, ['P',' ','2',' ','2',' ','3',' ','-','1','n']),
  (201, ['-','P',' ','2','a','b',' ','2','b','c',' ','3']),
  (202, ['-','F',' ','2',' ','2',' ','3']),
  (203, ['F',' ','2',' ','2',' ','3',' ','-','1','d']),
  (203, ['-','F',' ','2','u','v',' ','2','v','w',' ','3']),
  (204, ['-','I',' ','2',' ','2',' ','3']),
  (205, ['-','P',' ','2','a','c',' ','2','a','b',' ','3']),
  (206, ['-','I',' ','2','b',' ','2','c',' ','3']),
  (207, ['P',' ','4',' ','2',' ','3']),
  (208, ['P',' ','4','n',' ','2',' ','3']),
  (209, ['F',' ','4',' ','2',' ','3']),
  (210, ['F',' ','4','d',' ','2',' ','3']),
  (211, ['I',' ','4',' ','2',' ','3']),
  (212, ['P',' ','4','a','c','d',' ','2','a','b',' ','3']),
  (213, ['P',' ','4','b','d',' ','2','a','b',' ','3']),
  (214, ['I',' ','4','b','d',' ','2','c',' ','3']),
  (215, ['P',' ','-','4',' ','2',' ','3']),
  (216, ['F',' ','-','4',' ','2',' ','3']),
  (217, ['I',' ','-','4',' ','2',' ','3']),
  (218, ['P',' ','-','4','n',' ','2',' ','3']),
  (219, ['F',' ','-','4','c',' ','2',' ','3']),
  (220, ['I',' ','-','4','b','d',' ','2','c',' ','3']),
  (221, ['-','P',' ','4',' ','2',' ','3']),
  (222, ['P',' ','4',' ','2',' ','3',' ','-','1','n']),
  (222, ['-','P',' ','4','a',' ','2','b','c',' ','3']),
  (223, ['-','P',' ','4','n',' ','2',' ','3']),
  (224, ['P',' ','4','n',' ','2',' ','3',' ','-','1','n']),
  (224, ['-','P',' ','4','b','c',' ','2','b','c',' ','3']),
  (225, ['-','F',' ','4',' ','2',' ','3']),
  (226, ['-','F',' ','4','c',' ','2',' ','3']),
  (227, ['F',' ','4','d',' ','2',' ','3',' ','-','1','d']),
  (227, ['-','F',' ','4','v','w',' ','2','v','w',' ','3']),
  (228, ['F',' ','4','d',' ','2',' ','3',' ','-','1','c','d']),
  (228, ['-','F',' ','4','c','v','w',' ','2','v','w',' ','3']),
  (229, ['-','I',' ','4',' ','2',' ','3']),
  (230, ['-','I',' ','4','b','d',' ','2','c',' ','3'])]

/-- `HM_STR` (symbols.py:772-1303), already split: number before the colon and the rest of the line
(`_buildDict`, spacegroup.py:222-230). -/
def hmStr : List (Nat × List Char) := [
  (1, ['P',' ','1']),
  (2, ['P',' ','-','1']),
  (3, ['P',' ','1',' ','2',' ','1']),
  (3, ['P',' ','1',' ','1',' ','2']),
  (3, ['P',' ','2',' ','1',' ','1']),
  (4, ['P',' ','1',' ','2','1',' ','1']),
  (4, ['P',' ','1',' ','1',' ','2','1']),
  (4, ['P',' ','2','1',' ','1',' ','1']),
  (5, ['C',' ','1',' ','2',' ','1']),
  (5, ['A',' ','1',' ','2',' ','1']),
  (5, ['I',' ','1',' ','2',' ','1']),
  (5, ['A',' ','1',' ','1',' ','2']),
  (5, ['B',' ','1',' ','1',' ','2']),
  (5, ['I',' ','1',' ','1',' ','2']),
  (5, ['B',' ','2',' ','1',' ','1']),
  (5, ['C',' ','2',' ','1',' ','1']),
  (5, ['I',' ','2',' ','1',' ','1']),
  (6, ['P',' ','1',' ','m',' ','1']),
  (6, ['P',' ','1',' ','1',' ','m']),
  (6, ['P',' ','m',' ','1',' ','1']),
  (7, ['P',' ','1',' ','c',' ','1']),
  (7, ['P',' ','1',' ','n',' ','1']),
  (7, ['P',' ','1',' ','a',' ','1']),
  (7, ['P',' ','1',' ','1',' ','a']),
  (7, ['P',' ','1',' ','1',' ','n']),
  (7, ['P',' ','1',' ','1',' ','b']),
  (7, ['P',' ','b',' ','1',' ','1']),
  (7, ['P',' ','n',' ','1',' ','1']),
  (7, ['P',' ','c',' ','1',' ','1']),
  (8, ['C',' ','1',' ','m',' ','1']),
  (8, ['A',' ','1',' ','m',' ','1']),
  (8, ['I',' ','1',' ','m',' ','1']),
  (8, ['A',' ','1',' ','1',' ','m']),
  (8, ['B',' ','1',' ','1',' ','m']),
  (8, ['I',' ','1',' ','1',' ','m']),
  (8, ['B',' ','m',' ','1',' ','1']),
  (8, ['C',' ','m',' ','1',' ','1']),
  (8, ['I',' ','m',' ','1',' ','1']),
  (9, ['C',' ','1',' ','c',' ','1']),
  (9, ['A',' ','1',' ','n',' ','1']),
  (9, ['I',' ','1',' ','a',' ','1']),
  (9, ['A',' ','1',' ','a',' ','1']),
  (9, ['C',' ','1',' ','n',' ','1']),
  (9, ['I',' ','1',' ','c',' ','1']),
  (9, ['A',' ','1',' ','1',' ','a']),
  (9, ['B',' ','1',' ','1',' ','n']),
  (9, ['I',' ','1',' ','1',' ','b']),
  (9, ['B',' ','1',' ','1',' ','b']),
  (9, ['A',' ','1',' ','1',' ','n']),
  (9, ['I',' ','1',' ','1',' ','a']),
  (9, ['B',' ','b',' ','1',' ','1']),
  (9, ['C',' ','n',' ','1',' ','1']),
  (9, ['I',' ','c',' ','1',' ','1']),
  (9, ['C',' ','c',' ','1',' ','1']),
  (9, ['B',' ','n',' ','1',' ','1']),
  (9, ['I',' ','b',' ','1',' ','1']),
  (10, ['P',' ','1',' ','2','/','m',' ','1']),
  (10, ['P',' ','1',' ','1',' ','2','/','m']),
  (10, ['P',' ','2','/','m',' ','1',' ','1']),
  (11, ['P',' ','1',' ','2','1','/','m',' ','1']),
  (11, ['P',' ','1',' ','1',' ','2','1','/','m']),
  (11, ['P',' ','2','1','/','m',' ','1',' ','1']),
  (12, ['C',' ','1',' ','2','/','m',' ','1']),
  (12, ['A',' ','1',' ','2','/','m',' ','1']),
  (12, ['I',' ','1',' ','2','/','m',' ','1']),
  (12, ['A',' ','1',' ','1',' ','2','/','m']),
  (12, ['B',' ','1',' ','1',' ','2','/','m']),
  (12, ['I',' ','1',' ','1',' ','2','/','m']),
  (12, ['B',' ','2','/','m',' ','1',' ','1']),
  (12, ['C',' ','2','/','m',' ','1',' ','1']),
  (12, ['I',' ','2','/','m',' ','1',' ','1']),
  (13, ['P',' ','1',' ','2','/','c',' ','1']),
  (13, ['P',' ','1',' ','2','/','n',' ','1']),
  (13, ['P',' ','1',' ','2','/','a',' ','1']),
  (13, ['P',' ','1',' ','1',' ','2','/','a']),
  (13, ['P',' ','1',' ','1',' ','2','/','n']),
  (13, ['P',' ','1',' ','1',' ','2','/','b']),
  (13, ['P',' ','2','/','b',' ','1',' ','1']),
  (13, ['P',' ','2','/','n',' ','1',' ','1']),
  (13, ['P',' ','2','/','c',' ','1',' ','1']),
  (14, ['P',' ','1',' ','2','1','/','c',' ','1']),
  (14, ['P',' ','1',' ','2','1','/','n',' ','1']),
  (14, ['P',' ','1',' ','2','1','/','a',' ','1']),
  (14, ['P',' ','1',' ','1',' ','2','1','/','a']),
  (14, ['P',' ','1',' ','1',' ','2','1','/','n']),
  (14, ['P',' ','1',' ','1',' ','2','1','/','b']),
  (14, ['P',' ','2','1','/','b',' ','1',' ','1']),
  (14, ['P',' ','2','1','/','n',' ','1',' ','1']),
  (14, ['P',' ','2','1','/','c',' ','1',' ','1']),
  (15, ['C',' ','1',' ','2','/','c',' ','1']),
  (15, ['A',' ','1',' ','2','/','n',' ','1']),
  (15, ['I',' ','1',' ','2','/','a',' ','1']),
  (15, ['A',' ','1',' ','2','/','a',' ','1']),
  (15, ['C',' ','1',' ','2','/','n',' ','1']),
  (15, ['I',' ','1',' ','2','/','c',' ','1']),
  (15, ['A',' ','1',' ','1',' ','2','/','a']),
  (15, ['B',' ','1',' ','1',' ','2','/','n']),
  (15, ['I',' ','1',' ','1',' ','2','/','b']),
  (15, ['B',' ','1',' ','1',' ','2','/','b']),
  (15, ['A',' ','1',' ','1',' ','2','/','n']),
  (15, ['I',' ','1',' ','1',' ','2','/','a']),
  (15, ['B',' ','2','/','b',' ','1',' ','1']),
  (15, ['C',' ','2','/','n',' ','1',' ','1']),
  (15, ['I',' ','2','/','c',' ','1',' ','1']),
  (15, ['C',' ','2','/','c',' ','1',' ','1']),
  (15, ['B',' ','2','/','n',' ','1',' ','1']),
  (15, ['I',' ','2','/','b',' ','1',' ','1']),
  (16, ['P',' ','2',' ','2',' ','2']),
  (17, ['P',' ','2',' ','2',' ','2','1']),
  (17, ['P',' ','2','1',' ','2',' ','2']),
  (17, ['P',' ','2',' ','2','1',' ','2']),
  (18, ['P',' ','2','1',' ','2','1',' ','2']),
  (18, ['P',' ','2',' ','2','1',' ','2','1']),
  (18, ['P',' ','2','1',' ','2',' ','2','1']),
  (19, ['P',' ','2','1',' ','2','1',' ','2','1']),
  (20, ['C',' ','2',' ','2',' ','2','1']),
  (20, ['A',' ','2','1',' ','2',' ','2']),
  (20, ['B',' ','2',' ','2','1',' ','2']),
  (21, ['C',' ','2',' ','2',' ','2']),
  (21, ['A',' ','2',' ','2',' ','2']),
  (21, ['B',' ','2',' ','2',' ','2']),
  (22, ['F',' ','2',' ','2',' ','2']),
  (23, ['I',' ','2',' ','2',' ','2']),
  (24, ['I',' ','2','1',' ','2','1',' ','2','1']),
  (25, ['P',' ','m',' ','m',' ','2']),
  (25, ['P',' ','2',' ','m',' ','m']),
  (25, ['P',' ','m',' ','2',' ','m']),
  (26, ['P',' ','m',' ','c',' ','2','1']),
  (26, ['P',' ','c',' ','m',' ','2','1']),
  (26, ['P',' ','2','1',' ','m',' ','a']),
  (26, ['P',' ','2','1',' ','a',' ','m']),
  (26, ['P',' ','b',' ','2','1',' ','m']),
  (26, ['P',' ','m',' ','2','1',' ','b']),
  (27, ['P',' ','c',' ','c',' ','2']),
  (27, ['P',' ','2',' ','a',' ','a']),
  (27, ['P',' ','b',' ','2',' ','b']),
  (28, ['P',' ','m',' ','a',' ','2']),
  (28, ['P',' ','b',' ','m',' ','2']),
  (28, ['P',' ','2',' ','m',' ','b']),
  (28, ['P',' ','2',' ','c',' ','m']),
  (28, ['P',' ','c',' ','2',' ','m']),
  (28, ['P',' ','m',' ','2',' ','a']),
  (29, ['P',' ','c',' ','a',' ','2','1']),
  (29, ['P',' ','b',' ','c',' ','2','1']),
  (29, ['P',' ','2','1',' ','a',' ','b']),
  (29, ['P',' ','2','1',' ','c',' ','a']),
  (29, ['P',' ','c',' ','2','1',' ','b']),
  (29, ['P',' ','b',' ','2','1',' ','a']),
  (30, ['P',' ','n',' ','c',' ','2']),
  (30, ['P',' ','c',' ','n',' ','2']),
  (30, ['P',' ','2',' ','n',' ','a']),
  (30, ['P',' ','2',' ','a',' ','n']),
  (30, ['P',' ','b',' ','2',' ','n']),
  (30, ['P',' ','n',' ','2',' ','b']),
  (31, ['P',' ','m',' ','n',' ','2','1']),
  (31, ['P',' ','n',' ','m',' ','2','1']),
  (31, ['P',' ','2','1',' ','m',' ','n']),
  (31, ['P',' ','2','1',' ','n',' ','m']),
  (31, ['P',' ','n',' ','2','1',' ','m']),
  (31, ['P',' ','m',' ','2','1',' ','n']),
  (32, ['P',' ','b',' ','a',' ','2']),
  (32, ['P',' ','2',' ','c',' ','b']),
  (32, ['P',' ','c',' ','2',' ','a']),
  (33, ['P',' ','n',' ','a',' ','2','1']),
  (33, ['P',' ','b',' ','n',' ','2','1']),
  (33, ['P',' ','2','1',' ','n',' ','b']),
  (33, ['P',' ','2','1',' ','c',' ','n']),
  (33, ['P',' ','c',' ','2','1',' ','n']),
  (33, ['P',' ','n',' ','2','1',' ','a']),
  (34, ['P',' ','n',' ','n',' ','2']),
  (34, ['P',' ','2',' ','n',' ','n']),
  (34, ['P',' ','n',' ','2',' ','n']),
  (35, ['C',' ','m',' ','m',' ','2']),
  (35, ['A',' ','2',' ','m',' ','m']),
  (35, ['B',' ','m',' ','2',' ','m']),
  (36, ['C',' ','m',' ','c',' ','2','1']),
  (36, ['C',' ','c',' ','m',' ','2','1']),
  (36, ['A',' ','2','1',' ','m',' ','a']),
  (36, ['A',' ','2','1',' ','a',' ','m']),
  (36, ['B',' ','b',' ','2','1',' ','m']),
  (36, ['B',' ','m',' ','2','1',' ','b']),
  (37, ['C',' ','c',' ','c',' ','2']),
  (37, ['A',' ','2',' ','a',' ','a']),
  (37, ['B',' ','b',' ','2',' ','b']),
  (38, ['A',' ','m',' ','m',' ','2']),
  (38, ['B',' ','m',' ','m',' ','2']),
  (38, ['B',' ','2',' ','m',' ','m']),
  (38, ['C',' ','2',' ','m',' ','m']),
  (38, ['C',' ','m',' ','2',' ','m']),
  (38, ['A',' ','m',' ','2',' ','m']),
  (39, ['A',' ','b',' ','m',' ','2']),
  (39, ['B',' ','m',' ','a',' ','2']),
  (39, ['B',' ','2',' ','c',' ','m']),
  (39, ['C',' ','2',' ','m',' ','b']),
  (39, ['C',' ','m',' ','2',' ','a']),
  (39, ['A',' ','c',' ','2',' ','m']),
  (40, ['A',' ','m',' ','a',' ','2']),
  (40, ['B',' ','b',' ','m',' ','2']),
  (40, ['B',' ','2',' ','m',' ','b']),
  (40, ['C',' ','2',' ','c',' ','m']),
  (40, ['C',' ','c',' ','2',' ','m']),
  (40, ['A',' ','m',' ','2',' ','a']),
  (41, ['A',' ','b',' ','a',' ','2']),
  (41, ['B',' ','b',' ','a',' ','2']),
  (41, ['B',' ','2',' ','c',' ','b']),
  (41, ['C',' ','2',' ','c',' ','b']),
  (41, ['C',' ','c',' ','2',' ','a']),
  (41, ['A',' ','c',' ','2',' ','a']),
  (42, ['F',' ','m',' ','m',' ','2']),
  (42, ['F',' ','2',' ','m',' ','m']),
  (42, ['F',' ','m',' ','2',' ','m']),
  (43, ['F',' ','d',' ','d',' ','2']),
  (43, ['F',' ','2',' ','d',' ','d']),
  (43, ['F',' ','d',' ','2',' ','d']),
  (44, ['I',' ','m',' ','m',' ','2']),
  (44, ['I',' ','2',' ','m',' ','m']),
  (44, ['I',' ','m',' ','2',' ','m']),
  (45, ['I',' ','b',' ','a',' ','2']),
  (45, ['I',' ','2',' ','c',' ','b']),
  (45, ['I',' ','c',' ','2',' ','a']),
  (46, ['I',' ','m',' ','a',' ','2']),
  (46, ['I',' ','b',' ','m',' ','2']),
  (46, ['I',' ','2',' ','m',' ','b']),
  (46, ['I',' ','2',' ','c',' ','m']),
  (46, ['I',' ','c',' ','2',' ','m']),
  (46, ['I',' ','m',' ','2',' ','a']),
  (47, ['P',' ','m',' ','m',' ','m']),
  (48, ['P',' ','n',' ','n',' ','n',':','1']),
  (48, ['P',' ','n',' ','n',' ','n',':','2']),
  (49, ['P',' ','c',' ','c',' ','m']),
  (49, ['P',' ','m',' ','a',' ','a']),
  (49, ['P',' ','b',' ','m',' ','b']),
  (50, ['P',' ','b',' ','a',' ','n',':','1']),
  (50, ['P',' ','b',' ','a',' ','n',':','2']),
  (50, ['P',' ','n',' ','c',' ','b',':','1']),
  (50, ['P',' ','n',' ','c',' ','b',':','2']),
  (50, ['P',' ','c',' ','n',' ','a',':','1']),
  (50, ['P',' ','c',' ','n',' ','a',':','2']),
  (51, ['P',' ','m',' ','m',' ','a']),
  (51, ['P',' ','m',' ','m',' ','b']),
  (51, ['P',' ','b',' ','m',' ','m']),
  (51, ['P',' ','c',' ','m',' ','m']),
  (51, ['P',' ','m',' ','c',' ','m']),
  (51, ['P',' ','m',' ','a',' ','m']),
  (52, ['P',' ','n',' ','n',' ','a']),
  (52, ['P',' ','n',' ','n',' ','b']),
  (52, ['P',' ','b',' ','n',' ','n']),
  (52, ['P',' ','c',' ','n',' ','n']),
  (52, ['P',' ','n',' ','c',' ','n']),
  (52, ['P',' ','n',' ','a',' ','n']),
  (53, ['P',' ','m',' ','n',' ','a']),
  (53, ['P',' ','n',' ','m',' ','b']),
  (53, ['P',' ','b',' ','m',' ','n']),
  (53, ['P',' ','c',' ','n',' ','m']),
  (53, ['P',' ','n',' ','c',' ','m']),
  (53, ['P',' ','m',' ','a',' ','n']),
  (54, ['P',' ','c',' ','c',' ','a']),
  (54, ['P',' ','c',' ','c',' ','b']),
  (54, ['P',' ','b',' ','a',' ','a']),
  (54, ['P',' ','c',' ','a',' ','a']),
  (54, ['P',' ','b',' ','c',' ','b']),
  (54, ['P',' ','b',' ','a',' ','b']),
  (55, ['P',' ','b',' ','a',' ','m']),
  (55, ['P',' ','m',' ','c',' ','b']),
  (55, ['P',' ','c',' ','m',' ','a']),
  (56, ['P',' ','c',' ','c',' ','n']),
  (56, ['P',' ','n',' ','a',' ','a']),
  (56, ['P',' ','b',' ','n',' ','b']),
  (57, ['P',' ','b',' ','c',' ','m']),
  (57, ['P',' ','c',' ','a',' ','m']),
  (57, ['P',' ','m',' ','c',' ','a']),
  (57, ['P',' ','m',' ','a',' ','b']),
  (57, ['P',' ','b',' ','m',' ','a']),
  (57, ['P',' ','c',' ','m',' ','b']),
  (58, ['P',' ','n',' ','n',' ','m']),
  (58, ['P',' ','m',' ','n',' ','n']),
  (58, ['P',' ','n',' ','m',' ','n']),
  (59, ['P',' ','m',' ','m',' ','n',':','1']),
  (59, ['P',' ','m',' ','m',' ','n',':','2']),
  (59, ['P',' ','n',' ','m',' ','m',':','1']),
  (59, ['P',' ','n',' ','m',' ','m',':','2']),
  (59, ['P',' ','m',' ','n',' ','m',':','1']),
  (59, ['P',' ','m',' ','n',' ','m',':','2']),
  (60, ['P',' ','b',' ','c',' ','n']),
  (60, ['P',' ','c',' ','a',' ','n']),
  (60, ['P',' ','n',' ','c',' ','a']),
  (60, ['P',' ','n',' ','a',' ','b']),
  (60, ['P',' ','b',' ','n',' ','a']),
  (60, ['P',' ','c',' ','n',' ','b']),
  (61, ['P',' ','b',' ','c',' ','a']),
  (61, ['P',' ','c',' ','a',' ','b']),
  (62, ['P',' ','n',' ','m',' ','a']),
  (62, ['P',' ','m',' ','n',' ','b']),
  (62, ['P',' ','b',' ','n',' ','m']),
  (62, ['P',' ','c',' ','m',' ','n']),
  (62, ['P',' ','m',' ','c',' ','n']),
  (62, ['P',' ','n',' ','a',' ','m']),
  (63, ['C',' ','m',' ','c',' ','m']),
  (63, ['C',' ','c',' ','m',' ','m']),
  (63, ['A',' ','m',' ','m',' ','a']),
  (63, ['A',' ','m',' ','a',' ','m']),
  (63, ['B',' ','b',' ','m',' ','m']),
  (63, ['B',' ','m',' ','m',' ','b']),
  (64, ['C',' ','m',' ','c',' ','a']),
  (64, ['C',' ','c',' ','m',' ','b']),
  (64, ['A',' ','b',' ','m',' ','a']),
  (64, ['A',' ','c',' ','a',' ','m']),
  (64, ['B',' ','b',' ','c',' ','m']),
  (64, ['B',' ','m',' ','a',' ','b']),
  (65, ['C',' ','m',' ','m',' ','m']),
  (65, ['A',' ','m',' ','m',' ','m']),
  (65, ['B',' ','m',' ','m',' ','m']),
  (66, ['C',' ','c',' ','c',' ','m']),
  (66, ['A',' ','m',' ','a',' ','a']),
  (66, ['B',' ','b',' ','m',' ','b']),
  (67, ['C',' ','m',' ','m',' ','a']),
  (67, ['C',' ','m',' ','m',' ','b']),
  (67, ['A',' ','b',' ','m',' ','m']),
  (67, ['A',' ','c',' ','m',' ','m']),
  (67, ['B',' ','m',' ','c',' ','m']),
  (67, ['B',' ','m',' ','a',' ','m']),
  (68, ['C',' ','c',' ','c',' ','a',':','1']),
  (68, ['C',' ','c',' ','c',' ','a',':','2']),
  (68, ['C',' ','c',' ','c',' ','b',':','1']),
  (68, ['C',' ','c',' ','c',' ','b',':','2']),
  (68, ['A',' ','b',' ','a',' ','a',':','1']),
  (68, ['A',' ','b',' ','a',' ','a',':','2']),
  (68, ['A',' ','c',' ','a',' ','a',':','1']),
  (68, ['A',' ','c',' ','a',' ','a',':','2']),
  (68, ['B',' ','b',' ','c',' ','b',':','1']),
  (68, ['B',' ','b',' ','c',' ','b',':','2']),
  (68, ['B',' ','b',' ','a',' ','b',':','1']),
  (68, ['B',' ','b',' ','a',' ','b',':','2']),
  (69, ['F',' ','m',' ','m',' ','m']),
  (70, ['F',' ','d',' ','d',' ','d',':','1']),
  (70, ['F',' ','d',' ','d',' ','d',':','2']),
  (71, ['I',' ','m',' ','m',' ','m']),
  (72, ['I',' ','b',' ','a',' ','m']),
  (72, ['I',' ','m',' ','c',' ','b']),
  (72, ['I',' ','c',' ','m',' ','a']),
  (73, ['I',' ','b',' ','c',' ','a']),
  (73, ['I',' ','c',' ','a',' ','b']),
  (74, ['I',' ','m',' ','m',' ','a']),
  (74, ['I',' ','m',' ','m',' ','b']),
  (74, ['I',' ','b',' ','m',' ','m']),
  (74, ['I',' ','c',' ','m',' ','m']),
  (74, ['I',' ','m',' ','c',' ','m']),
  (74, ['I',' ','m',' ','a',' ','m']),
  (75, ['P',' ','4']),
  (76, ['P',' ','4','1']),
  (77, ['P',' ','4','2']),
  (78, ['P',' ','4','3']),
  (79, ['I',' ','4']),
  (80, ['I',' ','4','1']),
  (81, ['P',' ','-','4']),
  (82, ['I',' ','-','4']),
  (83, ['P',' ','4','/','m']),
  (84, ['P',' ','4','2','/','m']),
  (85, ['P',' ','4','/','n',':','1']),
  (85, ['P',' ','4','/','n',':','2']),
  (86, ['P',' ','4','2','/','n',':','1']),
  (86, ['P',' ','4','2','/','n',':','2']),
  (87, ['I',' ','4','/','m']),
  (88, ['I',' ','4','1','/','a',':','1']),
  (88, ['I',' ','4','1','/','a',':','2']),
  (89, ['P',' ','4',' ','2',' ','2']),
  (90, ['P',' ','4','2',' ','1',' ','2']),
  (91, ['P',' ','4','1',' ','2',' ','2']),
  (92, ['P',' ','4','1',' ','2','1',' ','2']),
  (93, ['P',' ','4','2',' ','2',' ','2']),
  (94, ['P',' ','4','2',' ','2','1',' ','2']),
  (95, ['P',' ','4','3',' ','2',' ','2']),
  (96, ['P',' ','4','3',' ','2','1',' ','2']),
  (97, ['I',' ','4',' ','2',' ','2']),
  (98, ['I',' ','4','1',' ','2',' ','2']),
  (99, ['P',' ','4',' ','m',' ','m']),
  (100, ['P',' ','4',' ','b',' ','m']),
  (101, ['P',' ','4','2',' ','c',' ','m']),
  (102, ['P',' ','4','2',' ','n',' ','m']),
  (103, ['P',' ','4',' ','c',' ','c']),
  (104, ['P',' ','4',' ','n',' ','c']),
  (105, ['P',' ','4','2',' ','m',' ','c']),
  (106, ['P',' ','4','2',' ','b',' ','c']),
  (107, ['I',' ','4',' ','m',' ','m']),
  (108, ['I',' ','4',' ','c',' ','m']),
  (109, ['I',' ','4','1',' ','m',' ','d']),
  (110, ['I',' ','4','1',' ','c',' ','d']),
  (111, ['P',' ','-','4',' ','2',' ','m']),
  (112, ['P',' ','-','4',' ','2',' ','c']),
  (113, ['P',' ','-','4',' ','2','1',' ','m']),
  (114, ['P',' ','-','4',' ','2','1',' ','c']),
  (115, ['P',' ','-','4',' ','m',' ','2']),
  (116, ['P',' ','-','4',' ','c',' ','2']),
  (117, ['P',' ','-','4',' ','b',' ','2']),
  (118, ['P',' ','-','4',' ','n',' ','2']),
  (119, ['I',' ','-','4',' ','m',' ','2']),
  (120, ['I',' ','-','4',' ','c',' ','2']),
  (121, ['I',' ','-','4',' ','2',' ','m']),
  (122, ['I',' ','-','4',' ','2',' ','d']),
  (123, ['P',' ','4','/','m',' ','m',' ','m']),
  (124, ['P',' ','4','/','m',' ','c',' ','c']),
  (125, ['P',' ','4','/','n',' ','b',' ','m',':','1']),
  (125, ['P',' ','4','/','n',' ','b',' ','m',':','2']),
  (126, ['P',' ','4','/','n',' ','n',' ','c',':','1']),
  (126, ['P',' ','4','/','n',' ','n',' ','c',':','2']),
  (127, ['P',' ','4','/','m',' ','b',' ','m']),
  (128, ['P',' ','4','/','m',' ','n',' ','c']),
  (129, ['P',' ','4','/','n',' ','m',' ','m',':','1']),
  (129, ['P',' ','4','/','n',' ','m',' ','m',':','2']),
  (130, ['P',' ','4','/','n',' ','c',' ','c',':','1']),
  (130, ['P',' ','4','/','n',' ','c',' ','c',':','2']),
  (131, ['P',' ','4','2','/','m',' ','m',' ','c']),
  (132, ['P',' ','4','2','/','m',' ','c',' ','m']),
  (133, ['P',' ','4','2','/','n',' ','b',' ','c',':','1']),
  (133, ['P',' ','4','2','/','n',' ','b',' ','c',':','2']),
  (134, ['P',' ','4','2','/','n',' ','n',' ','m',':','1']),
  (134, ['P',' ','4','2','/','n',' ','n',' ','m',':','2']),
  (135, ['P',' ','4','2','/','m',' ','b',' ','c']),
  (136, ['P',' ','4','2','/','m',' ','n',' ','m']),
  (137, ['P',' ','4','2','/','n',' ','m',' ','c',':','1']),
  (137, ['P',' ','4','2','/','n',' ','m',' ','c',':','2']),
  (138, ['P',' ','4','2','/','n',' ','c',' ','m',':','1']),
  (138, ['P',' ','4','2','/','n',' ','c',' ','m',':','2']),
  (139, ['I',' ','4','/','m',' ','m',' ','m']),
  (140, ['I',' ','4','/','m',' ','c',' ','m']),
  (141, ['I',' ','4','1','/','a',' ','m',' ','d',':','1']),
  (141, ['I',' ','4','1','/','a',' ','m',' ','d',':','2']),
  (142, ['I',' ','4','1','/','a',' ','c',' ','d',':','1']),
  (142, ['I',' ','4','1','/','a',' ','c',' ','d',':','2']),
  (143, ['P',' ','3']),
  (144, ['P',' ','3','1']),
  (145, ['P',' ','3','2']),
  (146, ['R',' ','3']),
  (146, ['R',' ','3']),
  (147, ['P',' ','-','3']),
  (148, ['R',' ','-','3']),
  (148, ['R',' ','-','3']),
  (149, ['P',' ','3',' ','1',' ','2']),
  (150, ['P',' ','3',' ','2',' ','1']),
  (151, ['P',' ','3','1',' ','1',' ','2']),
  (152, ['P',' ','3','1',' ','2',' ','1']),
  (153, ['P',' ','3','2',' ','1',' ','2']),
  (154, ['P',' ','3','2',' ','2',' ','1']),
  (155, ['R',' ','3','2']),
  (155, ['R',' ','3','2']),
  (156, ['P',' ','3',' ','m',' ','1']),
  (157, ['P',' ','3',' ','1',' ','m']),
  (158, ['P',' ','3',' ','c',' ','1']),
  (159, ['P',' ','3',' ','1',' ','c']),
  (160, ['R',' ','3',' ','m']),
  (160, ['R',' ','3',' ','m']),
  (161, ['R',' ','3',' ','c']),
  (161, ['R',' ','3',' ','c']),
  (162, ['P',' ','-','3',' ','1',' ','m']),
  (163, ['P',' ','-','3',' ','1',' ','c']),
  (164, ['P',' ','-','3',' ','m',' ','1']),
  (165, ['P',' ','-','3',' ','c',' ','1']),
  (166, ['R',' ','-','3',' ','m']),
  (166, ['R',' ','-','3',' ','m']),
  (167, ['R',' ','-','3',' ','c']),
  (167, ['R',' ','-','3',' ','c']),
  (168, ['P',' ','6']),
  (169, ['P',' ','6','1']),
  (170, ['P',' ','6','5']),
  (171, ['P',' ','6','2']),
  (172, ['P',' ','6','4']),
  (173, ['P',' ','6','3']),
  (174, ['P',' ','-','6']),
  (175, ['P',' ','6','/','m']),
  (176, ['P',' ','6','3','/','m']),
  (177, ['P',' ','6',' ','2',' ','2']),
  (178, ['P',' ','6','1',' ','2',' ','2']),
  (179, ['P',' ','6','5',' ','2',' ','2']),
  (180, ['P',' ','6','2',' ','2',' ','2']),
  (181, ['P',' ','6','4',' ','2',' ','2']),
  (182, ['P',' ','6','3',' ','2',' ','2']),
  (183, ['P',' ','6',' ','m',' ','m']),
  (184, ['P',' ','6',' ','c',' ','c']),
  (185, ['P',' ','6','3',' ','c',' ','m']),
  (186, ['P',' ','6','3',' ','m',' ','c']),
  (187, ['P',' ','-','6',' ','m',' ','2']),
  (188, ['P',' ','-','6',' ','c',' ','2']),
  (189, ['P',' ','-','6',' ','2',' ','m']),
  (190, ['P',' ','-','6',' ','2',' ','c']),
  (191, ['P',' ','6','/','m',' ','m',' ','m']),
  (192, ['P',' ','6','/','m',' ','c',' ','c']),
  (193, ['P',' ','6','3','/','m',' ','c',' ','m']),
  (194, ['P',' ','6','3','/','m',' ','m',' ','c']),
  (195, ['P',' ','2',' ','3']),
  (196, ['F',' ','2',' ','3']),
  (197, ['I',' ','2',' ','3']),
  (198, ['P',' ','2','1',' ','3']),
  (199, ['I',' ','2','1',' ','3']),
  (200, ['P',' ','m',' ','-','3']),
  (201, ['P',' ','n',' ','-','3',':','1']),
  (201, ['P',' ','n',' ','-','3',':','2']),
  (202, ['F',' ','m',' ','-','3']),
  (203, ['F',' ','d',' ','-','3',':','1']),
  (203, ['F',' ','d',' ','-','3',':','2']),
  (204, ['I',' ','m',' ','-','3']),
  (205, ['P',' ','a',' ','-','3']),
  (206, ['I',' ','a',' ','-','3']),
  (207, ['P',' ','4',' ','3',' ','2']),
  (208, ['P',' ','4','2',' ','3',' ','2']),
  (209, ['F',' ','4',' ','3',' ','2']),
  (210, ['F',' ','4','1',' ','3',' ','2']),
  (211, ['I',' ','4',' ','3',' ','2']),
  (212, ['P',' ','4','3',' ','3',' ','2']),
  (213, ['P',' ','4','1',' ','3',' ','2']),
  (214, ['I',' ','4','1',' ','3',' ','2']),
  (215, ['P',' ','-','4',' ','3',' ','m']),
  (216, ['F',' ','-','4',' ','3',' ','m']),
  (217, ['I',' ','-','4',' ','3',' ','m']),
  (218, ['P',' ','-','4',' ','3',' ','n']),
  (219, ['F',' ','-','4',' ','3',' ','c']),
  (220, ['I',' ','-','4',' ','3',' ','d']),
  (221, ['P',' ','m',' ','-','3',' ','m']),
  (222, ['P',' ','n',' ','-','3',' ','n',':','1']),
  (222, ['P',' ','n',' ','-','3',' ','n',':','2']),
  (223, ['P',' ','m',' ','-','3',' ','n']),
  (224, ['P',' ','n',' ','-','3',' ','m',':','1']),
  (224, ['P',' ','n',' ','-','3',' ','m',':','2']),
  (225, ['F',' ','m',' ','-','3',' ','m']),
  (226, ['F',' ','m',' ','-','3',' ','c']),
  (227, ['F',' ','d',' ','-','3',' ','m',':','1']),
  (227, ['F',' ','d',' ','-','3',' ','m',':','2']),
  (228, ['F',' ','d',' ','-','3',' ','c',':','1']),
  (228, ['F',' ','d',' ','-','3',' ','c',':','2']),
  (229, ['I',' ','m',' ','-','3',' ','m']),
  (230, ['I',' ','a',' ','-','3',' ','d'])]

/-- `_buildDict` (spacegroup.py:212-235), first dictionary: number to symbol, the first
symbol listed for a number is kept. -/
def numToSym : List (Nat × List Char) → List (Nat × List Char)
  | l => l.foldl (fun d e => if d.any (fun f => f.1 == e.1) then d else d ++ [e]) []

/-- Reading a dictionary. -/
def getNum (d : List (Nat × List Char)) (n : Int) : Option (List Char) :=
  (d.find? fun e => decide ((e.1 : Int) = n)).map Prod.snd

/-- `_buildDict`, second dictionary read at `h`: every line assigns, so the last line with
this symbol wins. -/
def symToNum (l : List (Nat × List Char)) (h : List Char) : Option Nat :=
  l.foldl (fun acc e => if e.2 = h then some e.1 else acc) none

/-- `lookupHall`, `lookupHM` (spacegroup.py:238-239). -/
def lookupHall (n : Int) : Option (List Char) := getNum (numToSym hallStr) n
def lookupHM (n : Int) : Option (List Char) := getNum (numToSym hmStr) n

/-- `Hall_to_sgnum`, `HM_to_sgnum` (spacegroup.py:238-239). -/
def hallToSgnum (h : List Char) : Option Nat := symToNum hallStr h
def hmToSgnum (h : List Char) : Option Nat := symToNum hmStr h

/-- What a `SpaceGroup` object reports (spacegroup.py:94-186). -/
structure SGInfo where
  hall : List Char
  hm : List Char
  pointGroup : PG
  laueGroup : PG
  latticeType : LatticeType
  reqParams : List Nat
deriving DecidableEq, Repr

/-- Indices of the required lattice parameters, first component of `_rqpDict`
(spacegroup.py:368-377, and the same table in unitcell.py:1764-1773). -/
def rqpIdx : LatticeType → List Nat
  | .triclinic => [0, 1, 2, 3, 4, 5]
  | .monoclinic => [0, 1, 2, 4]
  | .orthorhombic => [0, 1, 2]
  | .tetragonal => [0, 2]
  | .trigonal => [0, 2]
  | .hexagonal => [0, 2]
  | .cubic => [0]

/-- `SpaceGroup(sgnum)` (spacegroup.py:94-186): a number without Hall symbol is a
KeyError. -/
def spaceGroup (v : Int) : Option SGInfo := do
  let hall ← lookupHall v
  let pglg ← lookupRange pgDictSG v
  let lt ← (ltDict.find? fun e => e.1 = pglg.2).map Prod.snd
  let hm ← lookupHM v
  return { hall := hall, hm := hm, pointGroup := pglg.1, laueGroup := pglg.2, latticeType := lt, reqParams := rqpIdx lt }

/-- What the setter of `unitcell.sgnum` stores (unitcell.py:1590-1623 with `GetPgLg`
118-130): numbers outside 1 to 230 raise ValueError. -/
structure UCInfo where
  pointGroup : PG
  laueGroup : PG
  supergroup : PG
  supergroupLaue : PG
  latticeType : LatticeType
  sym : SGSym

def unitcellSgnum (val : Int) (setting : Nat) : Option UCInfo :=
  if 1 ≤ val ∧ val ≤ 230 then do
    let S ← generateSGSym val.toNat setting
    let lt ← latticeTypeZ val
    let p ← lookupRange pgDictUC val
    return { pointGroup := p.1, laueGroup := p.2.1, supergroup := p.2.2.1, supergroupLaue := p.2.2.2,
             latticeType := lt, sym := S }
  else none

/-- Second component of `_rqpDict` (spacegroup.py:368-377, unitcell.py:1764-1773): from the
reduced to the six lattice parameters; a missing entry is an IndexError. `ninety` and
`onetwenty` are the constants 90 and 120. -/
def rqpFun {V : Type} (ninety onetwenty : V) : LatticeType → List V → Option (List V)
  | .triclinic, p => some p
  | .monoclinic, p => do return [← p[0]?, ← p[1]?, ← p[2]?, ninety, ← p[3]?, ninety]
  | .orthorhombic, p => do return [← p[0]?, ← p[1]?, ← p[2]?, ninety, ninety, ninety]
  | .tetragonal, p => do return [← p[0]?, ← p[0]?, ← p[1]?, ninety, ninety, ninety]
  | .trigonal, p => do return [← p[0]?, ← p[0]?, ← p[1]?, ninety, ninety, onetwenty]
  | .hexagonal, p => do return [← p[0]?, ← p[0]?, ← p[1]?, ninety, ninety, onetwenty]
  | .cubic, p => do return [← p[0]?, ← p[0]?, ← p[0]?, ninety, ninety, ninety]

/-- `[lp[i] for i in _rqpDict[latticeType][0]]` (material.py:250, 1303, unitcell.py:1415,
1459). -/
def reduceLP {V : Type} (lt : LatticeType) (lp : List V) : Option (List V) := (rqpIdx lt).mapM fun i => lp[i]?

/-- `_lpname` (unitcell.py:1775). -/
inductive LPName
  | a | b | c | alpha | beta | gamma
deriving DecidableEq, Repr

/-- `list(_lpname).index(lp_name)` -/
def LPName.index : LPName → Nat
  | a => 0
  | b => 1
  | c => 2
  | alpha => 3
  | beta => 4
  | gamma => 5

/-- `unitcell.is_editable` (unitcell.py:1381-1393). -/
def isEditable (lt : LatticeType) (name : LPName) : Bool := decide (name.index ∈ rqpIdx lt)

/-- `unitcell.fill_correct_lp_vals` (unitcell.py:1409-1418), without the unit tags. -/
def fillCorrect {V : Type} (ninety onetwenty : V) (lt : LatticeType) (lp : List V) (val : V) (name : LPName) :
    Option (List V) := do
  let lp := lp.set name.index val
  let red ← reduceLP lt lp
  rqpFun ninety onetwenty lt red

/-- The setters of `unitcell.a` ... `unitcell.gamma` (unitcell.py:1466-1560): RuntimeError
if the parameter is not editable. -/
def setLP {V : Type} (ninety onetwenty : V) (lt : LatticeType) (lp : List V) (name : LPName) (val : V) :
    Option (List V) :=
  if isEditable lt name then fillCorrect ninety onetwenty lt lp val name else none

/-- The setter of `Material.latticeParameters` (material.py:1288-1298), without units. -/
def matSetLP {V : Type} (ninety onetwenty : V) (lt : LatticeType) (v : List V) : Option (List V) :=
  if v.length ≠ 6 then rqpFun ninety onetwenty lt v else some v

/-- `Material._reset_lparms` (material.py:241-259), after a change of space group. -/
def resetLP {V : Type} (ninety onetwenty : V) (lt : LatticeType) (lp : List V) : Option (List V) := do
  rqpFun ninety onetwenty lt (← reduceLP lt lp)

end Hexrd.SpaceGroup
