import Verif.Model.SpaceGroup

/-!
# Model of the systematic absences
(`hexrd/core/material/spacegroup.py`:434-882, tables of `constants.py` and `symbols.py`)

A reflection is a `Vec` of integers; the code uses 32-bit integers, overflow is left out.
Every filter of the code keeps the rows of an array for which a mask holds; the mask is
modelled as a function of the row. `none` models an exception: the explicit `raise`s, a
missing key, and the use of a mask that was not assigned on the branch taken.
-/
namespace Hexrd.SpaceGroup

/-- Results of `latticeType` (symmetry.py:293-310). -/
inductive LatticeType
  | triclinic | monoclinic | orthorhombic | tetragonal | trigonal | hexagonal | cubic
deriving DecidableEq, Repr

/-- `symmetry.latticeType` (symmetry.py:293-310); `none` is the RuntimeError. -/
def latticeType (sg : Nat) : Option LatticeType :=
  if sg ≤ 2 then some .triclinic
  else if 2 < sg ∧ sg ≤ 15 then some .monoclinic
  else if 15 < sg ∧ sg ≤ 74 then some .orthorhombic
  else if 74 < sg ∧ sg ≤ 142 then some .tetragonal
  else if 142 < sg ∧ sg ≤ 167 then some .trigonal
  else if 167 < sg ∧ sg ≤ 194 then some .hexagonal
  else if 194 < sg ∧ sg ≤ 230 then some .cubic
  else none

/-- Glide planes named in `SYS_AB`. -/
inductive Glide
  | a | b | c | n | d
deriving DecidableEq, Repr

/-- Screw axes named in `SYS_AB`: `s21` is `2_1`. -/
inductive Screw
  | s21 | s31 | s32 | s41 | s42 | s43 | s61 | s62 | s63 | s64 | s65
deriving DecidableEq, Repr

/-- First letters of `symbols.pstr_spacegroup` (stripped), for the numbers 1-237. -/
def centringLetter : List Char := [
  'P', 'P', 'P', 'P', 'C', 'P', 'P', 'C', 'C', 'P', 'P', 'C', 'P', 'P', 'C', 'P', 'P', 'P', 'P',
  'C', 'C', 'F', 'I', 'I', 'P', 'P', 'P', 'P', 'P', 'P', 'P', 'P', 'P', 'P', 'C', 'C', 'C', 'A',
  'A', 'A', 'A', 'F', 'F', 'I', 'I', 'I', 'P', 'P', 'P', 'P', 'P', 'P', 'P', 'P', 'P', 'P', 'P',
  'P', 'P', 'P', 'P', 'P', 'C', 'C', 'C', 'C', 'C', 'C', 'F', 'F', 'I', 'I', 'I', 'I', 'P', 'P',
  'P', 'P', 'I', 'I', 'P', 'I', 'P', 'P', 'P', 'P', 'I', 'I', 'P', 'P', 'P', 'P', 'P', 'P', 'P',
  'P', 'I', 'I', 'P', 'P', 'P', 'P', 'P', 'P', 'P', 'P', 'I', 'I', 'I', 'I', 'P', 'P', 'P', 'P',
  'P', 'P', 'P', 'P', 'I', 'I', 'I', 'I', 'P', 'P', 'P', 'P', 'P', 'P', 'P', 'P', 'P', 'P', 'P',
  'P', 'P', 'P', 'P', 'P', 'I', 'I', 'I', 'I', 'P', 'P', 'P', 'R', 'P', 'R', 'P', 'P', 'P', 'P',
  'P', 'P', 'R', 'P', 'P', 'P', 'P', 'R', 'R', 'P', 'P', 'P', 'P', 'R', 'R', 'P', 'P', 'P', 'P',
  'P', 'P', 'P', 'P', 'P', 'P', 'P', 'P', 'P', 'P', 'P', 'P', 'P', 'P', 'P', 'P', 'P', 'P', 'P',
  'P', 'P', 'P', 'P', 'P', 'F', 'I', 'P', 'I', 'P', 'P', 'F', 'F', 'I', 'P', 'I', 'P', 'P', 'F',
  'F', 'I', 'P', 'P', 'I', 'P', 'F', 'I', 'P', 'F', 'I', 'P', 'P', 'P', 'P', 'F', 'F', 'F', 'F',
  'I', 'I', 'R', 'R', 'R', 'R', 'R', 'R', 'R']

/-- `sgnum_symmorphic` (constants.py:3883-3959). -/
def symmorphic : List Nat := [
  1, 2, 3, 5, 6, 8, 10, 12, 16, 21, 22, 23, 25, 35, 38, 42, 44, 47, 65, 69, 71, 75, 79, 81, 82,
  83, 87, 89, 97, 99, 107, 111, 115, 119, 121, 123, 139, 143, 146, 147, 148, 149, 150, 155, 156,
  157, 160, 162, 164, 166, 168, 174, 175, 177, 183, 187, 189, 191, 195, 196, 197, 200, 202, 204,
  207, 209, 211, 215, 216, 217, 221, 225, 229]

/-- `SYS_AB` (constants.py:4220-4377). -/
def sysAb : List (Nat × List (Option Glide) × List (Option Screw)) := [
  (4, [none, none, none], [none, some .s21, none]),
  (7, [none, some .c, none], [none, none, none]),
  (9, [none, some .c, none], [none, none, none]),
  (11, [none, none, none], [none, some .s21, none]),
  (13, [none, some .c, none], [none, none, none]),
  (14, [none, some .c, none], [none, some .s21, none]),
  (15, [none, some .c, none], [none, none, none]),
  (17, [none, none, none], [none, none, some .s21]),
  (18, [none, none, none], [some .s21, some .s21, none]),
  (19, [none, none, none], [some .s21, some .s21, some .s21]),
  (20, [none, none, none], [none, none, some .s21]),
  (24, [none, none, none], [some .s21, some .s21, some .s21]),
  (26, [none, some .c, none], [none, none, some .s21]),
  (27, [some .c, some .c, none], [none, none, none]),
  (28, [none, some .a, none], [none, none, none]),
  (29, [some .c, some .a, none], [none, none, some .s21]),
  (30, [some .n, some .c, none], [none, none, none]),
  (31, [none, some .n, none], [none, none, some .s21]),
  (32, [some .b, some .a, none], [none, none, none]),
  (33, [some .n, some .a, none], [none, none, some .s21]),
  (34, [some .n, some .n, none], [none, none, none]),
  (36, [none, some .c, none], [none, none, some .s21]),
  (37, [some .c, some .c, none], [none, none, none]),
  (39, [some .b, none, none], [none, none, none]),
  (40, [none, some .a, none], [none, none, none]),
  (41, [some .b, some .a, none], [none, none, none]),
  (43, [some .d, some .d, none], [none, none, none]),
  (45, [some .b, some .a, none], [none, none, none]),
  (46, [none, some .a, none], [none, none, none]),
  (48, [some .n, some .n, some .n], [none, none, none]),
  (49, [some .c, some .c, none], [none, none, none]),
  (50, [some .b, some .a, some .n], [none, none, none]),
  (51, [none, none, some .a], [some .s21, none, none]),
  (52, [some .n, some .n, some .a], [none, some .s21, none]),
  (53, [none, some .n, some .a], [none, none, some .s21]),
  (54, [some .c, some .c, some .a], [some .s21, none, none]),
  (55, [some .b, some .a, none], [some .s21, some .s21, none]),
  (56, [some .c, some .c, some .n], [some .s21, some .s21, none]),
  (57, [some .b, some .c, none], [none, some .s21, some .s21]),
  (58, [some .n, some .n, none], [some .s21, some .s21, none]),
  (59, [none, none, some .n], [some .s21, some .s21, none]),
  (60, [some .b, some .c, some .n], [some .s21, none, some .s21]),
  (61, [some .b, some .c, some .a], [some .s21, some .s21, some .s21]),
  (62, [some .n, none, some .a], [some .s21, some .s21, some .s21]),
  (63, [none, some .c, none], [none, none, some .s21]),
  (64, [none, some .c, some .a], [none, none, some .s21]),
  (66, [some .c, some .c, none], [none, none, none]),
  (67, [none, none, some .a], [none, none, none]),
  (68, [some .c, some .c, some .a], [none, none, none]),
  (70, [some .d, some .d, some .d], [none, none, none]),
  (72, [some .b, some .a, none], [none, none, none]),
  (73, [some .b, some .c, some .a], [some .s21, some .s21, some .s21]),
  (74, [none, none, some .a], [some .s21, some .s21, some .s21]),
  (76, [none, none, none], [some .s41, none, none]),
  (77, [none, none, none], [some .s42, none, none]),
  (78, [none, none, none], [some .s43, none, none]),
  (80, [none, none, none], [some .s41, none, none]),
  (84, [none, none, none], [some .s42, none, none]),
  (85, [some .n, none, none], [none, none, none]),
  (86, [some .n, none, none], [some .s42, none, none]),
  (88, [some .a, none, none], [some .s41, none, none]),
  (90, [none, none, none], [none, some .s21, none]),
  (91, [none, none, none], [some .s41, none, none]),
  (92, [none, none, none], [some .s41, some .s21, none]),
  (93, [none, none, none], [some .s42, none, none]),
  (94, [none, none, none], [some .s42, some .s21, none]),
  (95, [none, none, none], [some .s43, none, none]),
  (96, [none, none, none], [some .s43, some .s21, none]),
  (98, [none, none, none], [some .s41, none, none]),
  (100, [none, some .b, none], [none, none, none]),
  (101, [none, some .c, none], [some .s42, none, none]),
  (102, [none, some .n, none], [some .s42, none, none]),
  (103, [none, some .c, some .c], [none, none, none]),
  (104, [none, some .n, some .c], [none, none, none]),
  (105, [none, none, some .c], [some .s42, none, none]),
  (106, [none, some .b, some .c], [some .s42, none, none]),
  (108, [none, some .c, none], [none, none, none]),
  (109, [none, none, some .d], [some .s41, none, none]),
  (110, [none, some .c, some .d], [some .s41, none, none]),
  (112, [none, none, some .c], [none, none, none]),
  (113, [none, none, none], [none, some .s21, none]),
  (114, [none, none, some .c], [none, some .s21, none]),
  (116, [none, some .c, none], [none, none, none]),
  (117, [none, some .b, none], [none, none, none]),
  (118, [none, some .n, none], [none, none, none]),
  (120, [none, some .c, none], [none, none, none]),
  (122, [none, none, some .d], [none, none, none]),
  (124, [none, some .c, some .c], [none, none, none]),
  (125, [some .n, some .b, none], [none, none, none]),
  (126, [some .n, some .n, some .c], [none, none, none]),
  (127, [none, some .b, none], [none, some .s21, none]),
  (128, [none, some .n, some .c], [none, some .s21, none]),
  (129, [some .n, none, none], [none, some .s21, none]),
  (130, [some .n, some .c, some .c], [none, some .s21, none]),
  (131, [none, none, some .c], [some .s42, none, none]),
  (132, [none, some .c, none], [some .s42, none, none]),
  (133, [some .n, some .b, some .c], [some .s42, none, none]),
  (134, [some .n, some .n, none], [some .s42, none, none]),
  (135, [none, some .b, some .c], [some .s42, some .s21, none]),
  (136, [none, some .n, none], [some .s42, some .s21, none]),
  (137, [some .n, none, some .c], [some .s42, some .s21, none]),
  (138, [some .n, some .c, none], [some .s42, some .s21, none]),
  (140, [none, some .c, none], [none, none, none]),
  (141, [some .a, none, some .d], [some .s41, none, none]),
  (142, [some .a, some .c, some .d], [some .s41, none, none]),
  (144, [none, none, none], [some .s31, none, none]),
  (145, [none, none, none], [some .s32, none, none]),
  (151, [none, none, none], [some .s31, none, none]),
  (152, [none, none, none], [some .s31, none, none]),
  (153, [none, none, none], [some .s32, none, none]),
  (154, [none, none, none], [some .s32, none, none]),
  (158, [none, some .c, none], [none, none, none]),
  (159, [none, none, some .c], [none, none, none]),
  (161, [none, some .c, none], [none, none, none]),
  (163, [none, none, some .c], [none, none, none]),
  (165, [none, some .c, none], [none, none, none]),
  (167, [none, some .c, none], [none, none, none]),
  (169, [none, none, none], [some .s61, none, none]),
  (170, [none, none, none], [some .s65, none, none]),
  (171, [none, none, none], [some .s62, none, none]),
  (172, [none, none, none], [some .s64, none, none]),
  (173, [none, none, none], [some .s63, none, none]),
  (176, [none, none, none], [some .s63, none, none]),
  (178, [none, none, none], [some .s61, none, none]),
  (179, [none, none, none], [some .s65, none, none]),
  (180, [none, none, none], [some .s62, none, none]),
  (181, [none, none, none], [some .s64, none, none]),
  (182, [none, none, none], [some .s63, none, none]),
  (184, [none, some .c, some .c], [none, none, none]),
  (185, [none, some .c, none], [some .s63, none, none]),
  (186, [none, none, some .c], [some .s63, none, none]),
  (188, [none, some .c, none], [none, none, none]),
  (190, [none, none, some .c], [none, none, none]),
  (192, [none, some .c, some .c], [none, none, none]),
  (193, [none, some .c, none], [some .s63, none, none]),
  (194, [none, none, some .c], [some .s63, none, none]),
  (198, [none, none, none], [some .s21, none, none]),
  (199, [none, none, none], [some .s21, none, none]),
  (201, [some .n, none, none], [none, none, none]),
  (203, [some .d, none, none], [none, none, none]),
  (205, [some .a, none, none], [some .s21, none, none]),
  (206, [some .a, none, none], [some .s21, none, none]),
  (208, [none, none, none], [some .s42, none, none]),
  (210, [none, none, none], [some .s41, none, none]),
  (212, [none, none, none], [some .s43, none, none]),
  (213, [none, none, none], [some .s41, none, none]),
  (214, [none, none, none], [some .s41, none, none]),
  (218, [none, none, some .n], [none, none, none]),
  (219, [none, none, some .c], [none, none, none]),
  (220, [none, none, some .d], [none, none, none]),
  (222, [some .n, none, some .n], [none, none, none]),
  (223, [none, none, some .n], [some .s42, none, none]),
  (224, [some .n, none, none], [some .s42, none, none]),
  (226, [none, none, some .c], [none, none, none]),
  (227, [some .d, none, none], [some .s41, none, none]),
  (228, [some .d, none, some .c], [some .s41, none, none]),
  (230, [some .a, none, some .d], [some .s41, none, none])]

/-- `np.mod(x + 100, 2) != 0`. -/
def odd (x : Int) : Bool := decide ((x + 100) % 2 ≠ 0)

/-- `np.mod(x + 100, 4) != 0`. -/
def not4 (x : Int) : Bool := decide ((x + 100) % 4 ≠ 0)

/-- `np.mod(x + 90, 3) != 0`. -/
def not3 (x : Int) : Bool := decide ((x + 90) % 3 ≠ 0)

/-- `np.mod(x + 120, 6) != 0`. -/
def not6 (x : Int) : Bool := decide ((x + 120) % 6 ≠ 0)

/-- Comparison of two columns. -/
def eqB (x y : Int) : Bool := decide (x = y)

/-- `np.abs(x) == np.abs(y)`. -/
def absEq (x y : Int) : Bool := decide (x.natAbs = y.natAbs)

/-- The lattice-centring mask (spacegroup.py:444-472). -/
def centringMask (c : Char) : Option (Vec → Bool) :=
  if c = 'P' then some fun _ => true
  else if c = 'F' then some fun v =>
    let seo := (v.x + 100) % 2 + (v.y + 100) % 2 + (v.z + 100) % 2
    !(decide (seo = 1) || decide (seo = 2))
  else if c = 'I' then some fun v => decide ((v.x + v.y + v.z + 100) % 2 = 0)
  else if c = 'A' then some fun v => decide ((v.y + v.z + 100) % 2 = 0)
  else if c = 'B' then some fun v => decide ((v.x + v.z + 100) % 2 = 0)
  else if c = 'C' then some fun v => decide ((v.x + v.y + 100) % 2 = 0)
  else if c = 'R' then some fun v => decide ((-v.x + v.y + v.z + 90) % 3 = 0)
  else none

/-- The mask of `omitscrewaxisabsences` (spacegroup.py:480-617). -/
def screwMask (lt : LatticeType) (ax : Screw) (iax : Nat) : Option (Vec → Bool) :=
  match lt with
  | .triclinic => some fun _ => true
  | .monoclinic =>
    if ax ≠ .s21 then none
    else if iax = 1 then some fun v => !((eqB v.x 0 && eqB v.z 0) && odd v.y)
    else none
  | .orthorhombic =>
    if ax ≠ .s21 then none
    else if iax = 0 then some fun v => !((eqB v.y 0 && eqB v.z 0) && odd v.x)
    else if iax = 1 then some fun v => !((eqB v.x 0 && eqB v.z 0) && odd v.y)
    else if iax = 2 then some fun v => !((eqB v.x 0 && eqB v.y 0) && odd v.z)
    else some fun _ => true
  | .tetragonal =>
    if iax = 0 then
      if ax = .s42 then some fun v => !((eqB v.x 0 && eqB v.y 0) && odd v.z)
      else if ax = .s41 ∨ ax = .s43 then some fun v => !((eqB v.x 0 && eqB v.y 0) && not4 v.z)
      else none
    else if iax = 1 then
      if ax = .s21 then some fun v =>
        let mask1 := !((eqB v.y 0 && eqB v.z 0) && odd v.x)
        let mask2 := !((eqB v.x 0 && eqB v.z 0) && odd v.y)
        !(!mask1 || !mask2)
      else none
    else some fun _ => true
  | .trigonal =>
    if iax = 0 then
      if ax = .s31 ∨ ax = .s32 then some fun v => !((eqB v.x 0 && eqB v.y 0) && not3 v.z)
      else none
    else none
  | .hexagonal =>
    if iax = 0 then
      if ax = .s63 then some fun v => !((eqB v.x 0 && eqB v.y 0) && odd v.z)
      else if ax = .s31 ∨ ax = .s32 ∨ ax = .s62 ∨ ax = .s64 then
        some fun v => !((eqB v.x 0 && eqB v.y 0) && not3 v.z)
      else if ax = .s61 ∨ ax = .s65 then some fun v => !((eqB v.x 0 && eqB v.y 0) && not6 v.z)
      else none
    else none
  | .cubic =>
    if ax = .s21 ∨ ax = .s42 then some fun v =>
      let mask1 := !((eqB v.x 0 && eqB v.y 0) && odd v.z)
      let mask2 := !((eqB v.x 0 && eqB v.z 0) && odd v.y)
      let mask3 := !((eqB v.y 0 && eqB v.z 0) && odd v.x)
      !(!mask1 || (!mask2 || !mask3))
    else if ax = .s41 ∨ ax = .s43 then some fun v =>
      let mask1 := !((eqB v.x 0 && eqB v.y 0) && not4 v.z)
      let mask2 := !((eqB v.x 0 && eqB v.z 0) && not4 v.y)
      let mask3 := !((eqB v.y 0 && eqB v.z 0) && not4 v.x)
      !(!mask1 || (!mask2 || !mask3))
    else none

/-- The mask of `omitglideplaneabsences` (spacegroup.py:620-866). -/
def glideMask (lt : LatticeType) (plane : Glide) (ip : Nat) : Option (Vec → Bool) :=
  match lt with
  | .triclinic => some fun _ => true
  | .monoclinic =>
    if ip = 1 then
      match plane with
      | .c => some fun v => !(eqB v.y 0 && odd v.z)
      | .a => some fun v => !(eqB v.y 0 && odd v.x)
      | .n => some fun v => !(eqB v.y 0 && odd (v.x + v.z))
      | _ => none
    else some fun _ => true
  | .orthorhombic =>
    if ip = 0 then
      match plane with
      | .b => some fun v => !(eqB v.x 0 && odd v.y)
      | .c => some fun v => !(eqB v.x 0 && odd v.z)
      | .n => some fun v => !(eqB v.x 0 && odd (v.y + v.z))
      | .d => some fun v => !(eqB v.x 0 && not4 (v.y + v.z))
      | _ => none
    else if ip = 1 then
      match plane with
      | .c => some fun v => !(eqB v.y 0 && odd v.z)
      | .a => some fun v => !(eqB v.y 0 && odd v.x)
      | .n => some fun v => !(eqB v.y 0 && odd (v.x + v.z))
      | .d => some fun v => !(eqB v.y 0 && not4 (v.x + v.z))
      | _ => none
    else if ip = 2 then
      match plane with
      | .a => some fun v => !(eqB v.z 0 && odd v.x)
      | .b => some fun v => !(eqB v.z 0 && odd v.y)
      | .n => some fun v => !(eqB v.z 0 && odd (v.x + v.y))
      | .d => some fun v => !(eqB v.z 0 && not4 (v.x + v.y))
      | _ => none
    else some fun _ => true
  | .tetragonal =>
    if ip = 0 then
      match plane with
      | .a => some fun v => !(eqB v.z 0 && odd v.x)
      | .b => some fun v => !(eqB v.z 0 && odd v.y)
      | .n => some fun v => !(eqB v.z 0 && odd (v.x + v.y))
      | .d => some fun v => !(eqB v.z 0 && not4 (v.x + v.y))
      | _ => none
    else if ip = 1 then
      match plane with
      | .a => some fun v => !(!(!(eqB v.x 0 && odd v.y)) || !(!(eqB v.y 0 && odd v.x)))
      | .b => some fun v => !(!(!(eqB v.x 0 && odd v.y)) || !(!(eqB v.y 0 && odd v.x)))
      | .c => some fun v => !(!(!(eqB v.x 0 && odd v.z)) || !(!(eqB v.y 0 && odd v.z)))
      | .n => some fun v =>
        !(!(!(eqB v.x 0 && odd (v.y + v.z))) || !(!(eqB v.y 0 && odd (v.x + v.z))))
      | .d => some fun v =>
        !(!(!(eqB v.x 0 && not4 (v.y + v.z))) || !(!(eqB v.y 0 && not4 (v.x + v.z))))
    else if ip = 2 then
      match plane with
      | .c => some fun v => !(absEq v.x v.y && odd v.z)
      | .n => some fun v => !(absEq v.x v.y && odd v.z)
      | .d => some fun v => !(absEq v.x v.y && not4 (2 * v.x + v.z))
      | _ => none
    else some fun _ => true
  | .trigonal =>
    if plane ≠ .c then none
    else if ip = 1 then some fun v =>
      !((eqB v.x 0 && odd v.z) || ((eqB v.y 0 && odd v.z) || (eqB v.x (-v.y) && odd v.z)))
    else if ip = 2 then some fun v =>
      !((eqB v.y v.x && odd v.z) || ((eqB v.x (-2 * v.y) && odd v.z) || (eqB (-2 * v.x) v.y && odd v.z)))
    else none
  | .hexagonal =>
    if plane ≠ .c then none
    else if ip = 2 then some fun v =>
      !((eqB v.x v.y && odd v.z && odd v.z) || ((eqB v.x (-2 * v.y) && odd v.z && odd v.z) ||
        (eqB (-2 * v.x) v.y && odd v.z && odd v.z)))
    else if ip = 1 then some fun v =>
      !((eqB v.y 0 && odd v.z) || ((eqB v.x 0 && odd v.z) || (eqB v.y (-v.x) && odd v.z)))
    else none
  | .cubic =>
    if ip = 0 then
      match plane with
      | .a => some fun v =>
        let mask1 := (eqB v.x 0 && odd v.y) || (eqB v.x 0 && odd v.z)
        let mask2 := (eqB v.y 0 && odd v.x) || (eqB v.y 0 && odd v.z)
        let mask3 := eqB v.z 0 && odd v.x
        !(mask1 || (mask2 || mask3))
      | .b => some fun v => !((eqB v.x 0 && odd v.y) || (eqB v.z 0 && odd v.y))
      | .c => some fun v => !((eqB v.x 0 && odd v.z) || (eqB v.y 0 && odd v.z))
      | .n => some fun v =>
        let mask1 := !(eqB v.x 0 && odd (v.y + v.z))
        let mask2 := !(eqB v.y 0 && odd (v.x + v.z))
        let mask3 := !(eqB v.z 0 && odd (v.x + v.y))
        !(!mask1 || (!mask2 || !mask3))
      | .d => some fun v =>
        let mask1 := !(eqB v.x 0 && not4 (v.y + v.z))
        let mask2 := !(eqB v.y 0 && not4 (v.x + v.z))
        let mask3 := !(eqB v.z 0 && not4 (v.x + v.y))
        !(!mask1 || (!mask2 || !mask3))
    else if ip = 2 then
      if plane = .d then some fun v =>
        let mask1 := !(absEq v.x v.y && not4 (2 * v.x + v.z))
        let mask2 := !(absEq v.y v.z && not4 (v.x + 2 * v.y))
        let mask3 := !(absEq v.x v.z && not4 (2 * v.x + v.y))
        !(!mask1 || (!mask2 || !mask3))
      else some fun v =>
        let mask1 := !(absEq v.x v.y && odd v.z)
        let mask2 := !(absEq v.y v.z && odd v.x)
        let mask3 := !(absEq v.x v.z && odd v.y)
        !(!mask1 || (!mask2 || !mask3))
    else some fun _ => true

/-- The loop over the glide planes (spacegroup.py:874-877). -/
def omitGlides (lt : Option LatticeType) : Nat → List (Option Glide) → List Vec → Option (List Vec)
  | _, [], l => some l
  | ip, none :: ps, l => omitGlides lt (ip + 1) ps l
  | ip, some p :: ps, l => do
    let t ← lt
    let mask ← glideMask t p ip
    omitGlides lt (ip + 1) ps (l.filter mask)

/-- The loop over the screw axes (spacegroup.py:878-881). -/
def omitScrews (lt : Option LatticeType) : Nat → List (Option Screw) → List Vec → Option (List Vec)
  | _, [], l => some l
  | iax, none :: as, l => omitScrews lt (iax + 1) as l
  | iax, some a :: as, l => do
    let t ← lt
    let mask ← screwMask t a iax
    omitScrews lt (iax + 1) as (l.filter mask)

/-- `NonSymmorphicAbsences` (spacegroup.py:869-882). -/
def nonSymmorphicAbsences (sg : Nat) (l : List Vec) : Option (List Vec) := do
  let (planes, axes) ← sysAb.lookup sg
  let l ← omitGlides (latticeType sg) 0 planes l
  omitScrews (latticeType sg) 0 axes l

/-- `Allowed_HKLs` (spacegroup.py:434-477). Numbers count from 1. -/
def allowedHKLs (sg : Nat) (l : List Vec) : Option (List Vec) :=
  if sg = 0 then none
  else do
    let c ← centringLetter[sg - 1]?
    let mask ← centringMask c
    let l := l.filter mask
    if sg ∈ symmorphic then return l
    else nonSymmorphicAbsences sg l

end Hexrd.SpaceGroup
