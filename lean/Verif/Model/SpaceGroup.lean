/-!
# Model of the space-group generation
(`hexrd/core/material/symmetry.py`, tables of `hexrd/core/constants.py`)

Rotations are 3x3 integer matrices. All translations in the tables are multiples of
1/24 of a cell edge; they are represented by the integer multiple, so arithmetic is
exact and the tolerances of the code (1e-5) become exact comparisons.
-/
namespace Hexrd.SpaceGroup

/-- 3x3 integer matrix, by rows. -/
structure Mat where
  a : Int
  b : Int
  c : Int
  d : Int
  e : Int
  f : Int
  g : Int
  h : Int
  i : Int
deriving DecidableEq, Repr

/-- Integer vector. -/
structure Vec where
  x : Int
  y : Int
  z : Int
deriving DecidableEq, Repr

/-- A symmetry operator: rotation and translation (in units of 1/24). -/
structure Op where
  r : Mat
  t : Vec
deriving DecidableEq, Repr

def Mat.mul (m n : Mat) : Mat where
  a := m.a * n.a + m.b * n.d + m.c * n.g
  b := m.a * n.b + m.b * n.e + m.c * n.h
  c := m.a * n.c + m.b * n.f + m.c * n.i
  d := m.d * n.a + m.e * n.d + m.f * n.g
  e := m.d * n.b + m.e * n.e + m.f * n.h
  f := m.d * n.c + m.e * n.f + m.f * n.i
  g := m.g * n.a + m.h * n.d + m.i * n.g
  h := m.g * n.b + m.h * n.e + m.i * n.h
  i := m.g * n.c + m.h * n.f + m.i * n.i

def Mat.act (m : Mat) (v : Vec) : Vec where
  x := m.a * v.x + m.b * v.y + m.c * v.z
  y := m.d * v.x + m.e * v.y + m.f * v.z
  z := m.g * v.x + m.h * v.y + m.i * v.z

def Vec.add (v w : Vec) : Vec := ⟨v.x + w.x, v.y + w.y, v.z + w.z⟩

/-- `np.dot` of two augmented 4x4 matrices. -/
def Op.mul (p q : Op) : Op := ⟨p.r.mul q.r, (p.r.act q.t).add p.t⟩

/-- Fractional part of the translation (symmetry.py:175-179). -/
def Op.frac (p : Op) : Op := ⟨p.r, ⟨p.t.x % 24, p.t.y % 24, p.t.z % 24⟩⟩

/-- Rotation letters of `SYM_GENERATORS` (constants.py:4388-4470). -/
def genMat : Char → Option Mat
  | 'a' => some ⟨1,0,0, 0,1,0, 0,0,1⟩
  | 'b' => some ⟨-1,0,0, 0,-1,0, 0,0,1⟩
  | 'c' => some ⟨-1,0,0, 0,1,0, 0,0,-1⟩
  | 'd' => some ⟨0,0,1, 1,0,0, 0,1,0⟩
  | 'e' => some ⟨0,1,0, 1,0,0, 0,0,-1⟩
  | 'f' => some ⟨0,-1,0, -1,0,0, 0,0,-1⟩
  | 'g' => some ⟨0,-1,0, 1,0,0, 0,0,1⟩
  | 'h' => some ⟨-1,0,0, 0,-1,0, 0,0,-1⟩
  | 'i' => some ⟨1,0,0, 0,1,0, 0,0,-1⟩
  | 'j' => some ⟨1,0,0, 0,-1,0, 0,0,1⟩
  | 'k' => some ⟨0,-1,0, -1,0,0, 0,0,1⟩
  | 'l' => some ⟨0,1,0, 1,0,0, 0,0,1⟩
  | 'm' => some ⟨0,1,0, -1,0,0, 0,0,-1⟩
  | 'n' => some ⟨0,-1,0, 1,-1,0, 0,0,1⟩
  | _ => none

/-- Translation letters of `SYM_GENERATORS` (constants.py:4472-4485), times 24. -/
def genTrans : Char → Option Int
  | 'A' => some 4
  | 'B' => some 6
  | 'C' => some 8
  | 'D' => some 12
  | 'E' => some 16
  | 'F' => some 18
  | 'G' => some 20
  | 'O' => some 0
  | 'X' => some (-9)
  | 'Y' => some (-6)
  | 'Z' => some (-3)
  | _ => none

/-- `SYM_fillgen` (symmetry.py:126-140); `none` is a KeyError. -/
def fillgen (c t1 t2 t3 : Char) (sgn : Int) : Option Op := do
  let m ← genMat c
  let x ← genTrans t1
  let y ← genTrans t2
  let z ← genTrans t3
  return ⟨m, ⟨sgn * x, sgn * y, sgn * z⟩⟩

/-- `int(genstr[1])` for a digit. -/
def digit (c : Char) : Nat := c.toNat - '0'.toNat

/-- The generators coded in four letters each, with the rest of the string
(symmetry.py:100-107). -/
def readGens : Nat → List Char → Option (List Op × List Char)
  | 0, s => some ([], s)
  | n + 1, c :: t1 :: t2 :: t3 :: s => do
    let g ← fillgen c t1 t2 t3 1
    let (gs, rest) ← readGens n s
    return (g :: gs, rest)
  | _ + 1, _ => none

/-- `MakeGenerators` (symmetry.py:85-123): generators and the flag `centrosymmetric`. -/
def makeGenerators (s : List Char) (setting : Nat) : Option (List Op × Bool) :=
  match s with
  | inv :: n :: s => do
    let one ← fillgen 'a' 'O' 'O' 'O' 1
    let minus ← fillgen 'h' 'O' 'O' 'O' 1
    let base := if inv = '1' then [one, minus] else [one]
    let (gs, rest) ← readGens (digit n) s
    let all := base ++ gs
    match rest with
    | [] => none
    | alt :: rest =>
      if alt ≠ '0' ∧ setting ≠ 0 then
        match rest with
        | t1 :: t2 :: t3 :: _ => do
          let sym ← fillgen 'a' t1 t2 t3 (-1)
          let sym2 ← fillgen 'a' t1 t2 t3 1
          return (all.head?.toList ++ all.tail.map fun g => (sym2.mul (g.mul sym)).frac, inv = '1')
        | _ => none
      else return (all, inv = '1')
  | _ => none

/-- `isnew` (symmetry.py:284-290). -/
def isnew {α : Type} [DecidableEq α] (g : α) (l : List α) : Bool := l.all fun x => !decide (g = x)

/-- Inner loop over `k2` (symmetry.py:169-193, 264-279): products of `g1` with the
entries from index `k2` on, new ones being appended. The flag reports that the bound on
the number of operators was reached, which ends both loops. `fuel` bounds the number of
rounds. -/
def inner {α : Type} [DecidableEq α] (mul : α → α → α) (bound : Nat) (g1 : α) : Nat → Nat → List α → List α × Bool
  | 0, _, l => (l, false)
  | fuel + 1, k2, l =>
    match l[k2]? with
    | none => (l, false)
    | some g2 =>
      let gnew := mul g1 g2
      if isnew gnew l then
        let l := l ++ [gnew]
        if l.length ≥ bound then (l, true) else inner mul bound g1 fuel (k2 + 1) l
      else inner mul bound g1 fuel (k2 + 1) l

/-- Outer loop over `k1` (symmetry.py:163-195, 258-281). -/
def outer {α : Type} [DecidableEq α] (mul : α → α → α) (bound : Nat) : Nat → Nat → List α → List α
  | 0, _, l => l
  | fuel + 1, k1, l =>
    match l[k1]? with
    | none => l
    | some g1 =>
      match inner mul bound g1 (bound + 1) k1 l with
      | (l, true) => l
      | (l, false) => outer mul bound fuel (k1 + 1) l

/-- The product used in `GenerateSGSym`: translations reduced to fractions. -/
def Op.comp (p q : Op) : Op := (p.mul q).frac

/-- The operators generated by `GenerateSGSym` (symmetry.py:143-195) from generators. -/
def generate (gens : List Op) : List Op := outer Op.comp 192 193 0 gens

/-- `SYM_GL` (constants.py:3966-4205), trailing blanks omitted. -/
def symGL : List (List Char) := [
  ['0','0','0'],
  ['1','0','0'],
  ['0','1','c','O','O','O','0'],
  ['0','1','c','O','D','O','0'],
  ['0','2','a','D','D','O','c','O','O','O','0'],
  ['0','1','j','O','O','O','0'],
  ['0','1','j','O','O','D','0'],
  ['0','2','a','D','D','O','j','O','O','O','0'],
  ['0','2','a','D','D','O','j','O','O','D','0'],
  ['1','1','c','O','O','O','0'],
  ['1','1','c','O','D','O','0'],
  ['1','2','a','D','D','O','c','O','O','O','0'],
  ['1','1','c','O','O','D','0'],
  ['1','1','c','O','D','D','0'],
  ['1','2','a','D','D','O','c','O','O','D','0'],
  ['0','2','b','O','O','O','c','O','O','O','0'],
  ['0','2','b','O','O','D','c','O','O','D','0'],
  ['0','2','b','O','O','O','c','D','D','O','0'],
  ['0','2','b','D','O','D','c','O','D','D','0'],
  ['0','3','a','D','D','O','b','O','O','D','c','O','O','D','0'],
  ['0','3','a','D','D','O','b','O','O','O','c','O','O','O','0'],
  ['0','4','a','O','D','D','a','D','O','D','b','O','O','O','c','O','O','O','0'],
  ['0','3','a','D','D','D','b','O','O','O','c','O','O','O','0'],
  ['0','3','a','D','D','D','b','D','O','D','c','O','D','D','0'],
  ['0','2','b','O','O','O','j','O','O','O','0'],
  ['0','2','b','O','O','D','j','O','O','D','0'],
  ['0','2','b','O','O','O','j','O','O','D','0'],
  ['0','2','b','O','O','O','j','D','O','O','0'],
  ['0','2','b','O','O','D','j','D','O','O','0'],
  ['0','2','b','O','O','O','j','O','D','D','0'],
  ['0','2','b','D','O','D','j','D','O','D','0'],
  ['0','2','b','O','O','O','j','D','D','O','0'],
  ['0','2','b','O','O','D','j','D','D','O','0'],
  ['0','2','b','O','O','O','j','D','D','D','0'],
  ['0','3','a','D','D','O','b','O','O','O','j','O','O','O','0'],
  ['0','3','a','D','D','O','b','O','O','D','j','O','O','D','0'],
  ['0','3','a','D','D','O','b','O','O','O','j','O','O','D','0'],
  ['0','3','a','O','D','D','b','O','O','O','j','O','O','O','0'],
  ['0','3','a','O','D','D','b','O','O','O','j','O','D','O','0'],
  ['0','3','a','O','D','D','b','O','O','O','j','D','O','O','0'],
  ['0','3','a','O','D','D','b','O','O','O','j','D','D','O','0'],
  ['0','4','a','O','D','D','a','D','O','D','b','O','O','O','j','O','O','O','0'],
  ['0','4','a','O','D','D','a','D','O','D','b','O','O','O','j','B','B','B','0'],
  ['0','3','a','D','D','D','b','O','O','O','j','O','O','O','0'],
  ['0','3','a','D','D','D','b','O','O','O','j','D','D','O','0'],
  ['0','3','a','D','D','D','b','O','O','O','j','D','O','O','0'],
  ['1','2','b','O','O','O','c','O','O','O','0'],
  ['0','3','b','O','O','O','c','O','O','O','h','D','D','D','1','B','B','B'],
  ['1','2','b','O','O','O','c','O','O','D','0'],
  ['0','3','b','O','O','O','c','O','O','O','h','D','D','O','1','B','B','O'],
  ['1','2','b','D','O','O','c','O','O','O','0'],
  ['1','2','b','D','O','O','c','D','D','D','0'],
  ['1','2','b','D','O','D','c','D','O','D','0'],
  ['1','2','b','D','O','O','c','O','O','D','0'],
  ['1','2','b','O','O','O','c','D','D','O','0'],
  ['1','2','b','D','D','O','c','O','D','D','0'],
  ['1','2','b','O','O','D','c','O','D','D','0'],
  ['1','2','b','O','O','O','c','D','D','D','0'],
  ['0','3','b','O','O','O','c','D','D','O','h','D','D','O','1','B','B','O'],
  ['1','2','b','D','D','D','c','O','O','D','0'],
  ['1','2','b','D','O','D','c','O','D','D','0'],
  ['1','2','b','D','O','D','c','O','D','O','0'],
  ['1','3','a','D','D','O','b','O','O','D','c','O','O','D','0'],
  ['1','3','a','D','D','O','b','O','D','D','c','O','D','D','0'],
  ['1','3','a','D','D','O','b','O','O','O','c','O','O','O','0'],
  ['1','3','a','D','D','O','b','O','O','O','c','O','O','D','0'],
  ['1','3','a','D','D','O','b','O','D','O','c','O','D','O','0'],
  ['0','4','a','D','D','O','b','D','D','O','c','O','O','O','h','O','D','D','1','O','B','B'],
  ['1','4','a','O','D','D','a','D','O','D','b','O','O','O','c','O','O','O','0'],
  ['0','5','a','O','D','D','a','D','O','D','b','O','O','O','c','O','O','O','h','B','B','B','1','Z','Z','Z'],
  ['1','3','a','D','D','D','b','O','O','O','c','O','O','O','0'],
  ['1','3','a','D','D','D','b','O','O','O','c','D','D','O','0'],
  ['1','3','a','D','D','D','b','D','O','D','c','O','D','D','0'],
  ['1','3','a','D','D','D','b','O','D','O','c','O','D','O','0'],
  ['0','2','b','O','O','O','g','O','O','O','0'],
  ['0','2','b','O','O','D','g','O','O','B','0'],
  ['0','2','b','O','O','O','g','O','O','D','0'],
  ['0','2','b','O','O','D','g','O','O','F','0'],
  ['0','3','a','D','D','D','b','O','O','O','g','O','O','O','0'],
  ['0','3','a','D','D','D','b','D','D','D','g','O','D','B','0'],
  ['0','2','b','O','O','O','m','O','O','O','0'],
  ['0','3','a','D','D','D','b','O','O','O','m','O','O','O','0'],
  ['1','2','b','O','O','O','g','O','O','O','0'],
  ['1','2','b','O','O','O','g','O','O','D','0'],
  ['0','3','b','O','O','O','g','D','D','O','h','D','D','O','1','Y','B','O'],
  ['0','3','b','O','O','O','g','D','D','D','h','D','D','D','1','Y','Y','Y'],
  ['1','3','a','D','D','D','b','O','O','O','g','O','O','O','0'],
  ['0','4','a','D','D','D','b','D','D','D','g','O','D','B','h','O','D','B','1','O','Y','Z'],
  ['0','3','b','O','O','O','g','O','O','O','c','O','O','O','0'],
  ['0','3','b','O','O','O','g','D','D','O','c','D','D','O','0'],
  ['0','3','b','O','O','D','g','O','O','B','c','O','O','O','0'],
  ['0','3','b','O','O','D','g','D','D','B','c','D','D','B','0'],
  ['0','3','b','O','O','O','g','O','O','D','c','O','O','O','0'],
  ['0','3','b','O','O','O','g','D','D','D','c','D','D','D','0'],
  ['0','3','b','O','O','D','g','O','O','F','c','O','O','O','0'],
  ['0','3','b','O','O','D','g','D','D','F','c','D','D','F','0'],
  ['0','4','a','D','D','D','b','O','O','O','g','O','O','O','c','O','O','O','0'],
  ['0','4','a','D','D','D','b','D','D','D','g','O','D','B','c','D','O','F','0'],
  ['0','3','b','O','O','O','g','O','O','O','j','O','O','O','0'],
  ['0','3','b','O','O','O','g','O','O','O','j','D','D','O','0'],
  ['0','3','b','O','O','O','g','O','O','D','j','O','O','D','0'],
  ['0','3','b','O','O','O','g','D','D','D','j','D','D','D','0'],
  ['0','3','b','O','O','O','g','O','O','O','j','O','O','D','0'],
  ['0','3','b','O','O','O','g','O','O','O','j','D','D','D','0'],
  ['0','3','b','O','O','O','g','O','O','D','j','O','O','O','0'],
  ['0','3','b','O','O','O','g','O','O','D','j','D','D','O','0'],
  ['0','4','a','D','D','D','b','O','O','O','g','O','O','O','j','O','O','O','0'],
  ['0','4','a','D','D','D','b','O','O','O','g','O','O','O','j','O','O','D','0'],
  ['0','4','a','D','D','D','b','D','D','D','g','O','D','B','j','O','O','O','0'],
  ['0','4','a','D','D','D','b','D','D','D','g','O','D','B','j','O','O','D','0'],
  ['0','3','b','O','O','O','m','O','O','O','c','O','O','O','0'],
  ['0','3','b','O','O','O','m','O','O','O','c','O','O','D','0'],
  ['0','3','b','O','O','O','m','O','O','O','c','D','D','O','0'],
  ['0','3','b','O','O','O','m','O','O','O','c','D','D','D','0'],
  ['0','3','b','O','O','O','m','O','O','O','j','O','O','O','0'],
  ['0','3','b','O','O','O','m','O','O','O','j','O','O','D','0'],
  ['0','3','b','O','O','O','m','O','O','O','j','D','D','O','0'],
  ['0','3','b','O','O','O','m','O','O','O','j','D','D','D','0'],
  ['0','4','a','D','D','D','b','O','O','O','m','O','O','O','j','O','O','O','0'],
  ['0','4','a','D','D','D','b','O','O','O','m','O','O','O','j','O','O','D','0'],
  ['0','4','a','D','D','D','b','O','O','O','m','O','O','O','c','O','O','O','0'],
  ['0','4','a','D','D','D','b','O','O','O','m','O','O','O','c','D','O','F','0'],
  ['1','3','b','O','O','O','g','O','O','O','c','O','O','O','0'],
  ['1','3','b','O','O','O','g','O','O','O','c','O','O','D','0'],
  ['0','4','b','O','O','O','g','O','O','O','c','O','O','O','h','D','D','O','1','Y','Y','O'],
  ['0','4','b','O','O','O','g','O','O','O','c','O','O','O','h','D','D','D','1','Y','Y','Y'],
  ['1','3','b','O','O','O','g','O','O','O','c','D','D','O','0'],
  ['1','3','b','O','O','O','g','O','O','O','c','D','D','D','0'],
  ['0','4','b','O','O','O','g','D','D','O','c','D','D','O','h','D','D','O','1','Y','B','O'],
  ['0','4','b','O','O','O','g','D','D','O','c','D','D','D','h','D','D','O','1','Y','B','O'],
  ['1','3','b','O','O','O','g','O','O','D','c','O','O','O','0'],
  ['1','3','b','O','O','O','g','O','O','D','c','O','O','D','0'],
  ['0','4','b','O','O','O','g','D','D','D','c','O','O','D','h','D','D','D','1','Y','B','Y'],
  ['0','4','b','O','O','O','g','D','D','D','c','O','O','O','h','D','D','D','1','Y','B','Y'],
  ['1','3','b','O','O','O','g','O','O','D','c','D','D','O','0'],
  ['1','3','b','O','O','O','g','D','D','D','c','D','D','D','0'],
  ['0','4','b','O','O','O','g','D','D','D','c','D','D','D','h','D','D','D','1','Y','B','Y'],
  ['0','4','b','O','O','O','g','D','D','D','c','D','D','O','h','D','D','D','1','Y','B','Y'],
  ['1','4','a','D','D','D','b','O','O','O','g','O','O','O','c','O','O','O','0'],
  ['1','4','a','D','D','D','b','O','O','O','g','O','O','O','c','O','O','D','0'],
  ['0','5','a','D','D','D','b','D','D','D','g','O','D','B','c','D','O','F','h','O','D','B','1','O','B','Z'],
  ['0','5','a','D','D','D','b','D','D','D','g','O','D','B','c','D','O','B','h','O','D','B','1','O','B','Z'],
  ['0','1','n','O','O','O','0'],
  ['0','1','n','O','O','C','0'],
  ['0','1','n','O','O','E','0'],
  ['0','2','a','E','C','C','n','O','O','O','0'],
  ['1','1','n','O','O','O','0'],
  ['1','2','a','E','C','C','n','O','O','O','0'],
  ['0','2','n','O','O','O','f','O','O','O','0'],
  ['0','2','n','O','O','O','e','O','O','O','0'],
  ['0','2','n','O','O','C','f','O','O','E','0'],
  ['0','2','n','O','O','C','e','O','O','O','0'],
  ['0','2','n','O','O','E','f','O','O','C','0'],
  ['0','2','n','O','O','E','e','O','O','O','0'],
  ['0','3','a','E','C','C','n','O','O','O','e','O','O','O','0'],
  ['0','2','n','O','O','O','k','O','O','O','0'],
  ['0','2','n','O','O','O','l','O','O','O','0'],
  ['0','2','n','O','O','O','k','O','O','D','0'],
  ['0','2','n','O','O','O','l','O','O','D','0'],
  ['0','3','a','E','C','C','n','O','O','O','k','O','O','O','0'],
  ['0','3','a','E','C','C','n','O','O','O','k','O','O','D','0'],
  ['1','2','n','O','O','O','f','O','O','O','0'],
  ['1','2','n','O','O','O','f','O','O','D','0'],
  ['1','2','n','O','O','O','e','O','O','O','0'],
  ['1','2','n','O','O','O','e','O','O','D','0'],
  ['1','3','a','E','C','C','n','O','O','O','e','O','O','O','0'],
  ['1','3','a','E','C','C','n','O','O','O','e','O','O','D','0'],
  ['0','2','n','O','O','O','b','O','O','O','0'],
  ['0','2','n','O','O','C','b','O','O','D','0'],
  ['0','2','n','O','O','E','b','O','O','D','0'],
  ['0','2','n','O','O','E','b','O','O','O','0'],
  ['0','2','n','O','O','C','b','O','O','O','0'],
  ['0','2','n','O','O','O','b','O','O','D','0'],
  ['0','2','n','O','O','O','i','O','O','O','0'],
  ['1','2','n','O','O','O','b','O','O','O','0'],
  ['1','2','n','O','O','O','b','O','O','D','0'],
  ['0','3','n','O','O','O','b','O','O','O','e','O','O','O','0'],
  ['0','3','n','O','O','C','b','O','O','D','e','O','O','C','0'],
  ['0','3','n','O','O','E','b','O','O','D','e','O','O','E','0'],
  ['0','3','n','O','O','E','b','O','O','O','e','O','O','E','0'],
  ['0','3','n','O','O','C','b','O','O','O','e','O','O','C','0'],
  ['0','3','n','O','O','O','b','O','O','D','e','O','O','O','0'],
  ['0','3','n','O','O','O','b','O','O','O','k','O','O','O','0'],
  ['0','3','n','O','O','O','b','O','O','O','k','O','O','D','0'],
  ['0','3','n','O','O','O','b','O','O','D','k','O','O','D','0'],
  ['0','3','n','O','O','O','b','O','O','D','k','O','O','O','0'],
  ['0','3','n','O','O','O','i','O','O','O','k','O','O','O','0'],
  ['0','3','n','O','O','O','i','O','O','D','k','O','O','D','0'],
  ['0','3','n','O','O','O','i','O','O','O','e','O','O','O','0'],
  ['0','3','n','O','O','O','i','O','O','D','e','O','O','O','0'],
  ['1','3','n','O','O','O','b','O','O','O','e','O','O','O','0'],
  ['1','3','n','O','O','O','b','O','O','O','e','O','O','D','0'],
  ['1','3','n','O','O','O','b','O','O','D','e','O','O','D','0'],
  ['1','3','n','O','O','O','b','O','O','D','e','O','O','O','0'],
  ['0','3','b','O','O','O','c','O','O','O','d','O','O','O','0'],
  ['0','5','a','O','D','D','a','D','O','D','b','O','O','O','c','O','O','O','d','O','O','O','0'],
  ['0','4','a','D','D','D','b','O','O','O','c','O','O','O','d','O','O','O','0'],
  ['0','3','b','D','O','D','c','O','D','D','d','O','O','O','0'],
  ['0','4','a','D','D','D','b','D','O','D','c','O','D','D','d','O','O','O','0'],
  ['1','3','b','O','O','O','c','O','O','O','d','O','O','O','0'],
  ['0','4','b','O','O','O','c','O','O','O','d','O','O','O','h','D','D','D','1','Y','Y','Y'],
  ['1','5','a','O','D','D','a','D','O','D','b','O','O','O','c','O','O','O','d','O','O','O','0'],
  ['0','6','a','O','D','D','a','D','O','D','b','O','O','O','c','O','O','O','d','O','O','O','h','B','B','B','1','Z','Z','Z'],
  ['1','4','a','D','D','D','b','O','O','O','c','O','O','O','d','O','O','O','0'],
  ['1','3','b','D','O','D','c','O','D','D','d','O','O','O','0'],
  ['1','4','a','D','D','D','b','D','O','D','c','O','D','D','d','O','O','O','0'],
  ['0','4','b','O','O','O','c','O','O','O','d','O','O','O','e','O','O','O','0'],
  ['0','4','b','O','O','O','c','O','O','O','d','O','O','O','e','D','D','D','0'],
  ['0','6','a','O','D','D','a','D','O','D','b','O','O','O','c','O','O','O','d','O','O','O','e','O','O','O','0'],
  ['0','6','a','O','D','D','a','D','O','D','b','O','D','D','c','D','D','O','d','O','O','O','e','F','B','F','0'],
  ['0','5','a','D','D','D','b','O','O','O','c','O','O','O','d','O','O','O','e','O','O','O','0'],
  ['0','4','b','D','O','D','c','O','D','D','d','O','O','O','e','B','F','F','0'],
  ['0','4','b','D','O','D','c','O','D','D','d','O','O','O','e','F','B','B','0'],
  ['0','5','a','D','D','D','b','D','O','D','c','O','D','D','d','O','O','O','e','F','B','B','0'],
  ['0','4','b','O','O','O','c','O','O','O','d','O','O','O','l','O','O','O','0'],
  ['0','6','a','O','D','D','a','D','O','D','b','O','O','O','c','O','O','O','d','O','O','O','l','O','O','O','0'],
  ['0','5','a','D','D','D','b','O','O','O','c','O','O','O','d','O','O','O','l','O','O','O','0'],
  ['0','4','b','O','O','O','c','O','O','O','d','O','O','O','l','D','D','D','0'],
  ['0','6','a','O','D','D','a','D','O','D','b','O','O','O','c','O','O','O','d','O','O','O','l','D','D','D','0'],
  ['0','5','a','D','D','D','b','D','O','D','c','O','D','D','d','O','O','O','l','B','B','B','0'],
  ['1','4','b','O','O','O','c','O','O','O','d','O','O','O','e','O','O','O','0'],
  ['0','5','b','O','O','O','c','O','O','O','d','O','O','O','e','O','O','O','h','D','D','D','1','Y','Y','Y'],
  ['1','4','b','O','O','O','c','O','O','O','d','O','O','O','e','D','D','D','0'],
  ['0','5','b','O','O','O','c','O','O','O','d','O','O','O','e','D','D','D','h','D','D','D','1','Y','Y','Y'],
  ['1','6','a','O','D','D','a','D','O','D','b','O','O','O','c','O','O','O','d','O','O','O','e','O','O','O','0'],
  ['1','6','a','O','D','D','a','D','O','D','b','O','O','O','c','O','O','O','d','O','O','O','e','D','D','D','0'],
  ['0','7','a','O','D','D','a','D','O','D','b','O','D','D','c','D','D','O','d','O','O','O','e','F','B','F','h','B','B','B','1','Z','Z','Z'],
  ['0','7','a','O','D','D','a','D','O','D','b','O','D','D','c','D','D','O','d','O','O','O','e','F','B','F','h','F','F','F','1','X','X','X'],
  ['1','5','a','D','D','D','b','O','O','O','c','O','O','O','d','O','O','O','e','O','O','O','0'],
  ['1','5','a','D','D','D','b','D','O','D','c','O','D','D','d','O','O','O','e','F','B','B','0'],
  ['0','1','d','O','O','O','0'],
  ['1','1','d','O','O','O','0'],
  ['0','2','d','O','O','O','f','O','O','O','0'],
  ['0','2','d','O','O','O','l','O','O','O','0'],
  ['0','2','d','O','O','O','l','D','D','D','0'],
  ['1','2','d','O','O','O','f','O','O','O','0'],
  ['1','2','d','O','O','O','f','D','D','D','0']]

/-- `-np.eye(3)`. -/
def Mat.minusOne : Mat := ⟨-1,0,0, 0,-1,0, 0,0,-1⟩

/-- Appending the matrices that are new, in order (symmetry.py:222-228). -/
def addNew : List Mat → List Mat → List Mat
  | acc, [] => acc
  | acc, m :: ms => addNew (if isnew m acc then acc ++ [m] else acc) ms

/-- `GeneratePGSym` (symmetry.py:205-229): the distinct rotation parts. -/
def pointGroup : List Op → List Mat
  | [] => []
  | p :: ps => addNew [p.r] (ps.map Op.r)

/-- `GeneratePGSym_Laue` (symmetry.py:232-281). -/
def laueGroup (pg : List Mat) : List Mat :=
  if pg.any (fun s => decide (s = Mat.minusOne)) then pg
  else outer Mat.mul 48 49 0 (pg ++ [Mat.minusOne])

/-- Results of `GenerateSGSym` (symmetry.py:143-202), except the flag `symmorphic`. -/
structure SGSym where
  ops : List Op
  pg : List Mat
  laue : List Mat
  centro : Bool

/-- `GenerateSGSym` (symmetry.py:143-202, `GeneratorString` 68-82). Memoization is left
out: it is the subject of `Verif.Model.Memoize`. Python's negative indices are not
modelled: `sgnum` counts from 1. -/
def generateSGSym (sgnum setting : Nat) : Option SGSym :=
  if sgnum = 0 then none
  else do
    let s ← symGL[sgnum - 1]?
    let (gens, centro) ← makeGenerators s setting
    let ops := generate gens
    let pg := pointGroup ops
    return {
      ops := ops
      pg := pg
      laue := laueGroup pg
      centro := centro || pg.any (fun s => decide (s = Mat.minusOne)) }

end Hexrd.SpaceGroup
