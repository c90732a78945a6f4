/-!
Model of the calibration picks: reflections written as strings (`hexrd/core/utils/hkl.py`), the pick dictionaries of
the grain and Laue calibrators (`hexrd/core/fitting/calibration/abstract_grain.py`) and of the powder calibrator
(`hexrd/core/fitting/calibration/powder.py`; the copy in `hexrd/powder/fitting` has the same code).

Simplifications: a string is the list of its characters, white space and digits are those of ASCII, numerals with
underscores are not accepted, a dictionary is the list of its items in order of insertion, an exception is `none`.
Coordinates of the powder rows are rational numbers (NaN and infinity do not occur).
-/
namespace Hexrd.Picks

abbrev Str := List Char

/-- A character of white space for `str.split()` (utils/hkl.py:13). -/
def isSpace (c : Char) : Bool :=
  c = ' ' || c = '\t' || c = '\n' || c = '\r' || c.toNat = 11 || c.toNat = 12 || (28 ≤ c.toNat && c.toNat ≤ 31)

/-- The words of a string from a started word on. -/
def splitFrom : Str → Str → List Str
  | cur, [] => if cur = [] then [] else [cur.reverse]
  | cur, c :: s =>
    if isSpace c then (if cur = [] then splitFrom [] s else cur.reverse :: splitFrom [] s)
    else splitFrom (c :: cur) s

/-- `str.split()` (utils/hkl.py:13). -/
def split (s : Str) : List Str := splitFrom [] s

/-- The value of a numeral. -/
def numeral : Nat → Str → Option Nat
  | acc, [] => some acc
  | acc, c :: s => if 48 ≤ c.toNat && c.toNat ≤ 57 then numeral (10 * acc + (c.toNat - 48)) s else none

/-- A numeral has at least one digit. -/
def digits (s : Str) : Option Nat := if s = [] then none else numeral 0 s

/-- `int(word)` (utils/hkl.py:13): a sign may come first. -/
def parseInt : Str → Option Int
  | '-' :: s => (digits s).map fun n : Nat => -(n : Int)
  | '+' :: s => (digits s).map fun n : Nat => (n : Int)
  | s => (digits s).map fun n : Nat => (n : Int)

/-- `str_to_hkl` (utils/hkl.py:12-13). -/
def strToHkl (s : Str) : Option (List Int) := (split s).mapM parseInt

/-- A decimal digit. -/
def digitChar (n : Nat) : Char := Char.ofNat (48 + n)

/-- `str` of a natural number. -/
def decimal (n : Nat) : Str :=
  if n < 10 then [digitChar n] else decimal (n / 10) ++ [digitChar (n % 10)]
termination_by n
decreasing_by omega

/-- `str` of an integer. -/
def intStr (i : Int) : Str := if i < 0 then '-' :: decimal i.natAbs else decimal i.natAbs

/-- The items of a list as `str(list)` joins them. -/
def joinComma : List Str → Str
  | [] => []
  | [x] => x
  | x :: xs => x ++ [',', ' '] ++ joinComma xs

/-- `str(list)` for a list of integers. -/
def listStr (l : List Int) : Str := '[' :: (joinComma (l.map intStr) ++ [']'])

/-- The characters that `hklToStr` takes out (crystallography.py:112). -/
def isBracket (c : Char) : Bool :=
  c = '[' || c = ']' || c = '(' || c = ')' || c = '{' || c = '}' || c = ','

/-- `hkl_to_str` (utils/hkl.py:6-9, crystallography.py:97-112). -/
def hklToStr (l : List Int) : Str := (listStr l).filter fun c => !isBracket c

/-! ### Dictionaries -/

/-- `d[k] = v`: a new key comes last. -/
def dictSet {β : Type} : List (Str × β) → Str → β → List (Str × β)
  | [], k, v => [(k, v)]
  | (k', v') :: d, k, v => if k' = k then (k, v) :: d else (k', v') :: dictSet d k v

/-- `d[k]`. -/
def dictGet {β : Type} (d : List (Str × β)) (k : Str) : Option β := (d.find? fun p => p.1 = k).map Prod.snd

/-! ### Picks of a grain -/

/-- What `calibration_picks` of a grain or Laue calibrator takes: for each detector a dictionary from reflection
strings to points (abstract_grain.py:155-164); a point is two coordinates, or three with the rotation angle. -/
abbrev GrainPicks (P : Type) := List (Str × List (Str × P))

/-- `data_dict`, with the two entries `hkls` and `pick_xys` of a detector side by side
(abstract_grain.py:157-166). -/
abbrev GrainData (P : Type) := List (Str × (List (List Int) × List P))

/-- The setter of `calibration_picks` (abstract_grain.py:155-166). -/
def setGrainPicks {P : Type} (v : GrainPicks P) : Option (GrainData P) :=
  v.mapM fun d => (d.2.mapM fun p => strToHkl p.1).map fun hkls => (d.1, (hkls, d.2.map Prod.snd))

/-- The getter of `calibration_picks` (abstract_grain.py:139-153) for the detectors of the instrument. -/
def getGrainPicks {P : Type} (dets : List Str) (data : GrainData P) : Option (GrainPicks P) :=
  dets.mapM fun k => (dictGet data k).map fun e =>
    (k, (e.1.zip e.2).foldl (fun acc q => dictSet acc (hklToStr q.1) q.2) [])

/-! ### Picks of powder rings -/

/-- For each detector the points picked on each ring (core/fitting/calibration/powder.py:158-174). -/
abbrev PowderPicks := List (Str × List (Str × List (Rat × Rat)))

/-- A row of eight numbers: x, y, two-theta, h, k, l, spacing, eta (core/fitting/calibration/powder.py:268-276). -/
abbrev Row := Fin 8 → Rat

/-- For each detector a list of arrays (core/fitting/calibration/powder.py:161-176, 236-284). -/
abbrev PowderData := List (Str × List (List Row))

/-- Assignment of the indices to columns 3 to 5 (core/fitting/calibration/powder.py:173): NumPy takes three numbers, or
one that it repeats. -/
def threeIndices : List Int → Option (Int × Int × Int)
  | [h, k, l] => some (h, k, l)
  | [h] => some (h, h, h)
  | _ => none

/-- A row with only the point and the indices filled in (core/fitting/calibration/powder.py:169-173). -/
def pickRow (xy : Rat × Rat) (h : Int × Int × Int) : Row := fun i =>
  match i with
  | 0 => xy.1 | 1 => xy.2 | 2 => 0 | 3 => h.1 | 4 => h.2.1 | 5 => h.2.2 | 6 => 0 | 7 => 0

/-- The setter of `calibration_picks` (core/fitting/calibration/powder.py:158-176): a reflection without picks is
skipped before its string is read. -/
def setPowderPicks (v : PowderPicks) : Option PowderData :=
  v.mapM fun d => ((d.2.filter fun p => p.2 ≠ []).mapM fun p =>
    ((strToHkl p.1).bind threeIndices).map fun h => p.2.map fun xy => pickRow xy h).map fun arrays => (d.1, arrays)

/-- `astype(int)`: the fraction is cut off (core/fitting/calibration/powder.py:151). -/
def toInt (q : Rat) : Int := q.num.tdiv q.den

/-- The indices of a row (core/fitting/calibration/powder.py:151). -/
def rowHkl (r : Row) : List Int := [toInt (r 3), toInt (r 4), toInt (r 5)]

/-- `setdefault(k, []).append(x)` (core/fitting/calibration/powder.py:152-154). -/
def appendTo {β : Type} (d : List (Str × List β)) (k : Str) (x : β) : List (Str × List β) :=
  dictSet d k ((dictGet d k).getD [] ++ [x])

/-- The getter of `calibration_picks` (core/fitting/calibration/powder.py:142-156). -/
def getPowderPicks (data : PowderData) : PowderPicks :=
  data.map fun d =>
    (d.1, d.2.flatten.foldl (fun acc r => appendTo acc (hklToStr (rowHkl r)) (r 0, r 1)) [])

end Hexrd.Picks
