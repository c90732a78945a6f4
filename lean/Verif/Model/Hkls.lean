import Verif.Model.UnitCell
import Verif.Model.Absences

/-!
# Model of the generation of reflections
(`hexrd/core/material/unitcell.py` `getHKLs` and `hexrd/core/material/spacegroup.py` `_getHKLsBySS`)
-/
namespace Hexrd.Hkls

open Hexrd.SpaceGroup Hexrd.UnitCell

/-! ## `_getHKLsBySS` -/

/-- `pmrange(n)` (spacegroup.py:903-904): `n, n-1, …, -n`. -/
def pmrange (n : Nat) : List Int := (List.range (2 * n + 1)).map fun (i : Nat) => (n : Int) - i

/-- `iroot(n)` (spacegroup.py:906-907), `floor(sqrt(n))` in exact arithmetic (the float
square root is exact in this sense below 2^52). -/
def iroot (n : Nat) : Nat := Nat.sqrt n

/-- `_getHKLsBySS(ss)` (spacegroup.py:890-923) for `ss ≥ 0`; a negative `ss` raises. -/
def hklsBySS (ss : Nat) : List Vec :=
  (pmrange (iroot ss)).flatMap fun h =>
    let ss2 := (ss : Int) - h * h
    (pmrange (iroot ss2.toNat)).flatMap fun k =>
      let rem := ss2 - k * k
      if rem = 0 then [⟨h, k, 0⟩]
      else
        let l : Int := iroot rem.toNat
        if l * l = rem then [⟨h, k, l⟩, ⟨h, k, -l⟩] else []

/-! ## Families of equivalent reflections -/

/-- `_calcstar(v, sym, mat)` (unitcell.py:35-60) for integer vectors and operators: two
vectors are the same if their squared coordinate distance is below 1e-4, that is, if they
are equal. The first operator is skipped. `mat` is not used by the code. -/
def calcStar (sym : List Mat) (v : Vec) : List Vec :=
  sym.tail.foldl (fun vsym s => if s.act v ∈ vsym then vsym else vsym ++ [s.act v]) [v]

/-- The loop that clears the mask (unitcell.py:952-959). The mask depends only on the row,
because every row equal to `r` is cleared at once; the state is the list of cleared rows. -/
def clearLoop (sym : List Mat) (l : List Vec) : List Vec :=
  l.foldl (fun cleared g => if g ∈ cleared then cleared else cleared ++ (calcStar sym g).tail) []

/-- Sum of the components. -/
def vsum (v : Vec) : Int := v.x + v.y + v.z

/-- `geqv[np.argmax(np.sum(geqv, axis=1))]` (unitcell.py:966-968): the first with the largest sum. -/
def mostPositive (sym : List Mat) (g : Vec) : Vec :=
  (calcStar sym g).foldl (fun best v => if vsum best < vsum v then v else best) g

/-- `ChooseSymmetric(hkllist, InversionSymmetry)` (unitcell.py:944-972); `sym` is
`SYM_PG_r_laue` with inversion symmetry, else `SYM_PG_r`. -/
def chooseSymmetric (sym : List Mat) (l : List Vec) : List Vec :=
  let cleared := clearLoop sym l
  (l.filter fun g => g ∉ cleared).map (mostPositive sym)

/-! ## `getHKLs` -/

/-- A triple as a real vector. -/
def vec (g : Vec) : V3 := ![(g.x : ℝ), g.y, g.z]

/-- `1.0 / self.CalcLength(g, "r")`. -/
noncomputable def dspacing (L : Cell) (g : Vec) : ℝ := 1 / calcLength L (vec g) .r

/-- One loop of `CalcMaxGIndex` (unitcell.py:740-759): counting up from 1, the first `n` for
which `1.0 / self.CalcLength(n e, "r") > self.dmin` is false. (0 stands for a loop that does
not end.) -/
noncomputable def maxIndex (L : Cell) (dmin : ℝ) (e : Nat → Vec) : Nat :=
  sInf {n | 1 ≤ n ∧ ¬ dspacing L (e n) > dmin}

/-- The list of candidates (unitcell.py:1018-1032): `h` and `k` of both signs, `l ≥ 0`. -/
def box (ih ik il : Nat) : List Vec :=
  (pmrange ih).flatMap fun h => (pmrange ik).flatMap fun k =>
    ((List.range (il + 1)).map fun (i : Nat) => (il : Int) - i).map fun l => ⟨h, k, l⟩

/-- The key of `SortHKL` (unitcell.py:981-1001): length rounded to 8 digits, largest
component, sum, l, k, h. -/
structure SortKey where
  glen : ℝ
  rest : List Int

/-- Order of the keys: lexicographic. -/
def SortKey.le (a b : SortKey) : Prop := a.glen < b.glen ∨ (a.glen = b.glen ∧ a.rest ≤ b.rest)

/-- `np.round(x, 8)`. -/
noncomputable def round8 (x : ℝ) : ℝ := (npRound (x * 10 ^ 8) : ℝ) / 10 ^ 8

noncomputable def sortKey (L : Cell) (g : Vec) : SortKey :=
  ⟨round8 (calcLength L (vec g) .r), [max g.x (max g.y g.z), vsum g, g.z, g.y, g.x]⟩

open Classical in
/-- `SortHKL` (unitcell.py:974-1002). -/
noncomputable def sortHKL (L : Cell) (l : List Vec) : List Vec :=
  l.mergeSort fun a b => decide ((sortKey L a).le (sortKey L b))

open Classical in
/-- `getHKLs(dmin)` (unitcell.py:1004-1069) for a unit cell whose `dmin` is the same value
(material.py:276, 308, 1309-1319). `sym` is `SYM_PG_r_laue`. `none`: an unknown space group, or
no reflection in range, where `ChooseSymmetric` indexes an array without rows. -/
noncomputable def getHKLs (L : Cell) (sg : Nat) (sym : List Mat) (dmin : ℝ) : Option (List Vec) := do
  let ih := maxIndex L dmin fun n => ⟨n, 0, 0⟩
  let ik := maxIndex L dmin fun n => ⟨0, n, 0⟩
  let il := maxIndex L dmin fun n => ⟨0, 0, n⟩
  let allowed ← allowedHKLs sg (box ih ik il)
  let l := allowed.filter fun g => decide (g.x.natAbs + g.y.natAbs + g.z.natAbs ≠ 0) && decide (dspacing L g ≥ dmin)
  if l = [] then none
  else some (sortHKL L (chooseSymmetric sym l))

end Hexrd.Hkls
