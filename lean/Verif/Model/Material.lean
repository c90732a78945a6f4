import Verif.Model.PlaneData
import Batteries.Data.List.Perm

/-!
# Model of the changes of a material's reflection list
(`hexrd/core/material/material.py`)
-/
namespace Hexrd.PlaneData

variable {K : Type} [LinearOrder K]

/-- A `PlaneData` of any number of reflections. -/
structure AnyPD (K : Type) where
  n : Nat
  pd : PD K n

/-- Result of `unitcell.getHKLs` and of the calculation of d-spacings and two-thetas for it
(crystallography.py:794-813), with the order found by `np.argsort`. -/
structure HklList (K : Type) where
  m : Nat
  refl : Fin m → Refl K
  sort : Fin m → Fin m
  sfac : Fin m → K
  pint : Fin m → K

/-- `PlaneData(hkls, old_pdata, exclusions=None)` (crystallography.py:743-792): `tThMax` is
copied, exclusions are not. -/
def HklList.toPD (l : HklList K) (tthMax : Option K) : PD K l.m :=
  recalc ⟨l.refl, id, id, none, tthMax, l.sfac, l.pint⟩ l.refl l.sort

/-- All reflections, `getHKLs(allHKLs=True)` (crystallography.py:1542-1623). -/
def allHkls {n : Nat} (pd : PD K n) : List (Int × Int × Int) := List.ofFn fun i => (data pd i).hkl

/-- `hkls_match` (material.py:1540-1548): both arrays are sorted and compared. -/
def hklsMatch (a b : List (Int × Int × Int)) : Bool := a.isPerm b

/-- `i` is the first position of its value (`np.unique` reports the first occurrence). -/
def isFirst {n : Nat} {H : Type} [DecidableEq H] (a : Fin n → H) (i : Fin n) : Bool :=
  (List.finRange n).all fun k => !(decide (k < i) && decide (a k = a i))

/-- `map_hkls_to_new` (material.py:1551-1562): `np.intersect1d` of the reflections written
as strings, with indices. Reflections are compared instead of their strings, which
determine them; the pairs are listed in the order of the old list, not of the strings. -/
def mapHkls {n m : Nat} (old : PD K n) (new : PD K m) : List (Fin n × Fin m) :=
  (List.finRange n).flatMap fun i => ((List.finRange m).filter fun j =>
    decide ((data old i).hkl = (data new j).hkl) && isFirst (fun k => (data old k).hkl) i &&
      isFirst (fun k => (data new k).hkl) j).map fun j => (i, j)

/-- `exclusions = np.ones(...); exclusions[new_indices] = old_pdata.exclusions[old_indices]`
(material.py:321-322). -/
def mapExclusions {n m : Nat} (old : PD K n) (new : PD K m) : Fin m → Bool :=
  (mapHkls old new).foldl (fun e p => fun k => if k = p.2 then getExclusions old p.1 else e k) fun _ => true

/-- `enable_hkls_below_index` (material.py:366-370). -/
def enableBelowIndex {m : Nat} (pd : PD K m) (index : Nat) : Option (PD K m) :=
  setExclusions pd (.mask (List.ofFn fun i : Fin m => !decide (i.val < index)))

/-- `enable_hkls_from_file` (material.py:356-364). -/
def enableFromFile {m : Nat} (pd : PD K m) (file : List (Int × Int × Int)) : Option (PD K m) :=
  setExclusions pd (.mask (List.ofFn fun i : Fin m => !decide ((data pd i).hkl ∈ file)))

/-- `set_default_exclusions` (material.py:348-354). -/
def setDefault {m : Nat} (file : Option (List (Int × Int × Int))) (pd : PD K m) : Option (PD K m) :=
  match file with
  | some f => enableFromFile pd f
  | none => enableBelowIndex pd 5

/-- `_newPdata` (material.py:297-331) with an existing `PlaneData`. -/
def newPdata (file : Option (List (Int × Int × Int))) (old : AnyPD K) (l : HklList K) : Option (AnyPD K) :=
  if hklsMatch (List.ofFn fun i => (l.refl i).hkl) (allHkls old.pd) then some old
  else
    let pd := l.toPD old.pd.tthMax
    let e := mapExclusions old.pd pd
    if (List.finRange l.m).all e then (setDefault file pd).map fun p => ⟨l.m, p⟩
    else (setExclusions pd (.mask (List.ofFn e))).map fun p => ⟨l.m, p⟩

/-- A history of changes of the reflection list. -/
def changes (file : Option (List (Int × Int × Int))) : AnyPD K → List (HklList K) → Option (AnyPD K)
  | s, [] => some s
  | s, l :: ls => (newPdata file s l).bind fun s' => changes file s' ls

end Hexrd.PlaneData
