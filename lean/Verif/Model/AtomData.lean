import Mathlib.Data.List.Basic

/-!
# Model of the atoms of a material (`hexrd/core/material/material.py`, `hexrd/core/material/unitcell.py`)

A material keeps the data of its atoms, and a unit cell made of them keeps its own. Rows of coordinates and occupations are lists of
numbers of any type `K`, displacement parameters are of any type `D`.
-/
namespace Hexrd.AtomData

variable {K D : Type}

/-- Atomic numbers, positions with occupations, displacement parameters and charges. -/
structure Data (K D : Type) where
  types : List ℕ
  info : List (List K)
  u : List D
  charge : List String

/-- The attributes of a material and those of its unit cell (core/material/material.py:269-279; unitcell.py:87-97). -/
structure Mat (K D : Type) where
  own : Data K D
  cell : Data K D

/-- `_newUnitcell` (core/material/material.py:261-279): a new cell of the material's data. The only check of sizes is that of the positions
(unitcell.py:1663-1671); the flag is false for the exception, which leaves the old cell. -/
def newUnitcell (m : Mat K D) : Mat K D × Bool :=
  if m.own.types.length = m.own.info.length then ({ m with cell := m.own }, true) else (m, false)

/-- The check of the positions (core/material/material.py:1369-1372). -/
def infoOk (info : List (List K)) : Bool := !info.isEmpty && info.all fun r => r.length == 4

/-- The check of the charges (core/material/material.py:1329-1346): as many as atomic numbers, and each in the table of the element. `allowed`
is the table; an element that is not in it has no charges here, where the code raises another exception. -/
def chargeOk (allowed : ℕ → List String) (types : List ℕ) (charge : List String) : Bool :=
  charge.length == types.length && (types.zip charge).all fun p => decide (p.2 ∈ allowed p.1)

/-- The checks of sizes of `_set_atomdata` (core/material/material.py:1434-1464). -/
def sizesOk (d : Data K D) : Bool :=
  d.types.length == d.info.length && d.types.length == d.u.length && d.info.length == d.u.length && d.charge.length == d.types.length

/-- `_set_atomdata` (core/material/material.py:1412-1472): the checks of sizes, the four assignments in turn, of which the second and the
last check their values, and a new cell. -/
def setAtomdata (allowed : ℕ → List String) (m : Mat K D) (d : Data K D) : Mat K D × Bool :=
  if !sizesOk d then (m, false)
  else
    let m := { m with own := { m.own with types := d.types } }
    if !infoOk d.info then (m, false)
    else
      let m := { m with own := { m.own with info := d.info } }
      let m := { m with own := { m.own with u := d.u } }
      if !chargeOk allowed m.own.types d.charge then (m, false)
      else newUnitcell { m with own := { m.own with charge := d.charge } }

/-- `a[idx]` for indices that are in range. -/
def select {α : Type} (l : List α) (idx : List ℕ) : List α := idx.filterMap fun i => l[i]?

/-- The end of `unitcell.remove_duplicate_atoms` (unitcell.py:675-689) for the indices of the atoms that are kept. -/
def cellKeep (d : Data K D) (idx : List ℕ) : Data K D := ⟨select d.types idx, select d.info idx, select d.u idx, select d.charge idx⟩

/-- `Material.remove_duplicate_atoms` (core/material/material.py:427-437). The check of the charges is the one above. -/
def removeDuplicates (allowed : ℕ → List String) (m : Mat K D) (idx : List ℕ) : Mat K D × Bool :=
  let cell := cellKeep m.cell idx
  let m := { m with cell := cell }
  if !infoOk cell.info then (m, false)
  else
    let m := { m with own := { m.own with info := cell.info, types := cell.types } }
    if !chargeOk allowed m.own.types cell.charge then (m, false)
    else ({ m with own := { m.own with charge := cell.charge } }, true)

end Hexrd.AtomData
