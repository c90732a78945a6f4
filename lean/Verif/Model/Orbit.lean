import Verif.Model.UnitCell

/-!
# Model of `CalcOrbit` (`hexrd/core/material/unitcell.py`:516-567)

Floating-point numbers are real numbers.
-/
namespace Hexrd.UnitCell

open Matrix Hexrd.SpaceGroup

/-- `np.dot(symmat, r)` with the 4x4 operator (unitcell.py:542). -/
noncomputable def applyOp (p : Op) (v : V3) : V3 :=
  toReal p.r *ᵥ v + ![(p.t.x : ℝ) / 24, (p.t.y : ℝ) / 24, (p.t.z : ℝ) / 24]

/-- `np.modf(x)[0]`: the fractional part with the sign of `x`. -/
noncomputable def modf (x : ℝ) : ℝ := if 0 ≤ x then x - ⌊x⌋ else x - ⌈x⌉

/-- Reduction to the cell (unitcell.py:545-550), for one coordinate. -/
noncomputable def reduce1 (x : ℝ) : ℝ :=
  let y := modf x
  let y := if y < 0 then y + 1 else y
  if |y| < 1 / 1000000 then 0 else y

/-- The loop over the positions found so far (unitcell.py:553-559): `rr` is new if it is
at 1e-3 or more from all of them. -/
noncomputable def isNewPos (L : Cell) (l : List V3) (rr : V3) : Bool :=
  l.all fun w => !decide (calcLength L (rr - w) .d < 1 / 1000)

/-- `CalcOrbit` with `reduceToUC=True` (unitcell.py:516-567): the positions; `numat` is
their number. -/
noncomputable def calcOrbit (L : Cell) (ops : List Op) (v : V3) : List V3 :=
  ops.foldl (fun l p =>
    let rr : V3 := fun i => reduce1 (applyOp p v i)
    if isNewPos L l rr then l ++ [rr] else l) [v]

/-- One row of `atom_pos`: position and occupancy. -/
structure Atom where
  pos : V3
  occ : ℝ

/-- `np.all(np.isclose(p, q))` with the default tolerances (unitcell.py:647). -/
noncomputable def samePos (p q : V3) : Bool :=
  decide (∀ i, |p i - q i| ≤ 1 / 100000000 + 1 / 100000 * |q i|)

/-- The double loop over two orbits (unitcell.py:653-665): some distance is below
`tol / 10`. -/
noncomputable def orbitsMeet (L : Cell) (ops : List Op) (tol : ℝ) (p q : V3) : Bool :=
  (calcOrbit L ops q).any fun v => (calcOrbit L ops p).any fun w => decide (calcLength L (v - w) .d < tol / 10)

/-- The loop over the atoms kept so far (unitcell.py:642-673): whether the atom is kept. -/
noncomputable def keepAtom (L : Cell) (ops : List Op) (tol : ℝ) (a : Atom) : List Atom → Bool
  | [] => true
  | k :: ks =>
    if samePos a.pos k.pos && decide (a.occ + k.occ ≤ 1) then true
    else if orbitsMeet L ops tol a.pos k.pos then false
    else keepAtom L ops tol a ks

/-- `remove_duplicate_atoms` (unitcell.py:607-674): the rows kept. The element numbers,
charges and displacement parameters selected by the same indices are left out. -/
noncomputable def removeDuplicates (L : Cell) (ops : List Op) (tol : ℝ) (atoms : List Atom) : List Atom :=
  atoms.foldl (fun kept a => if keepAtom L ops tol a kept then kept ++ [a] else kept) []

end Hexrd.UnitCell
