import Verif.Model.Stephens
import Verif.Model.SGTables
import Mathlib.Algebra.BigOperators.Group.List.Basic

/-!
# Model of the refinement parameters of phases (`hexrd/powder/wppf/wppfsupport.py`, `WPPF.py`)

Floating-point numbers are real numbers. Names are lists of characters. The parameters of lmfit are a function from names to entries:
adding a parameter brings its value within the bounds and replaces an earlier parameter of the same name. Parameters of amorphous
scattering and of texture are left out.
-/

namespace Hexrd.Params

open Hexrd.SpaceGroup

abbrev Name := List Char

/-- A parameter of lmfit: value, bounds (`none` is infinite), whether it is refined, and the names subtracted from one if it has an
expression (the only kind of expression here). -/
structure Par where
  value : ℝ
  lo : Option ℝ
  hi : Option ℝ
  vary : Bool
  expr : Option (List Name)

abbrev Pars := Name → Option Par

/-- A value brought within bounds, as lmfit does for a new parameter. -/
noncomputable def clip (lo hi : Option ℝ) (v : ℝ) : ℝ :=
  let w := match lo with
    | some a => max a v
    | none => v
  match hi with
  | some b => min b w
  | none => w

/-- `params.add`. -/
noncomputable def add (ps : Pars) (e : Name × Par) : Pars :=
  fun m => if m = e.1 then some { e.2 with value := clip e.2.lo e.2.hi e.2.value } else ps m

/-- Adding one after the other to `lmfit.Parameters()`. -/
noncomputable def addAll (L : List (Name × Par)) : Pars := L.foldl add fun _ => none

/-- `params[name].value`: an expression is one minus the values of other parameters, one after the other; `none` is a KeyError. The other
parameters have no expression. Whether lmfit brings the value of an expression within the bounds is left open (`clipExpr`). -/
noncomputable def val (clipExpr : Bool) (ps : Pars) (n : Name) : Option ℝ := do
  let p ← ps n
  match p.expr with
  | none => some p.value
  | some others => do
    let vs ← others.mapM fun o => (ps o).map Par.value
    let v := vs.foldl (fun a b => a - b) 1
    some (if clipExpr then clip p.lo p.hi v else v)

/-- `ptableinverse` (hexrd/core/constants.py:3764-3878) for the atomic numbers from 1 on. -/
def symbols : List Name := [
  ['H'], ['H', 'e'], ['L', 'i'], ['B', 'e'], ['B'], ['C'], ['N'], ['O'], ['F'], ['N', 'e'], ['N', 'a'], ['M', 'g'],
  ['A', 'l'], ['S', 'i'], ['P'], ['S'], ['C', 'l'], ['A', 'r'], ['K'], ['C', 'a'], ['S', 'c'], ['T', 'i'], ['V'], ['C', 'r'],
  ['M', 'n'], ['F', 'e'], ['C', 'o'], ['N', 'i'], ['C', 'u'], ['Z', 'n'], ['G', 'a'], ['G', 'e'], ['A', 's'], ['S', 'e'], ['B', 'r'], ['K', 'r'],
  ['R', 'b'], ['S', 'r'], ['Y'], ['Z', 'r'], ['N', 'b'], ['M', 'o'], ['T', 'c'], ['R', 'u'], ['R', 'h'], ['P', 'd'], ['A', 'g'], ['C', 'd'],
  ['I', 'n'], ['S', 'n'], ['S', 'b'], ['T', 'e'], ['I'], ['X', 'e'], ['C', 's'], ['B', 'a'], ['L', 'a'], ['C', 'e'], ['P', 'r'], ['N', 'd'],
  ['P', 'm'], ['S', 'm'], ['E', 'u'], ['G', 'd'], ['T', 'b'], ['D', 'y'], ['H', 'o'], ['E', 'r'], ['T', 'm'], ['Y', 'b'], ['L', 'u'], ['H', 'f'],
  ['T', 'a'], ['W'], ['R', 'e'], ['O', 's'], ['I', 'r'], ['P', 't'], ['A', 'u'], ['H', 'g'], ['T', 'l'], ['P', 'b'], ['B', 'i'], ['P', 'o'],
  ['A', 't'], ['R', 'n'], ['F', 'r'], ['R', 'a'], ['A', 'c'], ['T', 'h'], ['P', 'a'], ['U'], ['N', 'p'], ['P', 'u'], ['A', 'm'], ['C', 'm'],
  ['B', 'k'], ['C', 'f'], ['E', 's'], ['F', 'm'], ['M', 'd'], ['N', 'o'], ['L', 'r'], ['R', 'f'], ['D', 'b'], ['S', 'g'], ['B', 'h'], ['H', 's'],
  ['M', 't']]

/-- The symbol of an element. -/
def symOf (z : ℕ) : Name := symbols.getD (z - 1) []

/-- An atom: atomic number, position, occupation and one or six displacement parameters. -/
structure Atom where
  z : ℕ
  x : ℝ
  y : ℝ
  zc : ℝ
  occ : ℝ
  u : List ℝ

/-- A material, as far as the parameters are concerned; `letter` is the first of the Hermann-Mauguin symbol. -/
structure Mat where
  name : Name
  sgnum : ℕ
  lt : LatticeType
  letter : Char
  lp : List ℝ
  aniU : Bool
  atoms : List Atom

/-- `_shkl_name` (wppfsupport.py:530-532). -/
def shklName : Fin 15 → Name := ![['s', '4', '0', '0'], ['s', '0', '4', '0'], ['s', '0', '0', '4'], ['s', '2', '2', '0'], ['s', '2', '0', '2'], ['s', '0', '2', '2'], ['s', '3', '1', '0'], ['s', '1', '0', '3'], ['s', '0', '3', '1'], ['s', '1', '3', '0'], ['s', '3', '0', '1'], ['s', '0', '1', '3'], ['s', '2', '1', '1'], ['s', '1', '2', '1'], ['s', '1', '1', '2']]

/-- `_lpname` (wppfsupport.py:533). -/
def lpName (i : ℕ) : Name := [['a'], ['b'], ['c'], ['a', 'l', 'p', 'h', 'a'], ['b', 'e', 't', 'a'], ['g', 'a', 'm', 'm', 'a']].getD i []

/-- `_nameU` (wppfsupport.py:534). -/
def nameU (i : ℕ) : Name := [['U', '1', '1'], ['U', '2', '2'], ['U', '3', '3'], ['U', '1', '2'], ['U', '1', '3'], ['U', '2', '3']].getD i []

/-- `f"{phase}_{name}"`. -/
def qual (phase k : Name) : Name := phase ++ '_' :: k

/-- A parameter that is not refined. -/
def fixed (v : ℝ) (lo hi : Option ℝ) : Par := ⟨v, lo, hi, false, none⟩

/-- `_add_phase_dependent_parameters_pseudovoight` (wppfsupport.py:86-108). -/
noncomputable def pvEntries : List (Name × Par) :=
  [(['P'], fixed 0 (some 0) none), (['X'], fixed 0.5665 (some 0) none), (['Y'], fixed 1.90994 (some 0) none)]

/-- `_add_Shkl_terms` (wppfsupport.py:201-237) for the required terms. -/
noncomputable def shklEntries (sh : List (Fin 15)) : List (Name × Par) :=
  sh.map (fun s => (shklName s, fixed 0 (some 0) none)) ++ [(['e', 't', 'a', '_', 'f', 'w', 'h', 'm'], fixed 0.5 (some 0) (some 1))]

/-- `_add_lp_to_params` (wppfsupport.py:240-260). -/
noncomputable def lpEntries (m : Mat) : List (Name × Par) :=
  (rqpIdx m.lt).map fun i =>
    let l := m.lp.getD i 0
    (lpName i, if i < 3 then fixed l (some (l - 0.025)) (some (l + 0.025)) else fixed l (some (l - 1)) (some (l + 1)))

/-- `_add_stacking_fault_parameters` (wppfsupport.py:189-198). -/
noncomputable def sfEntries (m : Mat) : List (Name × Par) :=
  if m.sgnum = 225 then [(['s', 'f', '_', 'a', 'l', 'p', 'h', 'a'], fixed 0 (some 0) (some 1)), (['t', 'w', 'i', 'n', '_', 'b', 'e', 't', 'a'], fixed 0 (some 0) (some 1))] else []

/-- `_getnumber` (wppfsupport.py:617-623): the number of atoms of the same kind up to this one. -/
def getNumber (zs : List ℕ) : List ℕ := (List.range zs.length).map fun i => (zs.take (i + 1)).count (zs.getD i 0)

/-- `f"{elem}{label}_{k}"`. -/
def atomName (z label : ℕ) (k : Name) : Name := symOf z ++ (Nat.toDigits 10 label ++ '_' :: k)

/-- The entries of one atom (wppfsupport.py:276-302). -/
noncomputable def atomEntries (aniU : Bool) (label : ℕ) (a : Atom) : List (Name × Par) :=
  [(atomName a.z label ['x'], fixed a.x (some 0) (some 1)), (atomName a.z label ['y'], fixed a.y (some 0) (some 1)),
   (atomName a.z label ['z'], fixed a.zc (some 0) (some 1)), (atomName a.z label ['o', 'c', 'c'], fixed a.occ (some 0) (some 1))]
  ++ if aniU then (List.range 6).map fun j => (atomName a.z label (nameU j), fixed (a.u.getD j 0) (some (-0.001)) none)
     else [(atomName a.z label ['d', 'w'], fixed (a.u.getD 0 0) (some 0) none)]

/-- The labels of the atoms (wppfsupport.py:274). -/
def labels (m : Mat) : List ℕ := getNumber (m.atoms.map Atom.z)

/-- `_add_atominfo_to_params` (wppfsupport.py:263-302). -/
noncomputable def atomsEntries (m : Mat) : List (Name × Par) :=
  (m.atoms.zip (labels m)).flatMap fun a => atomEntries m.aniU a.2 a.1

/-- The names of one phase made qualified. -/
def qualify (phase : Name) (L : List (Name × Par)) : List (Name × Par) := L.map fun e => (qual phase e.1, e.2)

/-- The entries of one phase for LeBail (wppfsupport.py:434-438). -/
noncomputable def lebailEntries (m : Mat) (sh : List (Fin 15)) : List (Name × Par) :=
  pvEntries ++ shklEntries sh ++ lpEntries m ++ sfEntries m

/-- `_generate_default_parameters_pseudovoight` (wppfsupport.py:59-83). -/
noncomputable def generalEntries : List (Name × Par) :=
  [(['z', 'e', 'r', 'o', '_', 'e', 'r', 'r', 'o', 'r'], fixed 0 (some (-1)) (some 1)), (['t', 'r', 'n', 's'], fixed 0 (some (-1)) (some 1)),
   (['s', 'h', 'f', 't'], fixed 0 (some (-1)) (some 1)), (['U'], fixed 81.5 (some 0) none), (['V'], fixed 1.0337 (some 0) none),
   (['W'], fixed 5.18275 (some 0) none)]

/-- The parameters of the peak shape (wppfsupport.py:111-168, 404-416); `none` is the exception for an unknown shape. -/
noncomputable def shapeEntries : ℕ → Option (List (Name × Par))
  | 0 => some [(['H', 'L'], fixed 0.001 (some 0.0000001) (some 0.1)), (['S', 'L'], fixed 0.001 (some 0.0000001) (some 0.1))]
  | 1 => some []
  | 2 => some [(['a', 'l', 'p', 'h', 'a', '0'], fixed 14.4 (some (-100)) (some 100)), (['a', 'l', 'p', 'h', 'a', '1'], fixed 0 (some (-100)) (some 100)),
      (['b', 'e', 't', 'a', '0'], fixed 3.016 (some (-100)) (some 100)), (['b', 'e', 't', 'a', '1'], fixed (-2) (some (-100)) (some 100))]
  | 3 => some [(['s', 'i', 'g', 'm', 'a', '0'], fixed 0.1 none none), (['s', 'i', 'g', 'm', 'a', '1'], fixed 0.1 none none)]
  | 4 => some [(['t', 'a', 'u', '0'], fixed 1.58 (some (-2)) (some 2)), (['t', 'a', 'u', '1'], fixed (-1.35) (some (-2)) (some 2)),
      (['t', 'a', 'u', '2'], fixed 0.36 (some (-1)) (some 1))]
  | _ => none

/-- The Chebyshev background (wppfsupport.py:171-186, 418-432): `none` for another background; initial values that are too few are
replaced by zeros. -/
noncomputable def bkgEntries (deg : Option ℕ) (init : Option (List ℝ)) : List (Name × Par) :=
  match deg with
  | none => []
  | some d =>
    let v := match init with
      | some l => if l.length < d + 1 then List.replicate (d + 1) 0 else l
      | none => List.replicate (d + 1) 0
    (List.range (d + 1)).map fun k => (['b', 'k', 'g', '_'] ++ Nat.toDigits 10 k, fixed (v.getD k 0) none none)

/-- `phase_fraction`. -/
def pfName : Name := ['p', 'h', 'a', 's', 'e', '_', 'f', 'r', 'a', 'c', 't', 'i', 'o', 'n']

/-- `_add_phase_fractions` (wppfsupport.py:445-481) for given fractions. -/
noncomputable def fractionEntries (mats : List Mat) (pf : List ℝ) : List (Name × Par) :=
  let names := mats.map fun m => qual m.name pfName
  (names.zip pf).zipIdx.map fun e =>
    (e.1.1, ⟨e.1.2, some 0, some 1, false, if e.2 + 1 = names.length then some names.dropLast else none⟩)

/-- The fractions of materials that are not `Phases_Rietveld` (wppfsupport.py:458-459). -/
noncomputable def evenly (n : ℕ) : List ℝ := List.replicate n (1 / (n : ℝ))

/-- All entries of `_generate_default_parameters_Rietveld` (wppfsupport.py:499-526) in order, without amorphous and texture models; `none`
is an exception. The names of the materials have no hyphen any more. -/
noncomputable def entries (shape : ℕ) (deg : Option ℕ) (init : Option (List ℝ)) (mats : List Mat) (pf : List ℝ) :
    Option (List (Name × Par)) := do
  let s ← shapeEntries shape
  let sh ← mats.mapM fun m => (Stephens.required m.lt m.letter).map Prod.fst
  some (generalEntries ++ s ++ bkgEntries deg init ++ (mats.zip sh).flatMap (fun e => qualify e.1.name (lebailEntries e.1 e.2))
    ++ [(['s', 'c', 'a', 'l', 'e'], fixed 1 (some 0) none), (['P', 'h'], fixed 1 (some 0) (some 1))] ++ fractionEntries mats pf
    ++ mats.flatMap fun m => qualify m.name (atomsEntries m))

/-- `_generate_default_parameters_Rietveld`. -/
noncomputable def generate (shape : ℕ) (deg : Option ℕ) (init : Option (List ℝ)) (mats : List Mat) (pf : List ℝ) : Option Pars :=
  (entries shape deg init mats pf).map addAll

/-- `Material.name.replace('-', '_')` (wppfsupport.py:675-691). -/
def sanitize (n : Name) : Name := n.map fun c => if c = '-' then '_' else c

/-- Reading the lattice parameters back (WPPF.py:1706-1718): the values of those of the six names that are parameters; nothing happens
unless one is refined, or `force`. -/
noncomputable def setLp (force : Bool) (ps : Pars) (m : Mat) : Option (List ℝ) :=
  let found := (List.range 6).filterMap fun i => ps (qual m.name (lpName i))
  if force || found.any Par.vary then rqpFun 90 120 m.lt (found.map Par.value) else some m.lp

/-- Reading one atom back (WPPF.py:1727-1765). -/
noncomputable def setAtom (ps : Pars) (m : Mat) (label : ℕ) (a : Atom) : Option Atom := do
  let get := fun k => (ps (qual m.name (atomName a.z label k))).map Par.value
  let x ← get ['x']
  let y ← get ['y']
  let z ← get ['z']
  let o ← get ['o', 'c', 'c']
  let u ← if m.aniU then (List.range 6).mapM fun j => get (nameU j) else (get ['d', 'w']).map fun v => [v]
  some ⟨a.z, x, y, z, o, u⟩

/-- Whether a parameter of the atom is refined (WPPF.py:1743-1763). -/
def atomVary (ps : Pars) (m : Mat) (label : ℕ) (a : Atom) : Bool :=
  let vary := fun k => ((ps (qual m.name (atomName a.z label k))).map Par.vary).getD false
  vary ['x'] || vary ['y'] || vary ['z'] || vary ['o', 'c', 'c'] ||
    if m.aniU then (List.range 6).any fun j => vary (nameU j) else vary ['d', 'w']

/-- `atominfo_vary` after the loop over the atoms (WPPF.py:1690, 1743, 1756, 1761): assigned anew for each atom. -/
def atominfoVary (force : Bool) (ps : Pars) (m : Mat) : Bool :=
  (m.atoms.zip (labels m)).foldl (fun _ a => force || atomVary ps m a.2 a.1) force

/-- `lpvary` (WPPF.py:1689, 1709-1713). -/
def lpVary (force : Bool) (ps : Pars) (m : Mat) : Bool :=
  force || ((List.range 6).filterMap fun i => ps (qual m.name (lpName i))).any Par.vary

/-- Whether the structure factors are calculated again (WPPF.py:1770-1780). -/
def recalculated (force : Bool) (ps : Pars) (mats : List Mat) : Bool :=
  mats.any fun m => lpVary force ps m || atominfoVary force ps m

/-- Reading a material back (WPPF.py:1684-1765), without the stacking faults. -/
noncomputable def setBack (force : Bool) (ps : Pars) (m : Mat) : Option Mat := do
  let lp ← setLp force ps m
  let atoms ← (m.atoms.zip (labels m)).mapM fun a => setAtom ps m a.2 a.1
  some { m with lp := lp, atoms := atoms }

/-- Reading the phase fractions back (WPPF.py:1681-1682, 1791): the values over their sum. -/
noncomputable def setFractions (clipExpr : Bool) (ps : Pars) (mats : List Mat) : Option (List ℝ) := do
  let pf ← mats.mapM fun m => val clipExpr ps (qual m.name pfName)
  some (pf.map fun v => v / pf.sum)

end Hexrd.Params
