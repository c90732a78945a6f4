import Mathlib.Data.List.Basic
import Mathlib.Data.Real.Basic
import Mathlib.Analysis.SpecialFunctions.Trigonometric.Basic

/-! Model of files of materials: `Material.dump_material`, `_readHDFxtal` and `__init__` of /repo/hexrd/core/material/material.py and
`WriteH5Data` and the dialogue of /repo/hexrd/core/material/mksupport.py. A file is a map from names to groups. Rounding to single
precision is a parameter; other rounding, dates and the creator are left out. -/

namespace Hexrd.MaterialFile

abbrev HKL := ℤ × ℤ × ℤ

/-- An atom: its number, its charge and its position with the occupation. -/
structure Atom (C : Type) where
  z : ℤ
  charge : C
  pos : Fin 4 → ℝ

/-- One number per atom, or six. -/
inductive DW
  | iso (u : List ℝ)
  | aniso (u : List (Fin 6 → ℝ))

/-- A material as a user sees it: lengths in Ångström, angles in degrees, width of the lines in radians; `excluded` has a flag for every
reflection of its list. -/
structure Mat (C : Type) where
  lparms : Fin 6 → ℝ
  (sgnum setting : ℤ)
  atoms : List (Atom C)
  u : DW
  stiffness : Fin 6 → Fin 6 → ℝ
  eos : Fin 9 → ℝ
  (dmin kev : ℝ)
  width : Option ℝ
  excluded : List Bool

/-- A group of the file (mksupport.py:499-608): lengths in nanometres, width in degrees. -/
structure Group (C : Type) where
  lattice : Fin 6 → ℝ
  (sgnum setting : ℤ)
  (types : List ℤ)
  (charges : List C)
  (atomData : List (Fin 4 → ℝ))
  u : DW
  stiffness : Fin 6 → Fin 6 → ℝ
  eos : Fin 9 → ℝ
  (dmin kev : ℝ)
  width : Option ℝ
  hkls : Option (List HKL)

/-- What depends on the crystallography: the reflections of a cell (`unitcell.getHKLs`) and the lattice parameters made to fit the
lattice (`_reset_lparms`, material/material.py:241-259). -/
structure Lib where
  refl : (Fin 6 → ℝ) → ℤ → ℤ → ℝ → List HKL
  reset : ℤ → (Fin 6 → ℝ) → Fin 6 → ℝ

/-- The reflections of a material (material/material.py:308). -/
def reflections {C : Type} (lib : Lib) (m : Mat C) : List HKL := lib.refl m.lparms m.sgnum m.setting m.dmin

/-- `PlaneData.getHKLs` (crystallography.py:1590-1601): the reflections that are not excluded. A largest angle, which also excludes, is not
modelled. -/
def active {C : Type} (lib : Lib) (m : Mat C) : List HKL := ((reflections lib m).zip m.excluded).filterMap fun p => if p.2 then none else some p.1

/-- Rounding the factors of Debye and Waller. -/
def DW.round (f : ℝ → ℝ) : DW → DW
  | .iso u => .iso (u.map f)
  | .aniso u => .aniso (u.map fun v i => f (v i))

/-- No atom: `AtomInfo['U'][0]` raises (mksupport.py:601). -/
def DW.empty : DW → Bool
  | .iso u => u.isEmpty
  | .aniso u => u.isEmpty

/-- `dump_material` with `WriteH5Data` (material/material.py:975-1039; mksupport.py:499-608): the group, or `none` if it raises. Positions and
factors are stored in single precision (mksupport.py:584-588, 601-608); `hkls` is left out when no reflection is
enabled (mksupport.py:571-574). -/
noncomputable def dump {C : Type} (lib : Lib) (f32 : ℝ → ℝ) (m : Mat C) : Option (Group C) :=
  if m.u.empty then none
  else some
    { lattice := fun i => if i.val < 3 then m.lparms i / 10 else m.lparms i
      sgnum := m.sgnum
      setting := m.setting
      types := m.atoms.map (·.z)
      charges := m.atoms.map (·.charge)
      atomData := m.atoms.map fun a i => f32 (a.pos i)
      u := m.u.round f32
      stiffness := m.stiffness
      eos := m.eos
      dmin := m.dmin / 10
      kev := m.kev
      width := m.width.map fun w => w * 180 / Real.pi
      hkls := if (active lib m).isEmpty then none else some (active lib m) }

/-- `set_default_exclusions` (material/material.py:348-370): the reflections of the file, else the first five. -/
def exclusions (refl : List HKL) (hkls : Option (List HKL)) : List Bool :=
  match hkls with
  | some l => refl.map fun h => !decide (h ∈ l)
  | none => (List.range refl.length).map fun i => !decide (i < 5)

/-- Atoms from their parts. -/
def atomsOf {C : Type} : List ℤ → List C → List (Fin 4 → ℝ) → List (Atom C)
  | z :: zs, c :: cs, p :: ps => ⟨z, c, p⟩ :: atomsOf zs cs ps
  | _, _, _ => []

/-- `_readHDFxtal` and the rest of `__init__` (material/material.py:810-973, 225-231, 241-259, 329-343). -/
noncomputable def load {C : Type} (lib : Lib) (g : Group C) : Mat C :=
  let lparms := lib.reset g.sgnum fun i => if i.val < 3 then g.lattice i * 10 else g.lattice i
  let dmin := g.dmin * 10
  { lparms := lparms
    sgnum := g.sgnum
    setting := g.setting
    atoms := atomsOf g.types g.charges g.atomData
    u := g.u
    stiffness := g.stiffness
    eos := g.eos
    dmin := dmin
    kev := g.kev
    width := g.width.map fun w => w * Real.pi / 180
    excluded := exclusions (lib.refl lparms g.sgnum g.setting dmin) g.hkls }

/-- A file: complete groups, and groups that an error left incomplete. -/
inductive Entry (C : Type)
  | whole (g : Group C)
  | broken

abbrev File (C : Type) := String → Option (Entry C)

/-- Writing one material (mksupport.py:512-517): a group of that name is deleted first. -/
noncomputable def write {C : Type} (lib : Lib) (f32 : ℝ → ℝ) (f : File C) (name : String) (m : Mat C) : File C :=
  fun n => if n = name then some (match dump lib f32 m with | some g => .whole g | none => .broken) else f n

/-- `save_materials_hdf5` (material/material.py:1534-1537): the materials of a dictionary, each under its own name; the keys are not used. -/
noncomputable def saveAll {C : Type} (lib : Lib) (f32 : ℝ → ℝ) (f : File C) : List (String × String × Mat C) → File C
  | [] => f
  | (_, name, m) :: ms => saveAll lib f32 (write lib f32 f name m) ms

/-- Reading a material by name (`load_materials_hdf5`, material/material.py:1507-1531). -/
noncomputable def readOne {C : Type} (lib : Lib) (f : File C) (name : String) : Option (Mat C) :=
  match f name with
  | some (.whole g) => some (load lib g)
  | _ => none

/-- The crystal systems of the dialogue (mksupport.py:46-87). -/
inductive System
  | cubic | tetragonal | orthorhombic | hexagonal | rhombohedral | monoclinic | triclinic

/-- The answers that are asked for: lengths and angles; those a system does not ask for are not used. -/
structure Answers where
  (a b c alpha beta gamma : ℝ)

/-- `GetLatticeParameters` (mksupport.py:90-232). -/
noncomputable def latticeParameters (s : System) (q : Answers) : Answers :=
  match s with
  | .cubic => ⟨q.a, q.a, q.a, 90, 90, 90⟩
  | .tetragonal => ⟨q.a, q.a, q.c, 90, 90, 90⟩
  | .orthorhombic => ⟨q.a, q.c, q.c, 90, 90, 90⟩
  | .hexagonal => ⟨q.a, q.a, q.c, 90, 90, 120⟩
  | .rhombohedral => ⟨q.a, q.a, q.a, q.alpha, q.alpha, q.alpha⟩
  | .monoclinic => ⟨q.a, q.b, q.c, 90, q.beta, 90⟩
  | .triclinic => ⟨q.a, q.b, q.c, q.alpha, q.beta, q.gamma⟩

/-- The keys that the dialogue makes (mksupport.py:32-41, 343). -/
def mkKeys : List String := ["Z", "APOS", "U", "stiffness", "file", "xtalname", "xtal_sys", "SG", "SGsetting"]

/-- The keys that `WriteH5Data` looks up without asking whether they are there, in their order, after the group has been deleted
(mksupport.py:519-608). -/
def writeKeys : List String :=
  ["Z", "xtal_sys", "SG", "SGsetting", "stiffness", "pressure", "temperature", "k0", "k0p", "dk0dt", "dk0pdt", "alpha_t", "dalpha_t_dt",
    "v0", "APOS", "U"]

/-- The key whose `KeyError` ends the writing. -/
def firstMissing (keys : List String) : Option String := writeKeys.find? fun k => !decide (k ∈ keys)

/-- `mk` (mksupport.py:21-43) after the dialogue: the file, and the key that was missing. -/
def mk {C : Type} (f : File C) (name : String) (g : Group C) : File C × Option String :=
  match firstMissing mkKeys with
  | none => (fun n => if n = name then some (.whole g) else f n, none)
  | some k => (fun n => if n = name then some .broken else f n, some k)

/-- `GetSpaceGroup` in the rhombohedral setting (mksupport.py:263-282): `none` if it raises. -/
def rhombohedralGroup (sg : ℤ) : Option ℤ :=
  if sg = 146 then some 231 else if sg = 148 then some 232 else if sg = 155 then some 233 else if sg = 160 then some 234
  else if sg = 161 then some 235 else if sg = 166 then some 236 else if sg = 167 then some 237 else none

/-- The numbers of space groups that `unitcell` accepts (unitcell.py:1596-1597). -/
def accepts (sg : ℤ) : Bool := decide (1 ≤ sg) && decide (sg ≤ 230)

end Hexrd.MaterialFile
