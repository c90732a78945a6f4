import Verif.Model.Hkls
import Mathlib.Analysis.SpecialFunctions.Pow.Real
import Mathlib.Algebra.Order.Floor.Ring

/-! The March–Dollase texture model (powder/wppf/texture.py:628-800): one number per
reflection, the mean over its family of a function of the angle to a preferred axis. -/
namespace Hexrd.MarchDollase

open Hexrd.SpaceGroup Hexrd.UnitCell Hexrd.Hkls

/-- The parts of a phase that the model reads: its name, cell, reciprocal point group (the
operators that `CalcStar(g, 'r')` uses, phase.py:352-365) and reflections. -/
structure Material where
  name : List Char
  cell : Cell
  sym : List Mat
  hkls : List Vec

/-- `calc_cos_sin_alpha` (texture.py:672-678), the first value; the second is `1 -` the
first. `HKL_length` is a stored number, see `MD`. With phase.py:255-273 for the length and
the scalar product. A length of 0 makes the code divide by zero and give NaN; `none`. -/
noncomputable def cos2Alpha (L : Cell) (hkl : V3) (hklLength : ℝ) (g : Vec) : Option ℝ :=
  let gMag := calcLength L (vec g) .r
  let gdot := calcDot L (vec g) hkl .r
  if gMag = 0 ∨ hklLength = 0 then none else some ((gdot / gMag / hklLength) ^ 2)

open Classical in
/-- One term of the sum (texture.py:666-668): `(P**2 * cos2 + sin2 / P) ** -1.5`. A base that
is negative gives NaN and a base 0 gives infinity; `none`. For `P` 0 the base is infinite,
unless `sin2` is 0 or negative, and the term is 0. -/
noncomputable def term (P c : ℝ) : Option ℝ :=
  if P = 0 then (if 0 < 1 - c then some 0 else none)
  else if 0 < P ^ 2 * c + (1 - c) / P then some ((P ^ 2 * c + (1 - c) / P) ^ (-1.5 : ℝ)) else none

/-- `get_texture_factor_reflection` (texture.py:659-670). NaN in one term makes the sum NaN. -/
noncomputable def reflection (m : Material) (hkl : V3) (hklLength P : ℝ) (g : Vec) : Option ℝ :=
  let gsym := calcStar m.sym g
  let pre : ℝ := 1 / gsym.length
  (gsym.mapM fun h => (cos2Alpha m.cell hkl hklLength h).bind (term P)).map fun ts => pre * ts.sum

/-- State of the model object. `material` may be `None`; the numbers that are NaN are `none`. -/
structure MD where
  material : Option Material
  hkl : V3
  hklLength : ℝ
  p : ℝ
  factors : List (Option ℝ)

/-- `get_texture_factor` (texture.py:652-657); it fails if there is no material. -/
noncomputable def MD.getTextureFactor (s : MD) : Option MD :=
  s.material.map fun m => { s with factors := m.hkls.map (reflection m s.hkl s.hklLength s.p) }

/-- The material setter (texture.py:751-756). Nothing is computed. The same change of state
happens when the material object is edited in place, as a refinement of lattice parameters
does. -/
def MD.setMaterial (s : MD) (m : Option Material) : MD := { s with material := m }

/-- The HKL setter (texture.py:762-781) for a list or a one-dimensional array of numbers. The
vector's length is computed here and stored. `hasP` tells whether the attribute `_P_MD`
exists, which only fails in the constructor. -/
noncomputable def MD.setHKL (s : MD) (hasP : Bool) (hkl : List ℝ) : Option MD :=
  match hkl with
  | [x, y, z] => s.material.bind fun m =>
    let s' := { s with hkl := ![x, y, z], hklLength := calcLength m.cell ![x, y, z] .r }
    if hasP then s'.getTextureFactor else some s'
  | _ => none

/-- The P_MD setter (texture.py:791-800) for a number. -/
noncomputable def MD.setP (s : MD) (P : ℝ) : Option MD := { s with p := P }.getTextureFactor

/-- `__init__` (texture.py:642-650). -/
noncomputable def MD.init (m : Option Material) (hkl : List ℝ) (P : ℝ) : Option MD :=
  (MD.setHKL ⟨m, 0, 0, 0, []⟩ false hkl).bind (MD.setP · P)

/-- lmfit parameters: value and `vary` of each name. -/
abbrev Params := List Char → Option (ℝ × Bool)

/-- `f'{self.material.name}_p_md'`. -/
def pname (m : Material) : List Char := m.name ++ ['_', 'p', '_', 'm', 'd']

/-- `calc_texture_factor` (texture.py:711-723): the new state and the result. The azimuth
arguments are not used by the code. -/
noncomputable def MD.calcTextureFactor (s : MD) (params : Params) : Option (MD × List (Option ℝ)) :=
  s.material.bind fun m =>
    match params (pname m) with
    | some v => (s.setP v.1).map fun s' => (s', s'.factors)
    | none => some (s, s.factors)

/-- `texture_index` (texture.py:725-730). -/
noncomputable def MD.textureIndex (s : MD) (params : Params) : Option (MD × ℝ) :=
  s.material.bind fun m =>
    match params (pname m) with
    | some v => (s.setP v.1).map fun s' => (s', s'.p)
    | none => some (s, s.p)

/-- `get_parameters` (texture.py:732-745). `vary` is not used by the code. `None` for the
parameters is the empty set. `add` replaces a parameter of the same name. -/
def MD.getParameters (s : MD) (params : Params) (_vary : Bool) : Option Params :=
  s.material.map fun m => fun n => if n = pname m then some (1, false) else params n

/-- Python's `int` of a real number. -/
noncomputable def truncate (x : ℝ) : ℤ := if 0 ≤ x then ⌊x⌋ else ⌈x⌉

/-- `calc_pf_rings` (texture.py:680-709): the rings in the order of the reflections, each with
its key. A missing parameter is a `KeyError`, another `calc_type` and a negative number of
points raise `ValueError`. The step must not be 0. -/
noncomputable def MD.calcPfRings (s : MD) (params : Params) (etaMin etaMax etaStep : ℝ) (spectrum2d : Bool) :
    Option (MD × List (Vec × List (Option ℝ))) :=
  s.material.bind fun m =>
    (params (pname m)).bind fun v =>
      (s.setP v.1).bind fun s' =>
        let nspec := truncate ((etaMax - etaMin) / etaStep) - 1
        if spectrum2d = false ∨ etaStep = 0 ∨ (nspec < 0 ∧ m.hkls ≠ []) then none
        else some (s', (m.hkls.zip s'.factors).map fun hf => (hf.1, List.replicate nspec.toNat hf.2))

/-- The calls a user can make. -/
inductive Op where
  | setMaterial (m : Option Material)
  | setHKL (hkl : List ℝ)
  | setP (P : ℝ)
  | factor (params : Params)
  | index (params : Params)
  | rings (params : Params) (etaMin etaMax etaStep : ℝ)

/-- One call; `none` if it raises. -/
noncomputable def step (s : MD) : Op → Option MD
  | .setMaterial m => some (s.setMaterial m)
  | .setHKL h => s.setHKL true h
  | .setP P => s.setP P
  | .factor ps => (s.calcTextureFactor ps).map (·.1)
  | .index ps => (s.textureIndex ps).map (·.1)
  | .rings ps a b c => (s.calcPfRings ps a b c true).map (·.1)

/-- Calls one after the other. -/
noncomputable def run : MD → List Op → Option MD
  | s, [] => some s
  | s, o :: l => (step s o).bind (run · l)

end Hexrd.MarchDollase
