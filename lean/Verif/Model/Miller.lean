import Mathlib.Data.Rat.Floor
import Mathlib.Tactic.Linarith
import Mathlib.Analysis.SpecialFunctions.Trigonometric.Inverse

/-!
# Model of the index conversions for hexagonal crystals
(`hexrd/core/material/crystallography.py`:578-705)

Floating-point numbers are rational or real numbers; NaN is `none`. Arrays are lists of
rows.
-/
namespace Hexrd.Miller

/-- Assignment of a float to an element of an integer array: truncation. -/
def trunc (x : ℚ) : Int := if 0 ≤ x then ⌊x⌋ else ⌈x⌉

/-- `hexagonalIndicesFromRhombohedral` (crystallography.py:580-590) for one column; the
result array has integer type. -/
def hexFromRhomb (h : ℚ × ℚ × ℚ) : Int × Int × Int :=
  (trunc (h.1 - h.2.1), trunc (h.2.1 - h.2.2), trunc (h.1 + h.2.1 + h.2.2))

/-- `rhombohedralIndicesFromHexagonal` (crystallography.py:593-604) for one column. -/
def rhombFromHex (H : Int × Int × Int) : ℚ × ℚ × ℚ :=
  (((2 * H.1 + H.2.1 + H.2.2 : Int) : ℚ) / 3, ((-H.1 + H.2.1 + H.2.2 : Int) : ℚ) / 3,
   ((-H.1 - 2 * H.2.1 + H.2.2 : Int) : ℚ) / 3)

/-- `rhombohedralParametersFromHexagonal` (crystallography.py:607-614). -/
noncomputable def rhombParams (a c : ℝ) : ℝ × ℝ :=
  (Real.sqrt (3 * a ^ 2 + c ^ 2) / 3, 2 * Real.arcsin (3 / (2 * Real.sqrt (3 + (c / a) ^ 2))))

/-- `convert_Miller_direction_to_cartesian` (crystallography.py:617-650) for one row,
without normalisation. -/
noncomputable def toCartesian (a c : ℝ) (d : ℝ × ℝ × ℝ) : ℝ × ℝ × ℝ :=
  (1.5 * d.1 * a, Real.sqrt 3 / 2 * a * (2 * d.2.1 + d.1), d.2.2 * c)

/-- `np.mod` on floats: NaN for a zero divisor. -/
def npMod (x y : ℚ) : Option ℚ := if y = 0 then none else some (x - y * ⌊x / y⌋)

/-- `constants.epsf`. -/
def epsf : ℚ := 1 / 2 ^ 52

/-- `np.nanmin` of two values, then `lcm[np.isnan(lcm)] = 1`. -/
def nanmin : Option ℚ → Option ℚ → ℚ
  | none, none => 1
  | some x, none => x
  | none, some y => y
  | some x, some y => min x y

/-- `rem[abs(rem) < epsf] = np.nan`. -/
def dropTiny (r : Option ℚ) : Option ℚ := r.bind fun x => if |x| < epsf then none else some x

/-- The number called `lcm` (crystallography.py:674-677) for the row `(U, V, W)`. -/
def divisor (r : ℚ × ℚ × ℚ) : ℚ := nanmin (dropTiny (npMod r.1 r.2.1)) (dropTiny (npMod r.1 r.2.2))

/-- `convert_Miller_direction_to_MillerBravias` (crystallography.py:653-680) for one row,
with the redundant index left out. -/
def toMB (d : ℚ × ℚ × ℚ) : ℚ × ℚ × ℚ :=
  let r := ((2 * d.1 - d.2.1) / 3, (2 * d.2.1 - d.1) / 3, d.2.2)
  let l := divisor r
  (r.1 / l, r.2.1 / l, r.2.2 / l)

/-- The same with `suppress_redundant=False` (crystallography.py:681-683): `retval[:2]`
are the first two rows, not columns; `none`: the shapes do not fit. -/
def toMB4 (rows : List (ℚ × ℚ × ℚ)) : Option (List (ℚ × ℚ × ℚ × ℚ)) :=
  let ret := rows.map toMB
  let t := (ret.take 2).map fun r => 1 - (r.1 + r.2.1 + r.2.2)
  if t.length = ret.length then some (List.zipWith (fun r t => (r.1, r.2.1, t, r.2.2)) ret t) else none

/-- `convert_MillerBravias_direction_to_Miller` (crystallography.py:686-705) for one row. -/
def fromMB (d : ℚ × ℚ × ℚ) : ℚ × ℚ × ℚ := (2 * d.1 + d.2.1, 2 * d.2.1 + d.1, d.2.2)

end Hexrd.Miller
