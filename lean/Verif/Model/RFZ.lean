import Verif.Model.Quat
import Mathlib.Analysis.SpecialFunctions.Trigonometric.Arctan
import Mathlib.Analysis.SpecialFunctions.Pow.Real

/-!
Model of the sampling of the Rodrigues fundamental zone: hexrd/hedm/sampleOrientations.

Simplifications: real arithmetic; the constants given by decimals (`BP`) are the numbers they approximate; `None`, the value of
a function that ends without `return`, counts as false where a truth value is needed, as in Python.
-/

namespace Hexrd.RFZ
open Hexrd.Rotations

/-- A Rodrigues vector as four numbers: the axis, and the tangent of half the angle; `none` is infinity (half a turn). -/
structure Ro where
  x : ℝ
  y : ℝ
  z : ℝ
  t : Option ℝ

/-- `FZtypeArray` (core/constants.py:149-184). -/
def fzType : List ℕ :=
  [0, 0, 1, 1, 1, 2, 2, 2, 1, 1, 1, 2, 2, 2, 2, 1, 1, 2, 2, 2, 1, 1, 1, 2, 2, 2, 2, 3, 3, 4, 3, 4]

/-- `FZorderArray` (core/constants.py:186-221). -/
def fzOrder : List ℕ :=
  [0, 0, 2, 2, 2, 2, 2, 2, 4, 4, 4, 4, 4, 4, 4, 3, 3, 3, 3, 3, 6, 6, 6, 6, 6, 6, 6, 0, 0, 0, 0, 0]

/-- `BP[n - 1]` (core/constants.py:276-291) for the orders in use: the tangents of pi / 2n. -/
noncomputable def bp : ℕ → ℝ
  | 2 => 1
  | 3 => 1 / √3
  | 4 => √2 - 1
  | 6 => 2 - √3
  | _ => 0

/-- `insideCyclicFZ` (rfz.py:15-31). -/
noncomputable def insideCyclic (ro : Ro) (order : ℕ) : Prop :=
  match ro.t with
  | none => if order = 2 then ro.y = 0 else ro.z = 0
  | some t => if order = 2 then |ro.y * t| ≤ bp order else |ro.z * t| ≤ bp order

/-- `insideDihedralFZ` (rfz.py:34-75). For order 2 the function ends without a result. -/
noncomputable def insideDihedral (ro : Ro) (t : ℝ) (order : ℕ) : Prop :=
  if √3 ≤ |t| then False
  else
    let r0 := ro.x * t
    let r1 := ro.y * t
    let r2 := ro.z * t
    if |r2| ≤ bp order then
      match order with
      | 2 => False
      | 3 => |√3 / 2 * r0 + 1 / 2 * r1| ≤ 1 ∧ |√3 / 2 * r0 - 1 / 2 * r1| ≤ 1 ∧ |r1| ≤ 1
      | 4 => (|r0| ≤ 1 ∧ |r1| ≤ 1) ∧ 1 / √2 * |r0 + r1| ≤ 1 ∧ 1 / √2 * |r0 - r1| ≤ 1
      | 6 => (((|1 / 2 * r0 + √3 / 2 * r1| < 1 ∧ |√3 / 2 * r0 + 1 / 2 * r1| < 1) ∧ |1 / 2 * r0 - √3 / 2 * r1| < 1) ∧
          |√3 / 2 * r0 - 1 / 2 * r1| < 1) ∧ |r0| ≤ 1 ∧ |r1| ≤ 1
      | _ => False
    else False

/-- `insideCubicFZ` (rfz.py:78-89); `oct` is the keyword 'oct'. -/
noncomputable def insideCubic (ro : Ro) (t : ℝ) (oct : Bool) : Prop :=
  let r0 := |ro.x * t|
  let r1 := |ro.y * t|
  let r2 := |ro.z * t|
  (if oct then max (max r0 r1) r2 - bp 4 ≤ 1e-8 else True) ∧ r0 + r1 + r2 - 1 ≤ 1e-8

/-- `insideFZ` (rfz.py:92-116) and `getFZtypeandOrder` (rfz.py:8-12). -/
noncomputable def insideFZ (ro : Ro) (pgnum : ℕ) : Prop :=
  let order := fzOrder.getD (pgnum - 1) 0
  match fzType.getD (pgnum - 1) 0 with
  | 0 => True
  | 1 => insideCyclic ro order
  | 2 => match ro.t with | none => False | some t => insideDihedral ro t order
  | 3 => match ro.t with | none => False | some t => insideCubic ro t false
  | 4 => match ro.t with | none => False | some t => insideCubic ro t true
  | _ => False

/-! ### Conversions -/

open Classical in
/-- `ax2ro` (conversions.py:116-125). -/
noncomputable def ax2ro (x y z w : ℝ) : Ro :=
  if |w| < 1e-8 then ⟨0, 0, 1, some 0⟩
  else if |w - Real.pi| < 1e-8 then ⟨x, y, z, none⟩
  else ⟨x, y, z, some (Real.tan (w * 0.5))⟩

open Classical in
/-- `ro2ax` (conversions.py:134-143). -/
noncomputable def ro2ax (ro : Ro) : ℝ × ℝ × ℝ × ℝ :=
  match ro.t with
  | none => (ro.x, ro.y, ro.z, Real.pi)
  | some t =>
    if |t| < 1e-8 then (0, 0, 1, 0)
    else
      let mag := 1 / √(ro.x ^ 2 + ro.y ^ 2 + ro.z ^ 2)
      (ro.x * mag, ro.y * mag, ro.z * mag, 2 * Real.arctan t)

open Classical in
/-- `ax2qu` (conversions.py:146-153). -/
noncomputable def ax2qu (ax : ℝ × ℝ × ℝ × ℝ) : Quat ℝ :=
  if |ax.2.2.2| < 1e-8 then ⟨1, 0, 0, 0⟩
  else ⟨Real.cos (ax.2.2.2 * 0.5), ax.1 * Real.sin (ax.2.2.2 * 0.5), ax.2.1 * Real.sin (ax.2.2.2 * 0.5),
    ax.2.2.1 * Real.sin (ax.2.2.2 * 0.5)⟩

/-- `ro2qu` (conversions.py:128-131). -/
noncomputable def ro2qu (ro : Ro) : Quat ℝ := ax2qu (ro2ax ro)

/-- `sc`, `pref` and `cuA_2` (core/constants.py:237-248). -/
noncomputable def sc : ℝ := Real.pi ^ (5 / 6 : ℝ) / 6 ^ (1 / 6 : ℝ) / Real.pi ^ (2 / 3 : ℝ)
noncomputable def pref : ℝ := √(6 / Real.pi)
noncomputable def cuA2 : ℝ := 0.5 * Real.pi ^ (2 / 3 : ℝ)
/-- `prek` (core/constants.py:246). -/
noncomputable def prek : ℝ := 1.6434564029725040

/-- A point of space. -/
@[ext] structure P3 where
  x : ℝ
  y : ℝ
  z : ℝ

open Classical in
/-- `getPyramid` (conversions.py:9-30): which of the three axes the pyramid belongs to, with its sign. -/
noncomputable def getPyramid (p : P3) : ℕ :=
  if |p.x| ≤ p.z ∧ |p.y| ≤ p.z then 1
  else if |p.x| ≤ -p.z ∧ |p.y| ≤ -p.z then 2
  else if |p.z| ≤ p.x ∧ |p.y| ≤ p.x then 3
  else if |p.z| ≤ -p.x ∧ |p.y| ≤ -p.x then 4
  else if |p.x| ≤ p.y ∧ |p.z| ≤ p.y then 5
  else 6

/-- The larger of the absolute values of the coordinates. -/
noncomputable def maxAbs (p : P3) : ℝ := max (max |p.x| |p.y|) |p.z|

open Classical in
/-- The map of the pyramid around the z axis (conversions.py:53-81), on the scaled point. -/
noncomputable def pyramidMap (p : P3) : P3 :=
  if maxAbs p < 1e-8 then ⟨0, 0, 0⟩
  else if max |p.x| |p.y| < 1e-8 then ⟨0, 0, pref * p.z⟩
  else
    let t : ℝ × ℝ :=
      if |p.y| ≤ |p.x| then
        let a := Real.pi / 12 * p.y / p.x
        let q := prek * p.x / √(√2 - Real.cos a)
        ((√2 * Real.cos a - 1) * q, √2 * Real.sin a * q)
      else
        let a := Real.pi / 12 * p.x / p.y
        let q := prek * p.y / √(√2 - Real.cos a)
        (√2 * Real.sin a * q, (√2 * Real.cos a - 1) * q)
    let c := t.1 ^ 2 + t.2 ^ 2
    let q := √(1 - Real.pi * c / (24 * p.z ^ 2))
    ⟨t.1 * q, t.2 * q, pref * p.z - √Real.pi * c / √24 / p.z⟩

open Classical in
/-- `cu2ho` (conversions.py:39-88); `none` is the failed assertion. -/
noncomputable def cu2ho (cu : P3) : Option P3 :=
  if maxAbs cu ≤ cuA2 then
    let pyd := getPyramid cu
    let s : P3 := if pyd = 1 ∨ pyd = 2 then cu else if pyd = 3 ∨ pyd = 4 then ⟨cu.y, cu.z, cu.x⟩ else ⟨cu.z, cu.x, cu.y⟩
    let l := pyramidMap ⟨s.x * sc, s.y * sc, s.z * sc⟩
    -- the assignments of a pyramid; the small cube at the centre is returned before this
    some (if pyd = 1 ∨ pyd = 2 then l else if pyd = 3 ∨ pyd = 4 then ⟨l.z, l.x, l.y⟩ else ⟨l.y, l.z, l.x⟩)
  else none

open Classical in
/-- `ho2ax` (conversions.py:97-113): `fit` is the polynomial in the squared length that stands for the cosine of half the angle;
the last component is the angle. -/
noncomputable def ho2ax (fit : ℝ → ℝ) (ho : P3) : ℝ × ℝ × ℝ × ℝ :=
  let hmag := √(ho.x ^ 2 + ho.y ^ 2 + ho.z ^ 2) ^ 2
  if hmag < 1e-8 then (0, 0, 1, 0)
  else
    let s := 2 * Real.arccos (fit hmag)
    let w := if |s - Real.pi| < 1e-8 then Real.pi else s
    (ho.x / √hmag, ho.y / √hmag, ho.z / √hmag, w)

/-- `ho2ro` (conversions.py:91-94). -/
noncomputable def ho2ro (fit : ℝ → ℝ) (ho : P3) : Ro :=
  let a := ho2ax fit ho
  ax2ro a.1 a.2.1 a.2.2.1 a.2.2.2

/-- `cu2ro` (conversions.py:33-36), on the points of the cube. -/
noncomputable def cu2ro (fit : ℝ → ℝ) (cu : P3) : Ro := ho2ro fit ((cu2ho cu).getD ⟨0, 0, 0⟩)

/-! ### The sample -/

/-- The index of a grid point in the result (sampleRFZ.py:28-32). -/
def cellIndex (n ii jj kk : ℤ) : ℤ := (ii + n) * (2 * n + 1) ^ 2 + (jj + n) * (2 * n + 1) + (kk + n)

open Classical in
/-- What the body of the loop does to the result for one grid point (sampleRFZ.py:16-33): `toRo` is `cu2ro`. -/
noncomputable def sampleStep (toRo : P3 → Ro) (pgnum : ℕ) (n : ℕ) (delta shift ap2 : ℝ) (res : List (Option (Quat ℝ))) (c : ℤ × ℤ × ℤ) :
    List (Option (Quat ℝ)) :=
  let cu : P3 := ⟨(c.1 + shift) * delta, (c.2.1 + shift) * delta, (c.2.2 + shift) * delta⟩
  if maxAbs cu ≤ ap2 then
    if insideFZ (toRo cu) pgnum then res.set (cellIndex n c.1 c.2.1 c.2.2).toNat (some (ro2qu (toRo cu))) else res
  else res

/-- `_sample` and `sample` (sampleRFZ.py:10-35, 100-104): `order` is the order in which the parallel loops take the grid points;
the rows that were never set are removed. -/
noncomputable def sample (toRo : P3 → Ro) (pgnum : ℕ) (n : ℕ) (delta shift ap2 : ℝ) (order : List (ℤ × ℤ × ℤ)) : List (Quat ℝ) :=
  (order.foldl (sampleStep toRo pgnum n delta shift ap2) (List.replicate ((2 * n + 1) ^ 3) none)).filterMap id

end Hexrd.RFZ
