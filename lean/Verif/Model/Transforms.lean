import Mathlib.Data.Matrix.Mul
import Mathlib.LinearAlgebra.Matrix.Notation
import Mathlib.Analysis.SpecialFunctions.Trigonometric.Inverse
import Mathlib.Analysis.SpecialFunctions.Complex.Arg
import Mathlib.Algebra.Order.Floor.Ring

/-!
Model of the coordinate transforms in `hexrd/core/transforms` (`new_capi/*.c`, `cpp_sublibrary/src/transforms.cpp`
and the wrappers of `xfcapi.py`), over the real numbers.

Simplifications common to the file: floating point numbers are real numbers, NaN and an uninitialised output
are `none`, and the arrays of the API are lists or, where a function treats each entry alone, single entries.
-/

namespace Hexrd.Transforms

/-- Three-vectors. -/
abbrev V := Fin 3 → ℝ
/-- Three by three matrices, row first as in the C arrays. -/
abbrev M := Matrix (Fin 3) (Fin 3) ℝ

/-- `epsf`, `DBL_EPSILON` (`new_capi/transforms_types.h:31`). -/
noncomputable def epsf : ℝ := 1 / 2 ^ 52

/-- `sqrt_epsf` of the C module (`new_capi/transforms_types.h:34`). -/
noncomputable def sqrtEpsf : ℝ := 15 / 10 ^ 9

/-- C's `atan2(y, x)`; the sign of a zero argument is not modelled. -/
noncomputable def atan2 (y x : ℝ) : ℝ := Complex.arg ⟨x, y⟩

/-- Dot product as the loops of the C files write it. -/
def dot (a b : V) : ℝ := a 0 * b 0 + a 1 * b 1 + a 2 * b 2

/-- Cross product (`new_capi/make_beam_rmat.c:24-26, 36-38`). -/
def cross (a b : V) : V := ![a 1 * b 2 - a 2 * b 1, a 2 * b 0 - a 0 * b 2, a 0 * b 1 - a 1 * b 0]

/-- `m33_v3s_multiply`: matrix times vector (`new_capi/transforms_utils.h`). -/
def mulV (m : M) (v : V) : V :=
  ![m 0 0 * v 0 + m 0 1 * v 1 + m 0 2 * v 2, m 1 0 * v 0 + m 1 1 * v 1 + m 1 2 * v 2,
    m 2 0 * v 0 + m 2 1 * v 1 + m 2 2 * v 2]

/-- Transposed matrix times vector, `sum_k m[3*k+j] * v[k]` (`new_capi/xy_to_gvec.c:63-68`,
`new_capi/oscill_angles_of_HKLs.c:83-90`). -/
def mulTV (m : M) (v : V) : V :=
  ![m 0 0 * v 0 + m 1 0 * v 1 + m 2 0 * v 2, m 0 1 * v 0 + m 1 1 * v 1 + m 2 1 * v 2,
    m 0 2 * v 0 + m 1 2 * v 1 + m 2 2 * v 2]

/-- `unit_row_vector` (`new_capi/unit_row_vector.c:1-24`): the vector and whether it was normalised. -/
noncomputable def unitRow (v : V) : V × Bool :=
  if √(dot v v) > epsf then (fun i => v i / √(dot v v), true) else (v, false)

/-- Eigen's `normalized()`, used by `transforms.cpp`: division by the norm unless the norm is zero. -/
noncomputable def eigenUnit (v : V) : V := if dot v v > 0 then fun i => v i / √(dot v v) else v

/-! ### Rotation matrices -/

/-- `make_sample_rmat` (`new_capi/make_sample_rmat.c:1-21`; the C++ `makeOscillRotMat`, `transforms.cpp:26-50`,
writes the same nine entries for each omega). -/
noncomputable def sampleRmat (chi ome : ℝ) : M :=
  !![Real.cos ome, 0, Real.sin ome;
     Real.sin chi * Real.sin ome, Real.cos chi, -Real.sin chi * Real.cos ome;
     -Real.cos chi * Real.sin ome, Real.sin chi, Real.cos chi * Real.cos ome]

/-- `make_sample_rmat` with an array of omegas (`xfcapi.py:508-541`, `transforms.cpp:26-50`): one matrix per
omega, in order.  The SIMD batches are not modelled. -/
noncomputable def sampleRmats (chi : ℝ) (omes : List ℝ) : List M := omes.map (sampleRmat chi)

/-- `make_detector_rmat` (`new_capi/make_detector_rmat.c:1-20`). -/
noncomputable def detectorRmat (t : V) : M :=
  let c := fun i => Real.cos (t i)
  let s := fun i => Real.sin (t i)
  !![c 1 * c 2, s 0 * s 1 * c 2 - c 0 * s 2, c 0 * s 1 * c 2 + s 0 * s 2;
     c 1 * s 2, s 0 * s 1 * s 2 + c 0 * c 2, c 0 * s 1 * s 2 - s 0 * c 2;
     -s 1, s 0 * c 1, c 0 * c 1]

/-- A matrix from its three columns (`new_capi/make_beam_rmat.c:40-45`). -/
def ofCols (x y z : V) : M := !![x 0, y 0, z 0; x 1, y 1, z 1; x 2, y 2, z 2]

/-- `make_beam_rmat` (`new_capi/make_beam_rmat.c:1-48`); the two error codes are `none`. -/
noncomputable def beamRmat (b e : V) : Option M :=
  let bHat := unitRow b
  if !bHat.2 then none else
  let yHat := unitRow (cross e b)
  if !yHat.2 then none else
  some (ofCols (cross bHat.1 yHat.1) yHat.1 (fun i => -bHat.1 i))

/-- `makeBinaryRotMat` (`transforms.cpp:15-19`): `2 a aᵀ - I`. -/
def binaryRmat (a : V) : M := fun i j => 2 * a i * a j - (if i = j then 1 else 0)

/-- `makeRotMatOfExpMap` (`transforms.cpp:21-24`): Eigen's `AngleAxisd(e.norm(), e.normalized())` turned into
a matrix by Eigen's `toRotationMatrix`: `c I + s [n]ₓ + (1 - c) n nᵀ`. -/
noncomputable def expmapRmat (e : V) : M :=
  let phi := √(dot e e)
  let n := eigenUnit e
  let c := Real.cos phi
  let s := Real.sin phi
  !![(1 - c) * n 0 * n 0 + c, (1 - c) * n 0 * n 1 - s * n 2, (1 - c) * n 0 * n 2 + s * n 1;
     (1 - c) * n 0 * n 1 + s * n 2, (1 - c) * n 1 * n 1 + c, (1 - c) * n 1 * n 2 - s * n 0;
     (1 - c) * n 0 * n 2 - s * n 1, (1 - c) * n 1 * n 2 + s * n 0, (1 - c) * n 2 * n 2 + c]

/-- One vector of `rotate_vecs_about_axis` (`new_capi/rotate_vecs_about_axis.c:14-46`); a zero axis divides by
zero, which is `none`. -/
noncomputable def rotateVec (angle : ℝ) (axis v : V) : Option V :=
  let nrm := √(dot axis axis)
  if nrm = 0 then none else
  some fun j => Real.cos angle * v j + Real.sin angle / nrm * cross axis v j +
    (1 - Real.cos angle) * dot axis v * axis j / (nrm * nrm)

/-! ### Angle ranges -/

/-- `while (x < 0.0) x += 2.0*M_PI;` (`new_capi/validate_angle_ranges.c:35-36, 59-60`). -/
noncomputable def whileNeg (x : ℝ) : ℝ := if x < 0 then whileNeg (x + 2 * Real.pi) else x
termination_by ⌈-x / (2 * Real.pi)⌉₊
decreasing_by
  rename_i h
  have hp : (0 : ℝ) < 2 * Real.pi := by positivity
  have h1 : 0 < -x / (2 * Real.pi) := div_pos (by linarith) hp
  have e : -(x + 2 * Real.pi) / (2 * Real.pi) = -x / (2 * Real.pi) - 1 := by field_simp; ring
  rw [e]
  have h2 : 0 < ⌈-x / (2 * Real.pi)⌉₊ := Nat.ceil_pos.2 h1
  have h3 : ⌈-x / (2 * Real.pi) - 1⌉₊ ≤ ⌈-x / (2 * Real.pi)⌉₊ - 1 := by
    rw [Nat.ceil_le, Nat.cast_sub h2]
    have := Nat.le_ceil (-x / (2 * Real.pi))
    push_cast; linarith
  omega

/-- `while (x > 2.0*M_PI) x -= 2.0*M_PI;` (`new_capi/validate_angle_ranges.c:37-38, 61-62`). -/
noncomputable def whileOver (x : ℝ) : ℝ := if x > 2 * Real.pi then whileOver (x - 2 * Real.pi) else x
termination_by ⌈x / (2 * Real.pi)⌉₊
decreasing_by
  rename_i h
  have hp : (0 : ℝ) < 2 * Real.pi := by positivity
  have h1 : 0 < x / (2 * Real.pi) := div_pos (by linarith) hp
  have e : (x - 2 * Real.pi) / (2 * Real.pi) = x / (2 * Real.pi) - 1 := by field_simp
  rw [e]
  have h2 : 0 < ⌈x / (2 * Real.pi)⌉₊ := Nat.ceil_pos.2 h1
  have h3 : ⌈x / (2 * Real.pi) - 1⌉₊ ≤ ⌈x / (2 * Real.pi)⌉₊ - 1 := by
    rw [Nat.ceil_le, Nat.cast_sub h2]
    have := Nat.le_ceil (x / (2 * Real.pi))
    push_cast; linarith
  omega

open Classical in
/-- One angle against one range: the body of the inner loop (`new_capi/validate_angle_ranges.c:31-69`);
`true` is the `break` with `rPtr[i] = true`. -/
noncomputable def inRange (ccw : Bool) (ang mn mx : ℝ) : Bool :=
  let start := if ccw then mn else mx
  let stop := if ccw then mx else mn
  let thetaMax := whileOver (whileNeg (stop - start))
  if |thetaMax| < sqrtEpsf then true
  else if |thetaMax - 2 * Real.pi| < sqrtEpsf ∧ ((ccw = true ∧ mx > mn) ∨ (ccw = false ∧ mx < mn)) then true
  else
    let theta := whileOver (whileNeg (ang - start))
    decide (theta ≥ -sqrtEpsf ∧ theta ≤ thetaMax + sqrtEpsf)

/-- The inner loop over the ranges, stopping at the first match (`new_capi/validate_angle_ranges.c:24-70`). -/
noncomputable def inRanges (ccw : Bool) (ang : ℝ) : List (ℝ × ℝ) → Bool
  | [] => false
  | r :: rs => if inRange ccw ang r.1 r.2 then true else inRanges ccw ang rs

/-- `validate_angle_ranges(ang_list, start_angs, stop_angs, ccw)` (`xfcapi.py:605-636`,
`new_capi/validate_angle_ranges.c:1-72`). -/
noncomputable def validateAngleRanges (angs : List ℝ) (ranges : List (ℝ × ℝ)) (ccw : Bool) : List Bool :=
  angs.map fun a => inRanges ccw a ranges

/-! ### Angles to vectors -/

/-- The frame `[x, y, -b]` that `anglesToVec` builds (`transforms.cpp:66-70`). -/
noncomputable def eigenBeamFrame (b e : V) : M :=
  ofCols (cross (eigenUnit b) (eigenUnit (cross e b))) (eigenUnit (cross e b)) (fun i => -eigenUnit b i)

/-- The rows `dot0`, `dot1`, `dot2` (`transforms.cpp:208-225`): crystal transposed times sample transposed times
the vector. -/
noncomputable def toCrystal (m : M) (chi ome : ℝ) (g : V) : V := fun j =>
  (m 0 j * Real.cos ome + m 2 j * Real.sin ome) * g 0 +
  (m 0 j * Real.sin chi * Real.sin ome + m 1 j * Real.cos chi - m 2 j * Real.sin chi * Real.cos ome) * g 1 +
  (-m 0 j * Real.cos chi * Real.sin ome + m 1 j * Real.sin chi + m 2 j * Real.cos chi * Real.cos ome) * g 2

/-- One row of `angles_to_gvec` (`xfcapi.py:38-90`, `transforms.cpp:164-230` with `toGVec`). -/
noncomputable def anglesToGvec (tth eta ome : ℝ) (b e : V) (chi : ℝ) (rc : M) : V :=
  let pre : V := ![Real.cos (tth * (1 / 2)) * Real.cos eta, Real.cos (tth * (1 / 2)) * Real.sin eta,
    Real.sin (tth * (1 / 2))]
  toCrystal rc chi ome (mulV (eigenBeamFrame b e) pre)

/-- One row of `angles_to_dvec` (`xfcapi.py:93-143`, `transforms.cpp:164-230` without `toGVec`). -/
noncomputable def anglesToDvec (tth eta ome : ℝ) (b e : V) (chi : ℝ) (rc : M) : V :=
  let pre : V := ![Real.sin tth * Real.cos eta, Real.sin tth * Real.sin eta, -Real.cos tth]
  toCrystal rc chi ome (mulV (eigenBeamFrame b e) pre)

/-! ### Scattering vectors to detector points -/

/-- `normalize_beam` (`new_capi/gvec_to_xy.c:602-636`) together with the beam `{0, 0, 1}` that `diffract` uses
for a null pointer: the reversed unit beam, with a beam almost along `-z` replaced by it, and a zero beam
returned as it is. -/
noncomputable def normalizeBeam (b : V) : V :=
  if dot b b > epsf * epsf then
    let rnorm := -1 / √(dot b b)
    if |b 2 * rnorm - 1| < epsf then ![0, 0, 1] else fun i => b i * rnorm
  else b

/-- `diffract` (`new_capi/gvec_to_xy.c:24-51`), `diffract_array` (`:59-101`). -/
def diffract (beam v : V) : V :=
  let bm00 := v 0 * v 0 * 2 - 1
  let bm11 := v 1 * v 1 * 2 - 1
  let bm22 := v 2 * v 2 * 2 - 1
  let bm01 := v 0 * v 1 * 2
  let bm02 := v 0 * v 2 * 2
  let bm12 := v 1 * v 2 * 2
  ![bm02 * beam 2 + bm01 * beam 1 + bm00 * beam 0, bm12 * beam 2 + bm11 * beam 1 + bm01 * beam 0,
    bm22 * beam 2 + bm12 * beam 1 + bm02 * beam 0]

/-- Column of a matrix, `v3s_copy(rMat + j, 3, …)`. -/
def col (m : M) (j : Fin 3) : V := fun i => m i j

/-- One ray of `project_on_planar_detector_vsv/vvv` with the plane of `gvec_to_xy_vect`
(`new_capi/gvec_to_xy.c:221-287, 568-588`).  A zero denominator gives an infinite or NaN point in C and `none`
here. -/
noncomputable def projectRay (rd : M) (td orig vect : V) : Option (ℝ × ℝ) :=
  let xBase := -dot td (col rd 0) + dot (col rd 0) orig
  let yBase := -dot td (col rd 1) + dot (col rd 1) orig
  let num := -dot td (col rd 2) + dot (col rd 2) orig
  let denom := dot (col rd 2) vect
  let t := num / denom
  if t < 0 then some (xBase - t * dot (col rd 0) vect, yBase - t * dot (col rd 1) vect) else none

/-- Ray origin, `transform_vector_array_r` (`new_capi/gvec_to_xy.c:142-161`). -/
def rayOrigin (rs : M) (ts tc : V) : V := fun i => ts i + mulV rs tc i

/-- One scattering vector of `gvec_to_xy` (`xfcapi.py:175-270`, `new_capi/gvec_to_xy.c:466-566`); `vmat_inv`
and `bmat` are accepted and ignored by the code. -/
noncomputable def gvecToXY (g : V) (rd rs rc : M) (td ts tc b : V) : Option (ℝ × ℝ) :=
  projectRay rd td (rayOrigin rs ts tc) (diffract (normalizeBeam b) (mulV rs (mulV rc g)))

/-- The blocked loop of `gvec_to_xy_detector` (`new_capi/gvec_to_xy.c:490-523, 533-563`): full blocks while
`i + size - 1 < npts`, then what is left. -/
def blocked {α β : Type} (size : Nat) (hs : 0 < size) (f : List α → List β) (l : List α) : List β :=
  if _h : size ≤ l.length then f (l.take size) ++ blocked size hs f (l.drop size)
  else if l.length = 0 then [] else f l
termination_by l.length
decreasing_by simp; omega

/-- `gvec_to_xy` for a list of scattering vectors and one sample rotation (`GV2XY_SINGLE_RMAT_S`): one ray
origin, the product `rMat_s rMat_c` formed first, blocks of 128 (`new_capi/gvec_to_xy.c:488-523`). -/
noncomputable def gvecToXYSingle (gs : List V) (rd rs rc : M) (td ts tc b : V) : List (Option (ℝ × ℝ)) :=
  blocked 128 (by decide)
    (fun blk => ((blk.map (mulV (rs * rc))).map (diffract (normalizeBeam b))).map
      (projectRay rd td (rayOrigin rs ts tc))) gs

/-- `gvec_to_xy` for a list of scattering vectors, each with its own sample rotation
(`new_capi/gvec_to_xy.c:524-566, 735-757`): a length mismatch raises. -/
noncomputable def gvecToXYMulti (gs : List V) (rss : List M) (rd rc : M) (td ts tc b : V) :
    Option (List (Option (ℝ × ℝ))) :=
  if gs.length ≠ rss.length then none else
  some (blocked 128 (by decide)
    (fun blk => blk.map fun p => projectRay rd td (rayOrigin p.2 ts tc)
      (diffract (normalizeBeam b) (mulV p.2 (mulV rc p.1)))) (gs.zip rss))

/-! ### Detector points to angles -/

/-- Result of `xy_to_gvec` for one point. -/
structure XYOut where
  tTh : ℝ
  eta : ℝ
  /-- `none` when the direction is along the beam and the axis is a zero vector divided by zero. -/
  gvec : Option V

/-- `dHat_l` (`new_capi/xy_to_gvec.c:29-53`): normalised if the squared norm exceeds `epsf`. -/
noncomputable def dHat (xy : ℝ × ℝ) (rd rs : M) (td ts tc : V) : V :=
  let d : V := fun j => td j - ts j - mulV rs tc j + rd j 0 * xy.1 + rd j 1 * xy.2
  if dot d d > epsf then fun j => d j / √(dot d d) else d

/-- The C routine `xy_to_gvec` for one point (`new_capi/xy_to_gvec.c:1-87`); a failed beam frame leaves the
matrix uninitialised, which is `none`. -/
noncomputable def xyToGvecC (xy : ℝ × ℝ) (rd rs : M) (td ts tc b e : V) : Option XYOut := do
  let re ← beamRmat b e
  let bHat := (unitRow b).1
  let d := dHat xy rd rs td ts tc
  let tTh := Real.arccos (dot bHat d)
  let q := mulTV re d
  let eta := atan2 (q 1) (q 0)
  let n := cross bHat d
  let nrm := √(dot n n)
  let gvec := if nrm = 0 then none else rotateVec (1 / 2 * (Real.pi - tTh)) (fun j => n j / nrm) d
  pure ⟨tTh, eta, gvec⟩

/-- The wrapper `xy_to_gvec` (`xfcapi.py:273-348`) for one point without distortion. -/
noncomputable def xyToGvec (xy : ℝ × ℝ) (rd rs : M) (td ts tc : V) (rb : M) : Option XYOut :=
  xyToGvecC xy rd rs td ts tc (fun i => -rb i 2) (fun i => rb i 0)

/-! ### Oscillation angles -/

/-- One of the two triplets of `oscill_angles_of_hkls`; `tTh` and `eta` are not written when beam and azimuth
reference are (almost) collinear. -/
structure Osc where
  tTh : Option ℝ
  eta : Option ℝ
  ome : ℝ

/-- `vInv_s` applied to a vector (`new_capi/oscill_angles_of_HKLs.c:77-80`). -/
noncomputable def applyVInv (v : Fin 6 → ℝ) (g : V) : V :=
  ![v 0 * g 0 + (v 5 * g 1 + v 4 * g 2) / √2, v 1 * g 1 + (v 5 * g 0 + v 3 * g 2) / √2,
    v 2 * g 2 + (v 4 * g 0 + v 3 * g 1) / √2]

/-- The coefficients `a`, `b`, `c` of the harmonic equation (`new_capi/oscill_angles_of_HKLs.c:105-108`). -/
noncomputable def harmonic (g bh : V) (chi sintht : ℝ) : ℝ × ℝ × ℝ :=
  (g 2 * bh 0 + Real.sin chi * g 0 * bh 1 - Real.cos chi * g 0 * bh 2,
   g 0 * bh 0 - Real.sin chi * g 2 * bh 1 + Real.cos chi * g 2 * bh 2,
   -sintht - Real.cos chi * g 1 * bh 1 - Real.sin chi * g 1 * bh 2)

/-- The two-theta and eta written for a given omega (`new_capi/oscill_angles_of_HKLs.c:127-166`). -/
noncomputable def oscOf (g bh eh : V) (chi sintht ome : ℝ) : Osc :=
  if |dot bh eh| < 1 - sqrtEpsf then
    let eta := (beamRmat bh eh).map fun re =>
      let ge := mulTV re (mulV (sampleRmat chi ome) g)
      atan2 (ge 1) (ge 0)
    ⟨some (2 * Real.arcsin sintht), eta, ome⟩
  else ⟨none, none, ome⟩

/-- `oscill_angles_of_HKLs` for one reflection (`new_capi/oscill_angles_of_HKLs.c:1-168`, `xfcapi.py:351-448`).
The outer `none` is the failed `assert( abMag > 0.0 )`; the inner `none` is the row of NaNs. -/
noncomputable def oscillAngles (hkl : V) (chi : ℝ) (rc bmat : M) (wavelength : ℝ) (vInv : Fin 6 → ℝ)
    (b e : V) : Option (Option (Osc × Osc)) :=
  let bh := (unitRow b).1
  let eh := (unitRow e).1
  let gs0 := mulV rc (mulV bmat hkl)
  let tmp := applyVInv vInv gs0
  let gc := mulTV rc tmp
  let nrm0 := √(dot gc gc)
  let gs : V := if nrm0 > epsf then fun j => tmp j / nrm0 else gs0
  let sintht := 1 / 2 * wavelength * nrm0
  let h := harmonic gs bh chi sintht
  let abMag := √(h.1 * h.1 + h.2.1 * h.2.1)
  if ¬ abMag > 0 then none else
  let phase := atan2 h.2.1 h.1
  let rhs := h.2.2 / abMag
  if |rhs| > 1 then some none else
  let ang := Real.arcsin rhs
  some (some (oscOf gs bh eh chi sintht (ang - phase), oscOf gs bh eh chi sintht (Real.pi - ang - phase)))

/-! ### Planar detector -/

/-- `PlanarDetector.angles_to_cart` (`hexrd/core/instrument/planar_detector.py:56-94`) for one pair of angles,
without distortion: chi and omega are read back from `rmat_s` with two arccosines. -/
noncomputable def anglesToCart (tth eta : ℝ) (rd : M) (td b e : V) (rs : M) (ts : V) (rc : M) (tc : V) :
    Option (ℝ × ℝ) :=
  let chi := Real.arccos (rs 1 1)
  let ome := Real.arccos (rs 0 0)
  gvecToXY (anglesToGvec tth eta ome b e chi 1) rd rs rc td ts tc b

/-- `PlanarDetector.cart_to_dvecs` (`planar_detector.py:96-99`). -/
def cartToDvec (rd : M) (td : V) (xy : ℝ × ℝ) : V := fun i => mulV rd ![xy.1, xy.2, 0] i + td i

/-- `PlanarDetector.beam_position` (`planar_detector.py:192-201`); the normal is the third column of the
rotation (`detector.py`, `normal`). -/
noncomputable def beamPosition (rd : M) (td b : V) (tol : ℝ) : Option (ℝ × ℝ) :=
  let bn := dot b (col rd 2)
  if |bn| > tol ∧ bn < 0 then
    let u := dot (col rd 2) td / bn
    let p := mulTV rd (fun i => u * b i - td i)
    some (p 0, p 1)
  else none

end Hexrd.Transforms
