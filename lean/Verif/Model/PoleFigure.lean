import Verif.Model.Harmonics
import Mathlib.Analysis.SpecialFunctions.Sqrt

/-! Pole figure data (powder/wppf/texture.py): directions, weights, residual, projection, and
the harmonics of the reflections kept between calculations. -/
namespace Hexrd.PoleFigure

open Hexrd.Texture Matrix

abbrev V3 := Fin 3 → ℝ

/-- A row of the data of one reflection: a direction of the sample and an intensity, `none`
for NaN. -/
structure Row where
  v : V3
  i : Option ℝ

/-- The length of the direction (texture.py:1815). -/
noncomputable def len (v : V3) : ℝ := √(v 0 ^ 2 + v 1 ^ 2 + v 2 ^ 2)

/-- Division by the length (texture.py:1816). For the zero vector the code gets NaN: `none`. -/
noncomputable def normalise (r : Row) : Option Row :=
  if len r.v = 0 then none else some ⟨fun k => r.v k / len r.v, r.i⟩

/-- `v[mask, 2] = np.sign(v[mask, 2])` with `mask = np.abs(v[:, 2]) > 1.0` (texture.py:1818-1820). -/
noncomputable def sanitize (v : V3) : V3 :=
  if 1 < |v 2| then ![v 0, v 1, if 0 < v 2 then 1 else -1] else v

/-- `sth / (1 + np.abs(cth))` (texture.py:1306-1316). -/
noncomputable def stereoRadius (t : ℝ) : ℝ := Real.sin t / (1 + |Real.cos t|)

/-- The weight of an intensity (texture.py:1841-1844): `1 / I`; a NaN becomes 0 and an infinity
a huge number, and everything beyond 100 becomes 0. -/
noncomputable def weight : Option ℝ → ℝ
  | none => 0
  | some i => if i = 0 then 0 else if 100 < |1 / i| then 0 else 1 / i

/-- What the `pfdata` setter stores for one reflection: rows, angles and angles in the rotated
frame. -/
structure Pole where
  rows : List Row
  angs : List (ℝ × ℝ)
  rotated : List (ℝ × ℝ)

/-- One round of the loop of the `pfdata` setter (texture.py:1814-1840). The array of the caller
is changed in place: it is `rows` afterwards. -/
noncomputable def pole (R : Matrix (Fin 3) (Fin 3) ℝ) (rows : List Row) : Option Pole :=
  (rows.mapM normalise).map fun l =>
    let l := l.map fun r => { r with v := sanitize r.v }
    ⟨l, l.map fun r => angles r.v, l.map fun r => angles (sanitize (R *ᵥ r.v))⟩

/-- The state of the pole figures, with the keys `K` of the dictionary. -/
structure PF (K : Type) where
  rmat : Matrix (Fin 3) (Fin 3) ℝ
  poles : List (K × Pole)
  weights : List ℝ

/-- The `pfdata` setter (texture.py:1803-1844). `None` and an empty dictionary clear the data. -/
noncomputable def setData {K : Type} (s : PF K) (val : List (K × List Row)) : Option (PF K) :=
  (val.mapM fun kv => (pole s.rmat kv.2).map fun p => (kv.1, p)).map fun ps =>
    { s with poles := ps, weights := ps.flatMap fun kp => kp.2.rows.map fun r => weight r.i }

/-- The `sample_rmat` setter (texture.py:919-926) for an array of the right shape. -/
def setRmat {K : Type} (s : PF K) (R : Matrix (Fin 3) (Fin 3) ℝ) : PF K := { s with rmat := R }

/-- The measured intensities (texture.py:1498-1500). -/
def measured {K : Type} (s : PF K) : List (Option ℝ) := s.poles.flatMap fun kp => kp.2.rows.map Row.i

/-- The calculated intensities (texture.py:1502-1514): those of the harmonic series for the angles `h` of the
reflection and the rotated angles of the rows. A missing parameter raises: `none`. -/
noncomputable def calculated {K : Type} (s : PF K) (p : Params) (csym ssym : Sym) (ellMax : ℕ) (h : K → ℝ × ℝ) :
    Option (List ℝ) :=
  (s.poles.mapM fun (kp : K × Pole) => kp.2.rotated.mapM fun a => intensity p csym ssym ellMax (h kp.1) a).map List.flatten

/-- One entry of `np.sqrt(self.weights * (measured - calculated) ** 2)` (texture.py:1516). NaN is `none`. -/
noncomputable def entry (w : ℝ) (m : Option ℝ) (c : ℝ) : Option ℝ :=
  m.bind fun m => if w * (m - c) ^ 2 < 0 then none else some √(w * (m - c) ^ 2)

/-- `calc_residual` (texture.py:1493-1519): the number 1e10 (left) if all entries are NaN, and
the entries that are not NaN (right) otherwise. -/
noncomputable def residual (ws : List ℝ) (ms : List (Option ℝ)) (cs : List ℝ) : ℝ ⊕ List ℝ :=
  let es := (ws.zip (ms.zip cs)).map fun x => entry x.1 x.2.1 x.2.2
  if es.all fun e => e.isNone then .inl (10 ^ 10) else .inr (es.filterMap id)

/-- `densest_grid` (texture.py:1870-1878); `none` stands for the empty string. -/
def densest {K : Type} (s : PF K) : Option K :=
  (s.poles.foldl (fun acc kp => if acc.2 < kp.2.rows.length then (some kp.1, kp.2.rows.length) else acc) (none, 0)).1

/-! ## The kept harmonics of the reflections -/

/-- `sph_c_rings`: for a reflection the angles for which the harmonics were computed, and the
greatest degree. -/
abbrev Cache (K : Type) := K → Option ((ℝ × ℝ) × ℕ)

/-- The part of `precompute_spherical_harmonics` about the reflections (texture.py:1117-1130): only
those that are not known are computed. `l` has the reflections of the material with their
angles. -/
def precompute {K : Type} [DecidableEq K] (cache : Cache K) (ellMax : ℕ) (l : List (K × (ℝ × ℝ))) : Cache K :=
  l.foldl (fun c ka => fun k => if k = ka.1 ∧ c k = none then some (ka.2, ellMax) else c k) cache

/-- The intensity on a ring after `precompute` (texture.py:1200-1216): the harmonics of the reflection are
looked up; those of a higher degree than was computed are missing, a `KeyError`. -/
noncomputable def ringIntensity {K : Type} (cache : Cache K) (p : Params) (csym ssym : Sym) (ellMax : ℕ) (k : K)
    (s : ℝ × ℝ) : Option ℝ :=
  (cache k).bind fun c => if (degrees ellMax).all fun d => decide (d ≤ c.2) then intensity p csym ssym ellMax c.1 s else none

end Hexrd.PoleFigure
