import Verif.Model.EtaOme

/-!
# Model of the angular range and resolution of an instrument (`hexrd/core/instrument/hedm_instrument.py`)

A detector is the list of its pixels. The angles and angular sizes of the pixels are given; reals stand for floating point numbers.
-/
namespace Hexrd.Resolution

/-- `np.max` (hedm_instrument.py:423, 459-460); `none` is the exception for an empty array. -/
noncomputable def maxOf : List ℝ → Option ℝ
  | [] => none
  | a :: l => some (l.foldl max a)

/-- `np.min` (hedm_instrument.py:457-458, 491-492); `none` is the exception for an empty array. -/
noncomputable def minOf : List ℝ → Option ℝ
  | [] => none
  | a :: l => some (l.foldl min a)

/-- `max_tth` (hedm_instrument.py:406-424) for the scattering angles of the pixels of each detector. -/
noncomputable def maxTth (panels : List (List ℝ)) : Option ℝ :=
  panels.foldlM (fun t p => (maxOf p).map fun m => max m t) 0

/-- `min(t, m)`, where `none` is infinity (hedm_instrument.py:457-458, 491-492). -/
noncomputable def lower : Option ℝ → ℝ → ℝ
  | none, m => m
  | some a, m => min a m

/-- `max(t, m)`, where `none` is minus infinity (hedm_instrument.py:459-460). -/
noncomputable def upper : Option ℝ → ℝ → ℝ
  | none, m => m
  | some a, m => max a m

/-- The running minimum over the detectors (hedm_instrument.py:445-458, 482-492): `none` inside is infinity. -/
noncomputable def runMin (panels : List (List ℝ)) : Option (Option ℝ) :=
  panels.foldlM (fun t p => (minOf p).map fun m => some (lower t m)) none

/-- The running maximum over the detectors (hedm_instrument.py:447-460): `none` inside is minus infinity. -/
noncomputable def runMax (panels : List (List ℝ)) : Option (Option ℝ) :=
  panels.foldlM (fun t p => (maxOf p).map fun m => some (upper t m)) none

/-- One half of `pixel_resolution` (hedm_instrument.py:427-462), for the sizes in one angle: the lowest, the median and the highest
resolution. `none` is an exception; without detectors it is the one of `np.vstack`. -/
noncomputable def resolution1 (panels : List (List ℝ)) : Option (ℝ × ℝ × ℝ) := do
  let hi ← runMin panels
  let lo ← runMax panels
  let med ← EtaOme.median panels.flatten
  return ((← lo), med, (← hi))

/-- `pixel_resolution` (hedm_instrument.py:427-462) for the sizes of the pixels in both angles. -/
noncomputable def pixelResolution (panels : List (List (ℝ × ℝ))) : Option ((ℝ × ℝ × ℝ) × ℝ × ℝ × ℝ) := do
  let t ← resolution1 (panels.map fun p => p.map Prod.fst)
  let e ← resolution1 (panels.map fun p => p.map Prod.snd)
  return (t, e)

/-- `np.isclose(x, 0)` with its default tolerances (hedm_instrument.py:490). -/
noncomputable def nearZero (x : ℝ) : Bool := |x - 0| ≤ 1e-8 + 1e-5 * |(0 : ℝ)|

/-- The pixels of a detector that count for `max_resolution` (hedm_instrument.py:490). -/
noncomputable def counted (p : List (ℝ × ℝ)) : List (ℝ × ℝ) := p.filter fun x => !(nearZero x.1 || nearZero x.2)

/-- `max_resolution` (hedm_instrument.py:465-493): `none` inside is infinity. -/
noncomputable def maxResolution (panels : List (List (ℝ × ℝ))) : Option (Option ℝ × Option ℝ) := do
  let t ← runMin (panels.map fun p => (counted p).map Prod.fst)
  let e ← runMin (panels.map fun p => (counted p).map Prod.snd)
  return (t, e)

end Hexrd.Resolution
