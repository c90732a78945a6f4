import Verif.Model.Polar

/-!
Specification of the polar view in terms of the detectors' own interpolation (`interpolate_bilinear`, C65).
-/

namespace Hexrd.Polar.Spec

open Hexrd.Detector

/-- What detector `d` with image `img` contributes to the polar pixel with the given angles: nothing if the angles are
not projected to a point, and otherwise the value that `interpolate_bilinear` without NaN padding returns for the
point. -/
noncomputable def contribution (d : Det) (img : Nat → Nat → ℝ) (ang : ℝ × ℝ) : ℝ :=
  match d.proj ang with
  | none => 0
  | some xy => match interpolateBilinear d.panel d.buf [xy] img false with
    | some [some c] => c
    | _ => 0

/-- Detector `d` sees the angles: they project to a point that is kept by `clip_to_panel`, and no pixel of the buffered
border takes part in the interpolation at that point: interpolation of the image that is NaN on exactly the buffered
pixels gives a number.  The NaN image is described by the mask. -/
def Sees (d : Det) (ang : ℝ × ℝ) : Prop :=
  ∃ xy, d.proj ang = some xy ∧ onPanel d.panel d.buf true xy = true ∧
    ∃ iF jF : Int, Hexrd.Grid.cellIndices d.panel.rowPixelVec xy.2 = some iF ∧
      Hexrd.Grid.cellIndices d.panel.colPixelVec xy.1 = some jF ∧
      ∀ i j : Nat, (i = (max 0 (min iF (d.panel.rows - 1))).toNat ∨ i = (max 0 (min (iF + 1) (d.panel.rows - 1))).toNat) →
        (j = (max 0 (min jF (d.panel.cols - 1))).toNat ∨ j = (max 0 (min (jF + 1) (d.panel.cols - 1))).toNat) →
        bufferAs2d d.panel d.buf i j = true

/-- The direction that makes the angle `tth` with the beam and has the azimuth `eta`, in the beam frame whose columns
are those of `r`. -/
noncomputable def direction (r : Matrix (Fin 3) (Fin 3) ℝ) (tth eta : ℝ) : Fin 3 → ℝ :=
  r.mulVec ![Real.sin tth * Real.cos eta, Real.sin tth * Real.sin eta, -Real.cos tth]

end Hexrd.Polar.Spec
