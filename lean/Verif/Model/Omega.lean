import Mathlib.Algebra.Order.Floor.Ring
import Mathlib.Algebra.Order.Field.Basic

/-!
# Model of `hexrd/core/imageseries/omega.py`

Angles are elements of an arbitrary linearly ordered field (exact arithmetic in
place of float64).
-/
namespace Hexrd.Omega

variable {K : Type} [Field K] [LinearOrder K]

/-- A wedge: `ostart`, `ostop`, `nsteps` (omega.py:60-63, 198). -/
structure Wedge (K : Type) where
  ostart : K
  ostop : K
  nsteps : Nat

/-- The loop of `_make_wedges` that finds the wedge breaks (omega.py:40-52), from
frame `f` with `m` frames to go. `om f` is the pair `om[f, 0], om[f, 1]`. `none`
is OmegaSeriesError. `starts` is accumulated in order. -/
def findStarts (om : Nat → K × K) (tol : K) :
    (m f : Nat) → (delta omlast : K) → (starts : List Nat) → Option (List Nat)
  | 0, f, _, _, starts => some (starts ++ [f])
  | m + 1, f, delta, omlast, starts =>
    if delta ≤ 0 then none
    else
      let d := (om f).2 - (om f).1
      if tol < |d - delta| ∨ tol < |(om f).1 - omlast| then
        findStarts om tol m (f + 1) d (om f).2 (starts ++ [f])
      else
        findStarts om tol m (f + 1) delta (om f).2 starts

/-- The second loop of `_make_wedges` (omega.py:59-69): the wedges from the list of
starts. -/
def wedgesOf (om : Nat → K × K) : List Nat → List (Wedge K)
  | a :: b :: rest => ⟨(om a).1, (om (b - 1)).2, b - a⟩ :: wedgesOf om (b :: rest)
  | _ => []

/-- `_make_wedges` (omega.py:35-70) for a series of `nf` frames, `nf ≥ 1` (`om[0, 1]`
raises IndexError for an empty series: `none`). -/
def makeWedges (om : Nat → K × K) (tol : K) (nf : Nat) : Option (List (Wedge K)) :=
  if nf = 0 then none
  else (findStarts om tol (nf - 1) 1 ((om 0).2 - (om 0).1) (om 0).2 [0]).map (wedgesOf om)

/-- `np.linspace(a, b, n + 1)[k]` for `n ≥ 1`. -/
def linspace (a b : K) (n k : Nat) : K := a + (k : K) * ((b - a) / (n : K))

/-- `OmegaWedges.omegas` (omega.py:152-172): the omega range of frame `f` rebuilt from
the wedges; `none` beyond the last frame. -/
def omegas : List (Wedge K) → Nat → Option (K × K)
  | [], _ => none
  | w :: ws, f =>
    if f < w.nsteps then
      some (linspace w.ostart w.ostop w.nsteps f, linspace w.ostart w.ostop w.nsteps (f + 1))
    else omegas ws (f - w.nsteps)

/-- `wframes` (omega.py:208-212). -/
def wframes (ws : List (Wedge K)) : Nat := (ws.map Wedge.nsteps).sum

variable [FloorRing K]

/-- `np.mod(x, tau)` for `tau > 0`. -/
def fmod (x tau : K) : K := x - tau * (⌊x / tau⌋ : K)

/-- `omega_to_frame` (omega.py:94-108): wedges from number `i`, whose first frame is
`f0` (`_wedge_f[i, 0]`, omega.py:67-69). `none` is the result `(-1, -1)`. -/
def omegaToFrame (tau om : K) : List (Wedge K) → (i f0 : Nat) → Option (Int × Nat)
  | [], _, _ => none
  | w :: ws, i, f0 =>
    let omcheck := w.ostart + fmod (om - w.ostart) tau
    if omcheck < w.ostop then
      let odel := (w.ostop - w.ostart) / (w.nsteps : K)
      some ((f0 : Int) + ⌊(omcheck - w.ostart) / odel⌋, i)
    else omegaToFrame tau om ws (i + 1) (f0 + w.nsteps)

/-- First frame of wedge `i`: `_wedge_f[i, 0]`. -/
def wedgeStart (ws : List (Wedge K)) (i : Nat) : Nat := ((ws.take i).map Wedge.nsteps).sum

/-- `list(range(a, b))` for integers. -/
def irange (a b : Int) : List Int := (List.range (b - a).toNat).map fun (k : Nat) => a + Int.ofNat k

/-- `omegarange_to_frames` (omega.py:110-133). -/
def rangeToFrames (tau tol : K) (ws : List (Wedge K)) (omin omax : K) : List Int :=
  match omegaToFrame tau omin ws 0 0 with
  | none => []
  | some (f0, w0) =>
    match omegaToFrame tau omax ws 0 0 with
    | none => []
    | some (f1, w1) =>
      if w0 = w1 ∧ f1 > f0 then irange f0 (f1 + 1)
      else
        match ws[w0]?, ws[w1]? with
        | some a, some b =>
          if fmod |b.ostart - a.ostop| tau < tol then
            irange f0 ((wedgeStart ws w0 : Int) + a.nsteps) ++ irange (wedgeStart ws w1) (f1 + 1)
          else []
        | _, _ => []

end Hexrd.Omega
