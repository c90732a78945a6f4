import Verif.Model.EtaOme

/-!
# Rotation series on a common grid, medians
-/
namespace Hexrd.EtaOme.Spec

open Hexrd.Omega

/-- The wedges of a rotation series lie on a common grid of bins of size `δ` that starts at `o`: wedge number `s` fills
the bins from number `k s` on; wedges follow each other without overlap and stay within one turn. `n` is the number of
bins up to the end of the last wedge. -/
structure OnGrid (o δ : ℝ) (k : ℕ → ℕ) (n : ℕ) (ws : List (Wedge ℝ)) : Prop where
  pos : 0 < δ
  first : k 0 = 0
  wedge : ∀ s w, ws[s]? = some w → 0 < w.nsteps ∧ w.ostart = o + k s * δ ∧ w.ostop = o + (k s + w.nsteps : ℕ) * δ
  next : ∀ s w, ws[s]? = some w → s + 1 < ws.length → k s + w.nsteps ≤ k (s + 1)
  last : ∃ w, ws.getLast? = some w ∧ n = k (ws.length - 1) + w.nsteps
  turn : n * δ ≤ 360

/-- `m` is a median of the values: at least half are at most `m`, and at least half are at least `m`. -/
def IsMedian (m : ℝ) (l : List ℝ) : Prop :=
  l.length ≤ 2 * l.countP (fun x => x ≤ m) ∧ l.length ≤ 2 * l.countP (fun x => m ≤ x)

/-- The numbers in a list of pixels. -/
def numbers (l : List (Option ℝ)) : List ℝ := l.filterMap id

end Hexrd.EtaOme.Spec
