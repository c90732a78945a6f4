import Verif.Spec.Confidence
import Mathlib.Tactic.Linarith
import Mathlib.Tactic.Ring
import Mathlib.Tactic.FieldSimp
import Mathlib.Tactic.Push

namespace Hexrd.Confidence

/-- The cell of a point is the floor of its place on the ruler. -/
theorem cell_iff (b δ t : ℝ) (hδ : δ ≠ 0) (i : ℕ) : Spec.InCell b δ t i ↔ ⌊(t - b) * (1 / δ)⌋ = i := by
  rw [Int.floor_eq_iff]
  constructor
  · rintro ⟨u, h1, h2, rfl⟩
    have : (b + u * δ - b) * (1 / δ) = u := by field_simp; ring
    rw [this]
    exact ⟨by exact_mod_cast h1, by exact_mod_cast h2⟩
  · rintro ⟨h1, h2⟩
    refine ⟨(t - b) * (1 / δ), by exact_mod_cast h1, by exact_mod_cast h2, ?_⟩
    field_simp; ring

theorem cells_iff (b δ t : ℝ) (hδ : δ ≠ 0) (n : ℕ) :
    (∃ i < n, Spec.InCell b δ t i) ↔ 0 ≤ ⌊(t - b) * (1 / δ)⌋ ∧ ⌊(t - b) * (1 / δ)⌋ < (n : ℤ) := by
  constructor
  · rintro ⟨i, hi, h⟩
    rw [cell_iff _ _ _ hδ] at h
    rw [h]; omega
  · rintro ⟨h1, h2⟩
    refine ⟨⌊(t - b) * (1 / δ)⌋.toNat, by omega, ?_⟩
    rw [cell_iff _ _ _ hδ]; omega

/-- The hypotheses on the scene: widths are not zero, and the stack has the shape of the sensor. -/
structure Fits {β : Type} (s : Sensor) (δ0 δ1 δ2 : ℝ) (img : Stack β) : Prop where
  n0 : δ0 ≠ 0
  n1 : δ1 ≠ 0
  n2 : δ2 ≠ 0
  i0 : s.i0 = 1 / δ0
  i1 : s.i1 = 1 / δ1
  i2 : s.i2 = 1 / δ2
  rows : img.rows = s.rows
  cols : img.cols = s.cols

/-- The angle of a spot is in one of the frames. -/
def InFrames (s : Sensor) (δ2 : ℝ) (n : ℕ) (p : Spot) : Prop := ∃ k < n, Spec.InCell s.b2 δ2 p.2 k

open Classical in
theorem count_eq (s : Sensor) (δ0 δ1 δ2 : ℝ) (img : Stack Bool) (hf : Fits s δ0 δ1 δ2 img) (st : ℕ × ℕ) (p : Spot)
    (hp : InFrames s δ2 img.frames p) :
    count s img st p = some (if Spec.Visible s δ0 δ1 p then
      (st.1 + 1, if Spec.Lit s δ0 δ1 δ2 img p then st.2 + 1 else st.2) else st) := by
  obtain ⟨q, ω⟩ := p
  cases q with
  | none =>
    have : ¬ Spec.Visible s δ0 δ1 (none, ω) := by rintro ⟨x, y, h, _⟩; cases h
    simp only [count, if_neg this]
  | some xy =>
    obtain ⟨x, y⟩ := xy
    have hv : Spec.Visible s δ0 δ1 (some (x, y), ω) ↔ ¬ |y - s.stop| < s.width / 2 ∧
        (0 ≤ ⌊(x - s.b0) * s.i0⌋ ∧ ⌊(x - s.b0) * s.i0⌋ < (s.cols : ℤ)) ∧
        (0 ≤ ⌊(y - s.b1) * s.i1⌋ ∧ ⌊(y - s.b1) * s.i1⌋ < (s.rows : ℤ)) := by
      rw [hf.i0, hf.i1, ← cells_iff _ _ _ hf.n0, ← cells_iff _ _ _ hf.n1]
      constructor
      · rintro ⟨x', y', h, h2⟩
        cases h; exact h2
      · intro h; exact ⟨x, y, rfl, h⟩
    obtain ⟨hz0, hz1⟩ := (cells_iff _ _ _ hf.n2 _).1 hp
    rw [← hf.i2] at hz0 hz1
    simp only at hz0 hz1
    have hl : (0 ≤ ⌊(x - s.b0) * s.i0⌋) → (0 ≤ ⌊(y - s.b1) * s.i1⌋) →
        (Spec.Lit s δ0 δ1 δ2 img (some (x, y), ω) ↔
          img.val ⌊(ω - s.b2) * s.i2⌋.toNat ⌊(y - s.b1) * s.i1⌋.toNat ⌊(x - s.b0) * s.i0⌋.toNat = true) := by
      intro h0 h1
      constructor
      · rintro ⟨x', y', h, i, j, k, hi, hj, hk, h2⟩
        cases h
        rw [cell_iff _ _ _ hf.n0, ← hf.i0] at hi
        rw [cell_iff _ _ _ hf.n1, ← hf.i1] at hj
        rw [cell_iff _ _ _ hf.n2, ← hf.i2] at hk
        simp only at hk
        rw [hi, hj, hk]; simpa using h2
      · intro h
        refine ⟨x, y, rfl, _, _, _, ?_, ?_, ?_, h⟩
        · rw [cell_iff _ _ _ hf.n0, ← hf.i0]; omega
        · rw [cell_iff _ _ _ hf.n1, ← hf.i1]; omega
        · rw [cell_iff _ _ _ hf.n2, ← hf.i2]; simp only; omega
    simp only [count]
    by_cases c0 : |y - s.stop| < s.width / 2
    · rw [if_pos c0, if_neg (fun h => (hv.1 h).1 c0)]
    rw [if_neg c0]
    by_cases c1 : 0 ≤ ⌊(x - s.b0) * s.i0⌋
    swap
    · rw [if_pos c1, if_neg (fun h => c1 (hv.1 h).2.1.1)]
    rw [if_neg (not_not.2 c1)]
    by_cases c2 : ⌊(x - s.b0) * s.i0⌋ < (s.cols : ℤ)
    swap
    · rw [if_pos c2, if_neg (fun h => c2 (hv.1 h).2.1.2)]
    rw [if_neg (not_not.2 c2)]
    by_cases c3 : 0 ≤ ⌊(y - s.b1) * s.i1⌋
    swap
    · rw [if_pos c3, if_neg (fun h => c3 (hv.1 h).2.2.1)]
    rw [if_neg (not_not.2 c3)]
    by_cases c4 : ⌊(y - s.b1) * s.i1⌋ < (s.rows : ℤ)
    swap
    · rw [if_pos c4, if_neg (fun h => c4 (hv.1 h).2.2.2)]
    rw [if_neg (not_not.2 c4), if_pos (hv.2 ⟨c0, ⟨c1, c2⟩, c3, c4⟩)]
    have hr : read img ⌊(ω - s.b2) * s.i2⌋ ⌊(y - s.b1) * s.i1⌋ ⌊(x - s.b0) * s.i0⌋ =
        some (img.val ⌊(ω - s.b2) * s.i2⌋.toNat ⌊(y - s.b1) * s.i1⌋.toNat ⌊(x - s.b0) * s.i0⌋.toNat) := by
      have hw : wrap img.frames ⌊(ω - s.b2) * s.i2⌋ = ⌊(ω - s.b2) * s.i2⌋ := by
        unfold wrap; rw [if_neg (by omega)]
      simp only [read, hw]
      rw [if_pos ⟨hz0, hz1, c3, by rw [hf.rows]; exact c4, c1, by rw [hf.cols]; exact c2⟩]
    rw [hr, Option.map_some]
    simp only [hl c1 c3]

open Classical in
theorem counts_eq (s : Sensor) (δ0 δ1 δ2 : ℝ) (img : Stack Bool) (hf : Fits s δ0 δ1 δ2 img) (spots : List Spot)
    (hp : ∀ p ∈ spots, InFrames s δ2 img.frames p) (st : ℕ × ℕ) :
    spots.foldlM (count s img) st = some (st.1 + (spots.filter fun p => Spec.Visible s δ0 δ1 p).length,
      st.2 + ((spots.filter fun p => Spec.Visible s δ0 δ1 p).filter fun p => Spec.Lit s δ0 δ1 δ2 img p).length) := by
  induction spots generalizing st with
  | nil => simp
  | cons p ps ih =>
    rw [List.foldlM_cons, count_eq s δ0 δ1 δ2 img hf st p (hp p (List.mem_cons_self ..))]
    simp only [Option.bind_eq_bind, Option.bind_some]
    rw [ih fun q hq => hp q (List.mem_cons_of_mem _ hq)]
    by_cases hv : Spec.Visible s δ0 δ1 p
    · rw [List.filter_cons_of_pos (by simpa using hv)]
      by_cases hl : Spec.Lit s δ0 δ1 δ2 img p
      · rw [List.filter_cons_of_pos (by simpa using hl)]
        simp only [if_pos hv, if_pos hl, List.length_cons]
        congr 2 <;> omega
      · rw [List.filter_cons_of_neg (by simpa using hl)]
        simp only [if_pos hv, if_neg hl, List.length_cons]
        congr 2; omega
    · rw [List.filter_cons_of_neg (by simpa using hv), if_neg hv]

end Hexrd.Confidence
