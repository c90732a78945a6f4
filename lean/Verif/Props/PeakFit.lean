import Verif.Model.PeakFit
import Verif.Spec.PeakFit
import Verif.Props.Peaks
import Mathlib.Tactic.Linarith
import Mathlib.Tactic.Ring
import Mathlib.Tactic.NormNum
import Mathlib.Tactic.FieldSimp
import Mathlib.Tactic.IntervalCases

/-!
C78: initial guesses and bounds of peak fits.  C79: residuals and goodness of fit.
-/

namespace Hexrd.PeakFit
open Hexrd.Peaks Hexrd.PeakFit.Spec Hexrd.Peaks.Spec

/-! ### Positions of smallest and largest values -/

theorem argmin_spec : ∀ {l : List ℝ}, l ≠ [] → ∃ v, l[argmin l]? = some v ∧ (∀ u ∈ l, v ≤ u) ∧
    ∀ (k : Nat) (u : ℝ), k < argmin l → l[k]? = some u → v < u
  | [], h => absurd rfl h
  | a :: l, _ => by
    unfold argmin
    split_ifs with h
    · exact ⟨a, rfl, by simpa using h, fun k u hk => by omega⟩
    · push Not at h
      obtain ⟨b, hb, hab⟩ := h
      obtain ⟨v, hv, h1, h2⟩ := argmin_spec (l := l) (by rintro rfl; simp at hb)
      have hva : v < a := lt_of_le_of_lt (h1 b hb) hab
      refine ⟨v, by simpa using hv, ?_, ?_⟩
      · intro u hu
        rcases List.mem_cons.1 hu with rfl | hu
        · exact hva.le
        · exact h1 u hu
      · intro k u hk hu
        cases k with
        | zero => simp at hu; exact hu ▸ hva
        | succ k => exact h2 k u (by omega) (by simpa using hu)

theorem argmax_spec : ∀ {l : List ℝ}, l ≠ [] → ∃ v, l[argmax l]? = some v ∧ (∀ u ∈ l, u ≤ v) ∧
    ∀ (k : Nat) (u : ℝ), k < argmax l → l[k]? = some u → u < v
  | [], h => absurd rfl h
  | a :: l, _ => by
    unfold argmax
    split_ifs with h
    · exact ⟨a, rfl, by simpa using h, fun k u hk => by omega⟩
    · push Not at h
      obtain ⟨b, hb, hab⟩ := h
      obtain ⟨v, hv, h1, h2⟩ := argmax_spec (l := l) (by rintro rfl; simp at hb)
      have hva : a < v := lt_of_lt_of_le hab (h1 b hb)
      refine ⟨v, by simpa using hv, ?_, ?_⟩
      · intro u hu
        rcases List.mem_cons.1 hu with rfl | hu
        · exact hva.le
        · exact h1 u hu
      · intro k u hk hu
        cases k with
        | zero => simp at hu; exact hu ▸ hva
        | succ k => exact h2 k u (by omega) (by simpa using hu)

theorem argmin_lt {l : List ℝ} (h : l ≠ []) : argmin l < l.length := by
  obtain ⟨v, hv, _⟩ := argmin_spec h
  exact (List.getElem?_eq_some_iff.1 hv).1

theorem argmax_lt {l : List ℝ} (h : l ≠ []) : argmax l < l.length := by
  obtain ⟨v, hv, _⟩ := argmax_spec h
  exact (List.getElem?_eq_some_iff.1 hv).1

/-- The position of the sample nearest to a target. -/
noncomputable def nearest (x : List ℝ) (t : ℝ) : Nat := argmin (x.map fun u => |u - t|)

theorem nearest_spec {x : List ℝ} (h : x ≠ []) (t : ℝ) : Nearest x t (nearest x t) := by
  obtain ⟨v, hv, h1, -⟩ := argmin_spec (l := x.map fun u => |u - t|) (by simpa using h)
  rw [List.getElem?_map, Option.map_eq_some_iff] at hv
  obtain ⟨w, hw, rfl⟩ := hv
  exact ⟨w, hw, fun u hu => h1 _ (List.mem_map_of_mem hu)⟩

/-- For increasing samples a larger target has no earlier nearest sample. -/
theorem nearest_mono {x : List ℝ} (hx : x.Pairwise (· < ·)) {s t : ℝ} (hst : s ≤ t) : nearest x s ≤ nearest x t := by
  by_cases h : x = []
  · subst h; simp [nearest, argmin]
  by_contra hlt
  push Not at hlt
  obtain ⟨v, hv, -, h2⟩ := argmin_spec (l := x.map fun u => |u - s|) (by simpa using h)
  obtain ⟨w, hw, h1', -⟩ := argmin_spec (l := x.map fun u => |u - t|) (by simpa using h)
  rw [List.getElem?_map, Option.map_eq_some_iff] at hv hw
  obtain ⟨a, ha, rfl⟩ := hv
  obtain ⟨b, hb, rfl⟩ := hw
  have hs := h2 (nearest x t) _ hlt (by rw [List.getElem?_map]; rw [show nearest x t = argmin (x.map fun u => |u - t|) from rfl, hb]; rfl)
  dsimp only at hs
  have ht := h1' _ (List.mem_map_of_mem (f := fun u => |u - t|) (List.mem_of_getElem? ha))
  have hab : b < a := by
    obtain ⟨ha', rfl⟩ := List.getElem?_eq_some_iff.1 ha
    obtain ⟨hb', rfl⟩ := List.getElem?_eq_some_iff.1 hb
    exact List.pairwise_iff_getElem.1 hx _ _ hb' ha' hlt
  rcases le_total s b with h3 | h3
  · rw [abs_of_nonneg (by linarith : 0 ≤ a - s), abs_of_nonneg (by linarith : 0 ≤ b - s)] at hs
    linarith
  · rcases le_total a t with h4 | h4
    · rw [abs_of_nonpos (by linarith : b - t ≤ 0), abs_of_nonpos (by linarith : a - t ≤ 0)] at ht
      linarith
    · rw [abs_of_nonpos (by linarith : b - t ≤ 0), abs_of_nonneg (by linarith : 0 ≤ a - t)] at ht
      rw [abs_of_nonpos (by linarith : b - s ≤ 0), abs_of_nonneg (by linarith : 0 ≤ a - s)] at hs
      linarith

/-! ### Amplitude -/

/-- C78: for increasing positions the amplitude guess exists; it is the data value of some sample, and at least the value
of the sample nearest to the peak position, and of every sample between the ones nearest to the two half-width points. -/
theorem amplitude_guess {x y : List ℝ} (hx : x.Pairwise (· < ·)) (hne : x ≠ []) (hl : y.length = x.length) (x0 : ℝ)
    {w : ℝ} (hw : 0 ≤ w) : ∃ a, amplitudeGuess x x0 y w = some a ∧ a ∈ y ∧
      ∀ (k : Nat) (v : ℝ), nearest x (x0 - w / 2) ≤ k → k ≤ nearest x (x0 + w / 2) → y[k]? = some v → v ≤ a := by
  have hm : nearest x (x0 - w / 2) ≤ nearest x (x0 + w / 2) := nearest_mono hx (by linarith)
  have hb : nearest x (x0 + w / 2) < y.length := by
    rw [hl]; have := argmin_lt (l := x.map fun u => |u - (x0 + w / 2)|) (by simpa using hne)
    simpa [nearest] using this
  have e1 : (x.map fun t => |t - (x0 - 1 / 2 * w)|) = x.map fun t => |t - (x0 - w / 2)| := by
    congr 1; ext t; congr 2; ring
  have e2 : (x.map fun t => |t - (x0 + 1 / 2 * w)|) = x.map fun t => |t - (x0 + w / 2)| := by
    congr 1; ext t; congr 2; ring
  unfold amplitudeGuess
  rw [e1, e2]
  change ∃ a, ((y.take (nearest x (x0 + w / 2) + 1)).drop (nearest x (x0 - w / 2))).max? = some a ∧ _
  generalize hW : (y.take (nearest x (x0 + w / 2) + 1)).drop (nearest x (x0 - w / 2)) = W
  have hlen : W.length = nearest x (x0 + w / 2) + 1 - nearest x (x0 - w / 2) := by
    rw [← hW, List.length_drop, List.length_take]; omega
  have hsub : ∀ v ∈ W, v ∈ y := by
    intro v hv; rw [← hW] at hv; exact List.mem_of_mem_take (List.mem_of_mem_drop hv)
  cases hmx : W.max? with
  | none => rw [List.max?_eq_none_iff] at hmx; rw [hmx] at hlen; simp at hlen; omega
  | some a =>
    have hmx' := List.max?_eq_some_iff.1 hmx
    refine ⟨a, rfl, hsub a hmx'.1, fun k v h1 h2 hv => hmx'.2 v ?_⟩
    rw [← hW]
    refine List.mem_of_getElem? (i := k - nearest x (x0 - w / 2)) ?_
    rw [List.getElem?_drop, List.getElem?_take_of_lt (by omega), ← hv]
    congr 1; omega

/-- The sample nearest to the peak position is in the window. -/
theorem nearest_in_window {x : List ℝ} (hx : x.Pairwise (· < ·)) (x0 : ℝ) {w : ℝ} (hw : 0 ≤ w) :
    nearest x (x0 - w / 2) ≤ nearest x x0 ∧ nearest x x0 ≤ nearest x (x0 + w / 2) :=
  ⟨nearest_mono hx (by linarith), nearest_mono hx (by linarith)⟩

/-! ### Width -/

theorem head_getElem {x : List ℝ} (h : x ≠ []) : x.head? = some (x[0]'(List.length_pos_iff.2 h)) := by
  cases x with
  | nil => exact absurd rfl h
  | cons a l => rfl

theorem get_bounds {x : List ℝ} (hx : x.Pairwise (· < ·)) {k : Nat} {v a b : ℝ} (hv : x[k]? = some v)
    (ha : x.head? = some a) (hb : x.getLast? = some b) : a ≤ v ∧ v ≤ b := by
  have hne : x ≠ [] := by rintro rfl; simp at hv
  obtain ⟨hk, rfl⟩ := List.getElem?_eq_some_iff.1 hv
  rw [head_getElem hne] at ha
  rw [List.getLast?_eq_some_getLast hne, List.getLast_eq_getElem] at hb
  simp only [Option.some.injEq] at ha hb
  subst ha hb
  constructor
  · rcases Nat.eq_zero_or_pos k with rfl | h
    · exact le_refl _
    · exact (List.pairwise_iff_getElem.1 hx 0 k (by omega) hk h).le
  · rcases Nat.lt_or_ge k (x.length - 1) with h | h
    · exact (List.pairwise_iff_getElem.1 hx k (x.length - 1) hk (by omega) h).le
    · have : k = x.length - 1 := by omega
      subst this; exact le_refl _

/-- C78: for increasing positions the width guess is positive and not larger than the range of the data. -/
theorem width_guess {x pint : List ℝ} (hx : x.Pairwise (· < ·)) (h2 : 2 ≤ x.length) :
    ∃ w a b, fwhmGuess x pint = some w ∧ x.head? = some a ∧ x.getLast? = some b ∧ 0 < w ∧ w ≤ b - a := by
  have hne : x ≠ [] := by rintro rfl; simp at h2
  obtain ⟨a, ha⟩ : ∃ a, x.head? = some a := ⟨_, head_getElem hne⟩
  obtain ⟨b, hb⟩ : ∃ b, x.getLast? = some b := ⟨_, List.getLast?_eq_some_getLast hne⟩
  have hab : a < b := by
    rw [head_getElem hne] at ha
    rw [List.getLast?_eq_some_getLast hne, List.getLast_eq_getElem] at hb
    simp only [Option.some.injEq] at ha hb
    subst ha hb
    exact List.pairwise_iff_getElem.1 hx 0 (x.length - 1) (by omega) (by omega) (by omega)
  unfold fwhmGuess
  generalize halfPoints pint = lr
  obtain ⟨l, r⟩ := lr
  simp only [ha, hb, Option.bind_eq_bind, Option.bind_some, Option.pure_def]
  refine ⟨_, a, b, rfl, rfl, rfl, ?_⟩
  cases h3 : x[argmax pint + r]? with
  | none => simp; constructor <;> linarith
  | some u =>
    cases h4 : x[l]? with
    | none => simp; constructor <;> linarith
    | some v =>
      simp only
      split_ifs with h5
      · constructor <;> linarith
      · push Not at h5
        have := get_bounds hx h3 ha hb
        have := get_bounds hx h4 ha hb
        exact ⟨h5.1, by linarith⟩

/-- Disagreement: with the largest value in the first sample the half-height sample is not used: the width guess is a
quarter of the range whatever the data. -/
theorem width_first_sample {x pint : List ℝ} {a b : ℝ} (ha : x.head? = some a) (hb : x.getLast? = some b)
    (hl : pint.length = x.length) (h0 : argmax pint = 0) : fwhmGuess x pint = some ((b - a) / 4) := by
  have hp : pint ≠ [] := by
    rintro rfl
    have : x = [] := List.length_eq_zero_iff.1 (by simpa using hl.symm)
    rw [this] at ha; simp at ha
  unfold fwhmGuess halfPoints
  simp only [h0, ha, hb, Option.bind_eq_bind, Option.bind_some, Option.pure_def, lt_irrefl, false_and, if_false, if_true,
    List.drop_zero, zero_add]
  have hlt : nearHalf pint (pint.getD 0 0) < x.length := by
    rw [← hl]; unfold nearHalf
    have := argmin_lt (l := pint.map fun v => |v - 1 / 2 * pint.getD 0 0|) (by simpa using hp)
    simpa using this
  rw [List.getElem?_eq_getElem hlt]
  simp
  ring

theorem nearHalf_spec {l : List ℝ} {a : ℝ} (h : l ≠ []) : ∃ v, l[nearHalf l a]? = some v ∧
    ∀ u ∈ l, |v - a / 2| ≤ |u - a / 2| := by
  obtain ⟨v, h1, h2, -⟩ := argmin_spec (l := l.map fun v => |v - 1 / 2 * a|) (by simpa using h)
  rw [List.getElem?_map] at h1
  obtain ⟨w, h3, rfl⟩ := Option.map_eq_some_iff.1 h1
  refine ⟨w, h3, fun u hu => ?_⟩
  have := h2 _ (List.mem_map.2 ⟨u, hu, rfl⟩)
  rwa [show 1 / 2 * a = a / 2 by ring] at this

/-- C78: with the largest value `a` of the data inside the range, the width of the guess is the distance of two samples,
one on either side of the maximum, each with a value as near to half of `a` as any on its side; unless that exceeds three
quarters of the number of samples, when it is a quarter of the range. -/
theorem width_half_height {x pint : List ℝ} (hx : x.Pairwise (· < ·)) (hl : pint.length = x.length)
    (h0 : 0 < argmax pint) (h1 : argmax pint + 1 < pint.length) :
    ∃ (a : ℝ) (i j : ℕ) (xi xj pi pj x0 xn : ℝ), pint[argmax pint]? = some a ∧ i < argmax pint ∧ argmax pint ≤ j ∧
      x[i]? = some xi ∧ x[j]? = some xj ∧ pint[i]? = some pi ∧ pint[j]? = some pj ∧
      (∀ k u, k < argmax pint → pint[k]? = some u → |pi - a / 2| ≤ |u - a / 2|) ∧
      (∀ k u, argmax pint ≤ k → pint[k]? = some u → |pj - a / 2| ≤ |u - a / 2|) ∧
      x.head? = some x0 ∧ x.getLast? = some xn ∧
      fwhmGuess x pint = some (if 3 / 4 * (x.length : ℝ) < xj - xi then 1 / 4 * (xn - x0) else xj - xi) := by
  generalize hc : argmax pint = c at *
  have hcl : c < pint.length := by omega
  have hne : x ≠ [] := by rintro rfl; simp at hl; rw [hl] at hcl; simp at hcl
  obtain ⟨x0, hx0⟩ : ∃ a, x.head? = some a := ⟨_, head_getElem hne⟩
  obtain ⟨xn, hxn⟩ : ∃ b, x.getLast? = some b := ⟨_, List.getLast?_eq_some_getLast hne⟩
  have ht : pint.take c ≠ [] := by
    intro h
    have := congrArg List.length h
    rw [List.length_take, List.length_nil] at this
    omega
  have hd : pint.drop c ≠ [] := by
    intro h
    have := congrArg List.length h
    rw [List.length_drop, List.length_nil] at this
    omega
  obtain ⟨v, hv1, hv2⟩ := nearHalf_spec (a := pint[c]) ht
  obtain ⟨w, hw1, hw2⟩ := nearHalf_spec (a := pint[c]) hd
  have hil : nearHalf (pint.take c) pint[c] < c := by
    obtain ⟨h, -⟩ := List.getElem?_eq_some_iff.1 hv1
    simp at h
    omega
  have hjl : c + nearHalf (pint.drop c) pint[c] < x.length := by
    obtain ⟨h, -⟩ := List.getElem?_eq_some_iff.1 hw1
    simp at h
    omega
  have hil' : nearHalf (pint.take c) pint[c] < x.length := by omega
  have hlt : x[nearHalf (pint.take c) pint[c]] < x[c + nearHalf (pint.drop c) pint[c]] :=
    List.pairwise_iff_getElem.1 hx _ _ hil' hjl (by omega)
  refine ⟨pint[c], _, c + nearHalf (pint.drop c) pint[c], _, _, v, w, x0, xn, List.getElem?_eq_getElem hcl, hil,
    Nat.le_add_right _ _, List.getElem?_eq_getElem hil', List.getElem?_eq_getElem hjl, ?_, ?_, ?_, ?_, hx0, hxn, ?_⟩
  · rw [List.getElem?_take] at hv1
    rwa [if_pos hil] at hv1
  · rwa [List.getElem?_drop] at hw1
  · intro k u hk hu
    exact hv2 u (List.mem_of_getElem? (i := k) (by rw [List.getElem?_take, if_pos hk]; exact hu))
  · intro k u hk hu
    refine hw2 u (List.mem_of_getElem? (i := k - c) ?_)
    rw [List.getElem?_drop, Nat.add_sub_cancel' hk]
    exact hu
  · have hg : pint.getD c 0 = pint[c] := by simp [List.getD_eq_getElem?_getD, List.getElem?_eq_getElem hcl]
    unfold fwhmGuess halfPoints
    simp only [hc, hg, hx0, hxn, Option.bind_eq_bind, Option.bind_some, Option.pure_def]
    have hin : 0 < c ∧ c < pint.length - 1 := ⟨h0, by omega⟩
    simp only [if_pos hin]
    simp only [List.getElem?_eq_getElem hjl, List.getElem?_eq_getElem hil']
    have : ¬ x[c + nearHalf (pint.drop c) pint[c]] - x[nearHalf (pint.take c) pint[c]] ≤ 0 := by
      push Not; linarith
    simp only [this, false_or]

/-! ### Background and peak height -/

/-- C78: when the estimated background is nowhere above the data, and the line has the same mean as the background (as a
least-squares line with intercept has), the height of the guess is not negative. -/
theorem height_nonneg {x f bkg : List ℝ} (hx : x ≠ []) (hf : f.length = x.length) (hb : bkg.length = x.length)
    (hle : List.Forall₂ (· ≤ ·) bkg f) {bg0 bg1 : ℝ}
    (hm : bkg.sum = (x.map fun t => bg1 * t + bg0).sum) :
    ∃ a, (subtractLine x f bg0 bg1)[argmax (subtractLine x f bg0 bg1)]? = some a ∧ 0 ≤ a := by
  have hne : subtractLine x f bg0 bg1 ≠ [] := by
    intro h
    have := congrArg List.length h
    simp [subtractLine, hf] at this
    exact hx this
  obtain ⟨v, hv, h1, -⟩ := argmax_spec hne
  refine ⟨v, hv, ?_⟩
  by_contra hlt
  push Not at hlt
  have : ∀ {x f bkg : List ℝ}, f.length = x.length → List.Forall₂ (· ≤ ·) bkg f →
      (∀ u ∈ subtractLine x f bg0 bg1, u ≤ v) → bkg.sum ≤ (x.map fun t => bg1 * t + bg0).sum + x.length * v := by
    intro x
    induction x with
    | nil =>
      intro f bkg hl hle _
      have : f = [] := List.length_eq_zero_iff.1 (by simpa using hl)
      subst this
      cases hle; simp
    | cons t x ih =>
      intro f bkg hl hle h
      cases hle with
      | nil => simp at hl
      | @cons b g bs gs hbg hrest =>
        have := ih (by simpa using hl) hrest fun u hu => h u (by
          simp only [subtractLine, List.zipWith_cons_cons, List.mem_cons]; exact Or.inr hu)
        have h0 := h (g - (bg1 * t + bg0)) (by simp [subtractLine])
        simp only [List.sum_cons, List.map_cons, List.length_cons, Nat.cast_add, Nat.cast_one]
        linarith
  have h2 := this hf hle h1
  have : 0 < (x.length : ℝ) := by exact_mod_cast List.length_pos_iff.2 hx
  nlinarith

/-! ### Guess and bounds of a single peak -/

theorem within_cons {v : ℝ} {e : Option (ℝ × ℝ)} {p : List ℝ} {b : List (Option (ℝ × ℝ))} :
    Within (v :: p) (e :: b) ↔ (∀ lo hi, e = some (lo, hi) → lo ≤ v ∧ v ≤ hi) ∧ Within p b := by
  constructor
  · intro h
    refine ⟨fun lo hi he => h 0 v lo hi rfl (by simp [he]), fun i u lo hi hu hb => h (i + 1) u lo hi ?_ ?_⟩
    · simpa using hu
    · simpa using hb
  · rintro ⟨h1, h2⟩ i u lo hi hu hb
    cases i with
    | zero => simp at hu hb; subst hu; exact h1 lo hi hb
    | succ i => exact h2 i u lo hi (by simpa using hu) (by simpa using hb)

theorem within_nil (b : List (Option (ℝ × ℝ))) : Within [] b := by intro i v lo hi h; simp at h

theorem bound_some {v a b : ℝ} : (∀ lo hi, some (a, b) = some (lo, hi) → lo ≤ v ∧ v ≤ hi) ↔ a ≤ v ∧ v ≤ b := by
  simp only [Option.some.injEq, Prod.mk.injEq]
  constructor
  · intro h; exact h a b ⟨rfl, rfl⟩
  · rintro h lo hi ⟨rfl, rfl⟩; exact h

theorem bound_none {v : ℝ} : (∀ lo hi, (none : Option (ℝ × ℝ)) = some (lo, hi) → lo ≤ v ∧ v ≤ hi) ↔ True := by simp

/-- C78: the pseudo-Voigt guess satisfies the bounds of its own fit exactly when its height and its background intercept
are not negative. -/
theorem guess_within_pvoigt {a x0 w bg0 bg1 xmin xmax : ℝ} (hx : xmin ≤ x0 ∧ x0 ≤ xmax) (hw : 0 ≤ w) :
    Within (guessVector .pvoigt a x0 w bg0 bg1) (bounds1d .pvoigt (guessVector .pvoigt a x0 w bg0 bg1) xmin xmax) ↔
      0 ≤ a ∧ 0 ≤ bg0 := by
  simp only [guessVector, bounds1d, List.getD_cons_zero, List.getD_cons_succ, within_cons, bound_some, bound_none,
    within_nil, and_true]
  constructor
  · rintro ⟨h1, -, -, -, h2⟩; constructor <;> linarith
  · rintro ⟨h1, h2⟩
    refine ⟨⟨by linarith, by linarith⟩, hx, ⟨hw, by linarith⟩, by norm_num, by linarith, by linarith⟩

/-- Disagreement: for the split pseudo-Voigt the bound of the background intercept is twice the mixing parameter of the
guess, which is one, in place of twice the intercept: the guess is outside the bounds of its own fit as soon as the
background intercept is larger than one count. -/
theorem guess_within_split_partial {a x0 w bg0 bg1 xmin xmax : ℝ} (hx : xmin ≤ x0 ∧ x0 ≤ xmax) (hw : 0 ≤ w) :
    Within (guessVector .splitPvoigt a x0 w bg0 bg1)
      (bounds1d .splitPvoigt (guessVector .splitPvoigt a x0 w bg0 bg1) xmin xmax) ↔ 0 ≤ a ∧ 0 ≤ bg0 ∧ bg0 ≤ 1 := by
  simp only [guessVector, bounds1d, List.getD_cons_zero, List.getD_cons_succ, within_cons, bound_some, bound_none,
    within_nil, and_true]
  constructor
  · rintro ⟨h1, -, -, -, -, -, h2⟩; exact ⟨by linarith, h2.1, by linarith⟩
  · rintro ⟨h1, h2, h3⟩
    refine ⟨⟨by linarith, by linarith⟩, hx, ⟨hw, by linarith⟩, ⟨hw, by linarith⟩, by norm_num, by norm_num, h2,
      by linarith⟩

/-- C78: for increasing positions the guess of `estimate_pk_parms_1d` exists, its centre is a sample with the largest
value above the line, its height is that value, and its width is positive. -/
theorem estimate_exists {x f : List ℝ} (hx : x.Pairwise (· < ·)) (h2 : 2 ≤ x.length) (hl : f.length = x.length)
    (t : PkType) (bg0 bg1 : ℝ) : ∃ (k : Nat) (v x0 w : ℝ), x[k]? = some x0 ∧ f[k]? = some v ∧ 0 < w ∧
      estimate1d x f t bg0 bg1 = some (guessVector t (v - (bg1 * x0 + bg0)) x0 w bg0 bg1) ∧
      ∀ (j : Nat) (u z : ℝ), x[j]? = some z → f[j]? = some u → u - (bg1 * z + bg0) ≤ v - (bg1 * x0 + bg0) := by
  have hlen : (subtractLine x f bg0 bg1).length = x.length := by simp [subtractLine, hl]
  have hne : subtractLine x f bg0 bg1 ≠ [] := by intro h; rw [h] at hlen; simp at hlen; omega
  obtain ⟨m, hm, h1, -⟩ := argmax_spec hne
  have hk := (List.getElem?_eq_some_iff.1 hm).1
  obtain ⟨w, -, -, hw, -, -, hw0, -⟩ := width_guess (pint := subtractLine x f bg0 bg1) hx h2
  have hget : ∀ (j : Nat) (u z : ℝ), x[j]? = some z → f[j]? = some u →
      (subtractLine x f bg0 bg1)[j]? = some (u - (bg1 * z + bg0)) := by
    intro j u z hz hu
    simp [subtractLine, List.getElem?_zipWith, hz, hu]
  have hx0 := List.getElem?_eq_getElem (l := x) (show argmax (subtractLine x f bg0 bg1) < x.length by omega)
  have hf0 := List.getElem?_eq_getElem (l := f) (show argmax (subtractLine x f bg0 bg1) < f.length by omega)
  have hm' := hget _ _ _ hx0 hf0
  refine ⟨_, _, _, w, hx0, hf0, hw0, ?_, ?_⟩
  · unfold estimate1d
    simp only [hm', hx0, hw, Option.bind_eq_bind, Option.bind_some, Option.pure_def]
  · intro j u z hz hu
    rw [hm] at hm'
    rw [← Option.some.inj hm']
    exact h1 _ (List.mem_of_getElem? (hget j u z hz hu))

/-! ### Residuals with bounds -/

theorem penalty_zero {w v : ℝ} (hw : 0 < w) (e : Option (ℝ × ℝ)) :
    penalty w v e = 0 ↔ ∀ lo hi, e = some (lo, hi) → lo ≤ v ∧ v ≤ hi := by
  cases e with
  | none => simp [penalty]
  | some b =>
    obtain ⟨lo, hi⟩ := b
    rw [bound_some]
    unfold penalty
    rw [mul_eq_zero, or_iff_right hw.ne']
    constructor
    · intro h
      have h1 := le_max_left (max (-(v - lo)) 0) (v - hi)
      have h2 := le_max_right (max (-(v - lo)) 0) (v - hi)
      have h3 := le_max_left (-(v - lo)) 0
      constructor <;> linarith
    · rintro ⟨h1, h2⟩
      rw [max_eq_right (by linarith : -(v - lo) ≤ 0), max_eq_left (by linarith)]

/-- C79: the residual of a bounded fit is zero exactly when the peak reproduces the data and every parameter is within
its bounds. -/
theorem residual_zero {w : ℝ} (hw : 0 < w) (t : PkType) (p x f0 : List ℝ) (hl : f0.length = x.length)
    (b : List (Option (ℝ × ℝ))) :
    (∀ r ∈ residualBounded t p x f0 w b, r = 0) ↔ f0 = x.map (peak1d t p) ∧ Within p b := by
  unfold residualBounded
  simp only [List.mem_append, or_imp, forall_and]
  have h1 : (∀ r ∈ residual t p x f0, r = 0) ↔ f0 = x.map (peak1d t p) := by
    unfold residual
    induction x generalizing f0 with
    | nil => simp [List.length_eq_zero_iff.1 (by simpa using hl : f0.length = 0)]
    | cons a x ih =>
      cases f0 with
      | nil => simp at hl
      | cons g f0 =>
        have := ih f0 (by simpa using hl)
        simp only [List.zipWith_cons_cons, List.forall_mem_cons, this, List.map_cons, List.cons.injEq]
        constructor
        · rintro ⟨h1, h2⟩; exact ⟨by linarith, h2⟩
        · rintro ⟨h1, h2⟩; exact ⟨by linarith, h2⟩
  have h2 : (∀ r ∈ List.zipWith (penalty w) p b, r = 0) ↔ Within p b := by
    clear h1 hl
    induction p generalizing b with
    | nil => simp [within_nil]
    | cons v p ih =>
      cases b with
      | nil => simp; intro i v lo hi h1 h2; simp at h2
      | cons e b =>
        simp only [List.zipWith_cons_cons, List.forall_mem_cons, ih b, within_cons, penalty_zero hw]
  rw [h1, h2]

/-- C79: within the bounds the sum of squares of the bounded residual is that of the unbounded one; in general it is
never smaller. -/
theorem residual_squares (t : PkType) (p x f0 : List ℝ) {w : ℝ} (hw : 0 < w) (b : List (Option (ℝ × ℝ))) :
    ((residual t p x f0).map (· ^ 2)).sum ≤ ((residualBounded t p x f0 w b).map (· ^ 2)).sum ∧
      (((residualBounded t p x f0 w b).map (· ^ 2)).sum = ((residual t p x f0).map (· ^ 2)).sum ↔ Within p b) := by
  unfold residualBounded
  rw [List.map_append, List.sum_append]
  have h2 : 0 ≤ ((List.zipWith (penalty w) p b).map (· ^ 2)).sum ∧
      (((List.zipWith (penalty w) p b).map (· ^ 2)).sum = 0 ↔ Within p b) := by
    induction p generalizing b with
    | nil => simp [within_nil]
    | cons v p ih =>
      cases b with
      | nil => simp; intro i v lo hi h1 h2; simp at h2
      | cons e b =>
        obtain ⟨i1, i2⟩ := ih b
        simp only [List.zipWith_cons_cons, List.map_cons, List.sum_cons]
        have hs := sq_nonneg (penalty w v e)
        refine ⟨by positivity, ?_⟩
        rw [within_cons, ← i2, ← penalty_zero hw]
        constructor
        · intro h
          have : penalty w v e ^ 2 = 0 := by linarith
          exact ⟨by simpa using this, by linarith⟩
        · rintro ⟨h3, h4⟩; rw [h3, h4]; norm_num
  refine ⟨by linarith [h2.1], ?_⟩
  rw [← h2.2]
  constructor <;> intro h <;> linarith

/-- Disagreement: data that are exactly a split pseudo-Voigt on a background with intercept larger than one do not have a
zero residual at their own parameters, when the fit starts from a guess with mixing one half. -/
theorem split_exact_penalised {w : ℝ} (hw : 0 < w) {p p0 x : List ℝ} {xmin xmax c0 : ℝ} (h4 : p0.getD 4 0 = 1 / 2)
    (hc : p[6]? = some c0) (h1 : 1 < c0) :
    ¬ ∀ r ∈ residualBounded .splitPvoigt p x (x.map (peak1d .splitPvoigt p)) w (bounds1d .splitPvoigt p0 xmin xmax),
      r = 0 := by
  rw [residual_zero hw _ _ _ _ (by simp)]
  rintro ⟨-, h⟩
  have := h 6 c0 0 1 hc (by
    have : (2 : ℝ) * p0.getD 4 0 = 1 := by rw [h4]; norm_num
    simp only [bounds1d, this]; rfl)
  linarith

/-! ### Several peaks -/

theorem feasible_iff {v : ℝ} {e : Option (ℝ × ℝ)} {p : List ℝ} {b : List (Option (ℝ × ℝ))} :
    Feasible (v :: p) (e :: b) ↔ (∀ lo hi, e = some (lo, hi) → lo < hi ∧ lo ≤ v ∧ v ≤ hi) ∧ Feasible p b := by
  unfold Feasible
  simp only [List.length_cons, Nat.add_right_cancel_iff, List.zip_cons_cons, List.forall_mem_cons]
  tauto

theorem feasible_append {p q : List ℝ} {b c : List (Option (ℝ × ℝ))} (hl : p.length = b.length) :
    Feasible (p ++ q) (b ++ c) ↔ Feasible p b ∧ Feasible q c := by
  unfold Feasible
  rw [List.zip_append hl, List.length_append, List.length_append]
  constructor
  · rintro ⟨h1, h2⟩
    exact ⟨⟨hl, fun e he => h2 e (List.mem_append_left _ he)⟩, by omega, fun e he => h2 e (List.mem_append_right _ he)⟩
  · rintro ⟨⟨h1, h2⟩, h3, h4⟩
    refine ⟨by omega, fun e he => ?_⟩
    rcases List.mem_append.1 he with he | he
    · exact h2 e he
    · exact h4 e he

theorem feasible_free (c : List ℝ) : Feasible c (c.map fun _ => none) := by
  induction c with
  | nil => simp [Feasible]
  | cons a c ih => rw [List.map_cons, feasible_iff]; exact ⟨by simp, ih⟩

theorem feasible_some {v a b : ℝ} {p : List ℝ} {q : List (Option (ℝ × ℝ))} :
    Feasible (v :: p) (some (a, b) :: q) ↔ (a < b ∧ a ≤ v ∧ v ≤ b) ∧ Feasible p q := by
  rw [feasible_iff]
  apply and_congr_left'
  simp only [Option.some.injEq, Prod.mk.injEq]
  constructor
  · intro h; exact h a b ⟨rfl, rfl⟩
  · rintro h lo hi ⟨rfl, rfl⟩; exact h

theorem feasible_nil : Feasible [] [] := by simp [Feasible]

/-- Multipliers like the default ones: the lower ones below one, the upper ones above. -/
structure Proper (m : Limits) : Prop where
  a0 : 0 ≤ m.ampLo
  a1 : m.ampLo < 1
  a2 : 1 < m.ampHi
  w1 : m.fwhmLo < 1
  w2 : 1 < m.fwhmHi

/-- One peak is feasible exactly when the amplitude is positive; for a pseudo-Voigt its own bound, reduced by the smallest
data value, has to leave room. -/
theorem rows_feasible (t : PkType) {amp pos fwhm cb minVal : ℝ} {m : Limits} (hm : Proper m) (hw : 0 < fwhm) (hc : 0 < cb) :
    Feasible ((peakRows t amp pos fwhm cb minVal m).map Prod.fst)
        ((peakRows t amp pos fwhm cb minVal m).map fun e => some e.2) ↔
      if t = .pvoigt then amp * m.ampLo < (amp - minVal + 1) * m.ampHi ∧ 0 ≤ amp ∧ amp ≤ (amp - minVal + 1) * m.ampHi
      else 0 < amp := by
  obtain ⟨a0, a1, a2, w1, w2⟩ := hm
  have hcen : pos - cb < pos + cb ∧ pos - cb ≤ pos ∧ pos ≤ pos + cb := ⟨by linarith, by linarith, by linarith⟩
  have hwid : fwhm * m.fwhmLo < fwhm * m.fwhmHi ∧ fwhm * m.fwhmLo ≤ fwhm ∧ fwhm ≤ fwhm * m.fwhmHi :=
    ⟨by nlinarith, by nlinarith, by nlinarith⟩
  have hmix : (0:ℝ) < 1 ∧ (0:ℝ) ≤ 1 / 2 ∧ (1:ℝ) / 2 ≤ 1 := by norm_num
  have hamp : (amp * m.ampLo < amp * m.ampHi ∧ amp * m.ampLo ≤ amp ∧ amp ≤ amp * m.ampHi) ↔ 0 < amp := by
    constructor
    · rintro ⟨h, -, -⟩; by_contra hn; push Not at hn; nlinarith
    · intro h; exact ⟨by nlinarith, by nlinarith, by nlinarith⟩
  have hamp0 : amp * m.ampLo ≤ amp ↔ 0 ≤ amp := by
    constructor
    · intro h; by_contra hn; push Not at hn; nlinarith
    · intro h; nlinarith
  cases t <;> simp only [peakRows, List.map_cons, List.map_nil, feasible_some, feasible_nil, hcen, hwid, hmix,
    and_true, true_and, if_true, reduceCtorEq, if_false]
  · exact hamp
  · exact hamp
  · rw [hamp0]
  · exact hamp

theorem rows_length (t : PkType) (amp pos fwhm cb minVal : ℝ) (m : Limits) :
    (peakRows t amp pos fwhm cb minVal m).length = t.nparams := by
  cases t <;> rfl

/-- C78: the start of a multi-peak fit with Gaussians, Lorentzians or split pseudo-Voigts is accepted by the optimizer
exactly when all amplitude guesses are positive. -/
theorem multi_feasible (t : PkType) (ht : t ≠ .pvoigt) {m : Limits} (hm : Proper m) (minVal : ℝ) (b : Bg)
    (avg bg0 bg1 : ℝ) {pks : List (ℝ × ℝ × ℝ × ℝ)} (hp : ∀ q ∈ pks, 0 < q.2.2.1 ∧ 0 < q.2.2.2) :
    Feasible (assemble t pks minVal m b avg bg0 bg1).1 (assemble t pks minVal m b avg bg0 bg1).2 ↔
      ∀ q ∈ pks, 0 < q.1 := by
  unfold assemble
  induction pks with
  | nil => simpa using feasible_free (bgGuess b avg bg0 bg1)
  | cons q pks ih =>
    have := ih fun q hq => hp q (by simp [hq])
    obtain ⟨a, pos, w, cb⟩ := q
    obtain ⟨hw, hc⟩ := hp (a, pos, w, cb) (by simp)
    simp only [List.map_cons, List.flatten_cons, List.append_assoc] at this ⊢
    rw [feasible_append (by simp), this, rows_feasible t hm hw hc, if_neg ht]
    simp

/-- Disagreement: for pseudo-Voigts the upper bound of the amplitude, whose guess is above the background, is still reduced
by the smallest data value.  With a smallest value larger than the amplitude plus one, any guess is refused. -/
theorem multi_pvoigt_refused {m : Limits} (hm : Proper m) {minVal : ℝ} (b : Bg) (avg bg0 bg1 : ℝ)
    {a pos w cb : ℝ} (pks : List (ℝ × ℝ × ℝ × ℝ)) (hw : 0 < w) (hc : 0 < cb) (h : a + 1 < minVal) :
    ¬ Feasible (assemble .pvoigt ((a, pos, w, cb) :: pks) minVal m b avg bg0 bg1).1
      (assemble .pvoigt ((a, pos, w, cb) :: pks) minVal m b avg bg0 bg1).2 := by
  unfold assemble
  simp only [List.map_cons, List.flatten_cons, List.append_assoc]
  rw [feasible_append (by simp), rows_feasible .pvoigt hm hw hc, if_pos rfl]
  rintro ⟨⟨-, h1, h2⟩, -⟩
  have := hm.a2
  nlinarith

/-- C78 for pseudo-Voigts: the start is accepted when the smallest data value is at most one.  Missing: larger
backgrounds, for which `multi_pvoigt_refused` shows that it can be refused. -/
theorem multi_feasible_pvoigt_partial {m : Limits} (hm : Proper m) {minVal : ℝ} (h1 : minVal ≤ 1) (b : Bg)
    (avg bg0 bg1 : ℝ) {pks : List (ℝ × ℝ × ℝ × ℝ)} (hp : ∀ q ∈ pks, 0 < q.1 ∧ 0 < q.2.2.1 ∧ 0 < q.2.2.2) :
    Feasible (assemble .pvoigt pks minVal m b avg bg0 bg1).1 (assemble .pvoigt pks minVal m b avg bg0 bg1).2 := by
  unfold assemble
  induction pks with
  | nil => simpa using feasible_free (bgGuess b avg bg0 bg1)
  | cons q pks ih =>
    have := ih fun q hq => hp q (by simp [hq])
    obtain ⟨a, pos, w, cb⟩ := q
    obtain ⟨ha, hw, hc⟩ := hp (a, pos, w, cb) (by simp)
    simp only at ha hw hc
    simp only [List.map_cons, List.flatten_cons, List.append_assoc] at this ⊢
    rw [feasible_append (by simp), rows_feasible .pvoigt hm hw hc, if_pos rfl]
    obtain ⟨a0, a1, a2, -, -⟩ := hm
    have k : a ≤ (a - minVal + 1) * m.ampHi := by nlinarith
    exact ⟨⟨by nlinarith, ha.le, k⟩, this⟩

/-- C78: the guess has the layout that the multi-peak function reads: its value is the sum of the guessed peaks, each with
its own amplitude, position and width, and of the guessed line (the average for a constant background). -/
theorem multi_guess_value (t : PkType) (m : Limits) (minVal : ℝ) (b : Bg) (hb : b ≠ .cubic) (avg bg0 bg1 : ℝ)
    (pks : List (ℝ × ℝ × ℝ × ℝ)) (x : ℝ) :
    mpeak1d (assemble t pks minVal m b avg bg0 bg1).1 x t pks.length b.toBgType =
      some ((pks.map fun (a, pos, w, _) => t.noBg (params (match t with
        | .gaussian | .lorentzian => [a, pos, w]
        | .pvoigt => [a, pos, w, 1 / 2]
        | .splitPvoigt => [a, pos, w, w, 1 / 2, 1 / 2])) x).sum +
        if b = .constant then avg else bg0 + bg1 * x) := by
  have key := mpeak_value t
    (ps := (pks.map fun (a, pos, w, cb) => peakRows t a pos w cb minVal m).map fun r => r.map Prod.fst) (by
      simp only [List.map_map, List.mem_map]
      rintro _ ⟨⟨a, pos, w, cb⟩, -, rfl⟩
      simp [rows_length]) b.toBgType (c := bgGuess b avg bg0 bg1) (by cases b <;> simp_all [bgGuess, Bg.toBgType, BgType.nparams]) x
  simp only [List.length_map] at key
  unfold assemble
  simp only
  rw [key, List.map_map, List.map_map]
  congr 2
  · congr 1
    apply List.map_congr_left
    rintro ⟨a, pos, w, cb⟩ -
    cases t <;> rfl
  · cases b <;> simp_all [bgGuess, poly] <;> ring

/-- Disagreement: with a cubic background the guessed line is not part of the value. -/
theorem multi_guess_cubic (t : PkType) (m : Limits) (minVal avg bg0 bg1 : ℝ) (pks : List (ℝ × ℝ × ℝ × ℝ)) (x : ℝ) :
    mpeak1d (assemble t pks minVal m .cubic avg bg0 bg1).1 x t pks.length (Bg.cubic).toBgType =
      mpeak1d (assemble t pks minVal m .cubic avg 0 0).1 x t pks.length (Bg.cubic).toBgType := by
  have := mpeak_cubic_ignored t
    (ps := (pks.map fun (a, pos, w, cb) => peakRows t a pos w cb minVal m).map fun r => r.map Prod.fst) (by
      simp only [List.map_map, List.mem_map]
      rintro _ ⟨⟨a, pos, w, cb⟩, -, rfl⟩
      simp [rows_length]) (bgGuess .cubic avg bg0 bg1) (bgGuess .cubic avg 0 0) x
  simpa [assemble, Bg.toBgType] using this

theorem mapM_amp {x y : List ℝ} (hx : x.Pairwise (· < ·)) (hne : x ≠ []) (hl : y.length = x.length) :
    ∀ {pks : List (ℝ × ℝ × ℝ)}, (∀ q ∈ pks, 0 < q.2.1) → ∃ amps, amps.length = pks.length ∧ (∀ a ∈ amps, a ∈ y) ∧
      pks.mapM (fun (pos, w, _) => amplitudeGuess x pos y w) = some amps
  | [], _ => ⟨[], rfl, by simp, rfl⟩
  | (pos, w, cb) :: pks, h => by
    obtain ⟨amps, h1, h2, h3⟩ := mapM_amp hx hne hl (pks := pks) fun q hq => h q (by simp [hq])
    have hw : 0 < w := h (pos, w, cb) (by simp)
    obtain ⟨a, ha, hay, -⟩ := amplitude_guess hx hne hl pos hw.le
    refine ⟨a :: amps, by simp [h1], ?_, ?_⟩
    · intro b hb
      rcases List.mem_cons.1 hb with rfl | hb
      · exact hay
      · exact h2 b hb
    · rw [List.mapM_cons]
      simp only [ha, h3, Option.bind_eq_bind, Option.bind_some, Option.pure_def]

/-- C78: for increasing positions and data above the estimated line, `estimate_mpk_parms_1d` delivers a start for every
list of peaks, and the optimizer accepts it (for Gaussians, Lorentzians and split pseudo-Voigts). -/
theorem multi_start {x f : List ℝ} (hx : x.Pairwise (· < ·)) (hne : x ≠ []) (hl : f.length = x.length) (t : PkType)
    (ht : t ≠ .pvoigt) {m : Limits} (hm : Proper m) (b : Bg) (avg : ℝ) {bg0 bg1 : ℝ}
    (hpos : ∀ v ∈ subtractLine x f bg0 bg1, 0 < v) {pks : List (ℝ × ℝ × ℝ)} (hp : ∀ q ∈ pks, 0 < q.2.1 ∧ 0 < q.2.2) :
    ∃ s, estimateMulti x f t pks m b avg bg0 bg1 = some s ∧ Feasible s.1 s.2 := by
  have hly : (subtractLine x f bg0 bg1).length = x.length := by simp [subtractLine, hl]
  obtain ⟨amps, h1, h2, h3⟩ := mapM_amp hx hne hly (pks := pks) fun q hq => (hp q hq).1
  obtain ⟨mv, hmv⟩ : ∃ mv, f.min? = some mv := by
    cases h : f.min? with
    | some v => exact ⟨v, rfl⟩
    | none =>
      rw [List.min?_eq_none_iff] at h
      rw [h] at hl; exact absurd (List.length_eq_zero_iff.1 (by simpa using hl.symm)) hne
  refine ⟨_, by simp only [estimateMulti, hmv, h3, Option.bind_eq_bind, Option.bind_some, Option.pure_def]; rfl, ?_⟩
  rw [multi_feasible t ht hm]
  · intro q hq
    obtain ⟨i, hi, rfl⟩ := List.mem_iff_getElem.1 hq
    simp only [List.getElem_zipWith]
    exact hpos _ (h2 _ (List.getElem_mem _))
  · intro q hq
    obtain ⟨i, hi, rfl⟩ := List.mem_iff_getElem.1 hq
    simp only [List.getElem_zipWith]
    exact hp _ (List.getElem_mem _)

/-! ### Two dimensions -/

/-- C78 for a two-dimensional patch centred at the origin: a planar background is removed exactly. -/
theorem plane_centred_partial {c0 cx cy a b : ℝ} (ha : a ≠ 0) (hb : b ≠ 0) (x y : ℝ) :
    withoutPlane (fun x y => c0 + cx * x + cy * y) (-a) a (-b) b x y = 0 := by
  unfold withoutPlane cornerPlane
  simp only
  have h1 : a - -a ≠ 0 := by intro h; exact ha (by linarith)
  have h2 : b - -b ≠ 0 := by intro h; exact hb (by linarith)
  field_simp
  ring

/-- Disagreement: the average of the corners is used as the value at the origin of the coordinates in place of the centre
of the patch.  A planar background leaves the constant by which the plane rises from the origin to the centre. -/
theorem plane_not_removed {c0 cx cy x0 x1 y0 y1 : ℝ} (hx : x0 ≠ x1) (hy : y0 ≠ y1) (x y : ℝ) :
    withoutPlane (fun x y => c0 + cx * x + cy * y) x0 x1 y0 y1 x y = -(cx * ((x0 + x1) / 2) + cy * ((y0 + y1) / 2)) := by
  unfold withoutPlane cornerPlane
  simp only
  have h1 : x1 - x0 ≠ 0 := sub_ne_zero.2 hx.symm
  have h2 : y1 - y0 ≠ 0 := sub_ne_zero.2 hy.symm
  field_simp
  ring

/-! ### Goodness of fit -/

/-- C79: both measures are not negative, and the first is zero exactly when the two are equal. -/
theorem goodness_zero {f f0 : List ℝ} (hl : f.length = f0.length) (h0 : ∃ v ∈ f0, v ≠ 0) :
    0 ≤ (goodness f f0).1 ∧ 0 ≤ (goodness f f0).2 ∧ ((goodness f f0).1 = 0 ↔ f = f0) := by
  have n1 : ∀ f f0 : List ℝ, 0 ≤ (List.zipWith (fun a b => (a - b) ^ 2) f f0).sum := by
    intro f f0
    apply List.sum_nonneg
    intro v hv
    obtain ⟨i, hi, rfl⟩ := List.mem_iff_getElem.1 hv
    simp only [List.getElem_zipWith]; positivity
  have n2 : 0 ≤ (List.zipWith (fun a b => |b * (a - b) ^ 2|) f f0).sum := by
    apply List.sum_nonneg
    intro v hv
    obtain ⟨i, hi, rfl⟩ := List.mem_iff_getElem.1 hv
    simp only [List.getElem_zipWith]; positivity
  have d1 : 0 < (f0.map fun b => b ^ 2).sum := by
    clear n1 n2 hl f
    have n3 : ∀ l : List ℝ, 0 ≤ (l.map fun b => b ^ 2).sum := by
      intro l
      apply List.sum_nonneg
      simp only [List.mem_map]
      rintro _ ⟨a, -, rfl⟩; positivity
    induction f0 with
    | nil => simp at h0
    | cons a l ih =>
      obtain ⟨v, hv, hv0⟩ := h0
      rw [List.map_cons, List.sum_cons]
      rcases List.mem_cons.1 hv with rfl | hv
      · have := n3 l
        positivity
      · have := ih ⟨v, hv, hv0⟩
        positivity
  have d2 : 0 ≤ (f0.map fun b => |b ^ 3|).sum := by
    apply List.sum_nonneg
    simp only [List.mem_map]
    rintro _ ⟨a, -, rfl⟩; positivity
  refine ⟨div_nonneg (n1 _ _) d1.le, div_nonneg n2 d2, ?_⟩
  unfold goodness
  simp only
  rw [div_eq_zero_iff, or_iff_left d1.ne']
  clear n2 d1 d2 h0
  induction f generalizing f0 with
  | nil => simp [List.length_eq_zero_iff.1 (by simpa using hl.symm : f0.length = 0)]
  | cons a f ih =>
    cases f0 with
    | nil => simp at hl
    | cons b f0 =>
      have := ih (f0 := f0) (by simpa using hl)
      rw [List.zipWith_cons_cons, List.sum_cons, List.cons.injEq, ← this]
      have h1 := n1 f f0
      have h2 := sq_nonneg (a - b)
      constructor
      · intro h
        have : (a - b) ^ 2 = 0 := by linarith
        exact ⟨by have := pow_eq_zero_iff (n := 2) (by norm_num) |>.1 this; linarith, by linarith⟩
      · rintro ⟨rfl, h⟩; simp [h]

/-! ### Concrete cases -/

/-- The default multipliers. -/
example : Proper ⟨1 / 10, 10, 1 / 2, 2⟩ := by constructor <;> norm_num

/-- A pseudo-Voigt of height 100 on a background of 200 counts is refused. -/
example : ¬ Feasible (assemble .pvoigt [(100, 5, 1, 1 / 50)] 200 ⟨1 / 10, 10, 1 / 2, 2⟩ .linear 200 200 0).1
    (assemble .pvoigt [(100, 5, 1, 1 / 50)] 200 ⟨1 / 10, 10, 1 / 2, 2⟩ .linear 200 200 0).2 :=
  multi_pvoigt_refused (by constructor <;> norm_num) .linear 200 200 0 [] (by norm_num) (by norm_num) (by norm_num)

/-- A guess within its bounds and one outside. -/
example : Within (guessVector .pvoigt 10 1 2 5 0) (bounds1d .pvoigt (guessVector .pvoigt 10 1 2 5 0) 0 3) :=
  (guess_within_pvoigt (by norm_num) (by norm_num)).2 (by norm_num)
example : ¬ Within (guessVector .splitPvoigt 10 1 2 5 0)
    (bounds1d .splitPvoigt (guessVector .splitPvoigt 10 1 2 5 0) 0 3) := by
  rw [guess_within_split_partial (by norm_num) (by norm_num)]; norm_num

/-- Three increasing positions. -/
example : ∃ w a b, fwhmGuess [0, 1, 2] [0, 4, 1] = some w ∧ [(0 : ℝ), 1, 2].head? = some a ∧
    [(0 : ℝ), 1, 2].getLast? = some b ∧ 0 < w ∧ w ≤ b - a := width_guess (by simp) (by simp)

end Hexrd.PeakFit
