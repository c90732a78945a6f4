import Verif.Lemmas.Confidence
import Mathlib.Algebra.Order.Field.Basic
import Mathlib.Tactic.NormNum
import Mathlib.Tactic.Positivity

/-! The confidence of one orientation at one coordinate. -/

namespace Hexrd.Confidence

/-- The confidence is the fraction of the spots, of those that are on the sensor and not behind the beam stop, whose pixel and frame
are lit. -/
theorem confidence_fraction (s : Sensor) (δ0 δ1 δ2 : ℝ) (img : Stack Bool) (hf : Fits s δ0 δ1 δ2 img) (spots : List Spot)
    (hp : ∀ p ∈ spots, InFrames s δ2 img.frames p) :
    confidence s img spots = some (Spec.fraction s δ0 δ1 δ2 img spots) := by
  unfold confidence Spec.fraction
  rw [counts_eq s δ0 δ1 δ2 img hf spots hp, Option.map_some]
  simp only [Nat.zero_add, List.length_eq_zero_iff]

/-- Where the code departs from the range of the images: a spot at an angle before the first frame, by up to the number of frames, is
looked for in the frame that many later. -/
theorem early_spot_fails (s : Sensor) (δ2 : ℝ) (n2 : δ2 ≠ 0) (i2 : s.i2 = 1 / δ2) (img : Stack Bool) (st : ℕ × ℕ) (p : Spot)
    (h1 : -(img.frames : ℤ) ≤ ⌊(p.2 - s.b2) * s.i2⌋) (h2 : ⌊(p.2 - s.b2) * s.i2⌋ < 0) :
    count s img st p = count s img st (p.1, p.2 + img.frames * δ2) := by
  have e : ⌊(p.2 + img.frames * δ2 - s.b2) * s.i2⌋ = ⌊(p.2 - s.b2) * s.i2⌋ + img.frames := by
    rw [← Int.floor_add_natCast]
    congr 1
    rw [i2]
    field_simp
    ring
  have hr : ∀ y x, read img ⌊(p.2 - s.b2) * s.i2⌋ y x = read img (⌊(p.2 - s.b2) * s.i2⌋ + img.frames) y x := by
    intro y x
    unfold read wrap
    simp only [h2, if_true, show ¬ (⌊(p.2 - s.b2) * s.i2⌋ + (img.frames : ℤ) < 0) by omega, if_false]
  unfold count
  simp only [e, hr]

theorem fraction_le (a b : ℕ) (h : a ≤ b) : (0 : ℝ) ≤ (a : ℝ) / b ∧ (a : ℝ) / b ≤ 1 := by
  refine ⟨by positivity, div_le_one_of_le₀ (by exact_mod_cast h) (by positivity)⟩

/-- A confidence that is computed is between zero and one, whatever the image. -/
theorem confidence_range (s : Sensor) (img : Stack Bool) (spots : List Spot) (c : ℝ) (h : confidence s img spots = some c) :
    0 ≤ c ∧ c ≤ 1 := by
  have key : ∀ (l : List Spot) (st out : ℕ × ℕ), st.2 ≤ st.1 → l.foldlM (count s img) st = some out → out.2 ≤ out.1 := by
    intro l
    induction l with
    | nil => intro st out h h2; cases h2; exact h
    | cons p l ih =>
      intro st out h h2
      rw [List.foldlM_cons] at h2
      cases e : count s img st p with
      | none => rw [e] at h2; cases h2
      | some st' =>
        rw [e] at h2
        apply ih st' out _ h2
        unfold count at e
        split at e
        · cases e; exact h
        · simp only at e
          split at e; · cases e; exact h
          split at e; · cases e; exact h
          split at e; · cases e; exact h
          split at e; · cases e; exact h
          split at e; · cases e; exact h
          rw [Option.map_eq_some_iff] at e
          obtain ⟨lit, _, rfl⟩ := e
          show (if lit = true then st.2 + 1 else st.2) ≤ st.1 + 1
          split
          · exact Nat.succ_le_succ h
          · exact h.trans (Nat.le_succ _)
  unfold confidence at h
  rw [Option.map_eq_some_iff] at h
  obtain ⟨out, e, rfl⟩ := h
  have := key spots (0, 0) out (le_refl _) e
  split
  · exact ⟨le_refl _, zero_le_one⟩
  · exact fraction_le _ _ this

/-- The confidence is one exactly if some spot is visible and every visible spot is lit. -/
theorem confidence_one (s : Sensor) (δ0 δ1 δ2 : ℝ) (img : Stack Bool) (hf : Fits s δ0 δ1 δ2 img) (spots : List Spot)
    (hp : ∀ p ∈ spots, InFrames s δ2 img.frames p) :
    confidence s img spots = some 1 ↔ (∃ p ∈ spots, Spec.Visible s δ0 δ1 p) ∧
      ∀ p ∈ spots, Spec.Visible s δ0 δ1 p → Spec.Lit s δ0 δ1 δ2 img p := by
  classical
  rw [confidence_fraction s δ0 δ1 δ2 img hf spots hp, Option.some.injEq]
  unfold Spec.fraction
  simp only
  by_cases hv : (spots.filter fun p => Spec.Visible s δ0 δ1 p) = []
  · rw [if_pos hv]
    rw [List.filter_eq_nil_iff] at hv
    constructor
    · intro h; norm_num at h
    · rintro ⟨⟨p, h1, h2⟩, _⟩
      exact absurd (by simpa using h2) (hv p h1)
  · rw [if_neg hv]
    have hpos : (0 : ℝ) < (spots.filter fun p => Spec.Visible s δ0 δ1 p).length := by
      exact_mod_cast List.length_pos_iff.2 hv
    rw [div_eq_one_iff_eq hpos.ne']
    have hex : ∃ p ∈ spots, Spec.Visible s δ0 δ1 p := by
      obtain ⟨p, hm⟩ := List.exists_mem_of_ne_nil _ hv
      rw [List.mem_filter] at hm
      exact ⟨p, hm.1, by simpa using hm.2⟩
    constructor
    · intro h
      refine ⟨hex, fun p h1 h2 => ?_⟩
      have h' : ((spots.filter fun p => Spec.Visible s δ0 δ1 p).filter fun p => Spec.Lit s δ0 δ1 δ2 img p).length =
          (spots.filter fun p => Spec.Visible s δ0 δ1 p).length := by exact_mod_cast h
      rw [List.length_filter_eq_length_iff] at h'
      simpa using h' p (List.mem_filter.2 ⟨h1, by simpa using h2⟩)
    · rintro ⟨_, h⟩
      have : ((spots.filter fun p => Spec.Visible s δ0 δ1 p).filter fun p => Spec.Lit s δ0 δ1 δ2 img p).length =
          (spots.filter fun p => Spec.Visible s δ0 δ1 p).length := by
        rw [List.length_filter_eq_length_iff]
        intro p hm
        rw [List.mem_filter] at hm
        simpa using h p hm.1 (by simpa using hm.2)
      exact_mod_cast this

theorem filter_length_mono {β : Type} (l : List β) (p q : β → Bool) (h : ∀ x ∈ l, p x = true → q x = true) :
    (l.filter p).length ≤ (l.filter q).length := by
  induction l with
  | nil => simp
  | cons x l ih =>
    have := ih fun y hy => h y (List.mem_cons_of_mem _ hy)
    by_cases hp : p x = true
    · rw [List.filter_cons_of_pos hp, List.filter_cons_of_pos (h x (List.mem_cons_self ..) hp)]
      simpa using this
    · rw [List.filter_cons_of_neg hp]
      by_cases hq : q x = true
      · rw [List.filter_cons_of_pos hq, List.length_cons]; omega
      · rwa [List.filter_cons_of_neg hq]

/-- More light never lowers a confidence. -/
theorem confidence_mono (s : Sensor) (δ0 δ1 δ2 : ℝ) (img img' : Stack Bool) (hf : Fits s δ0 δ1 δ2 img)
    (hf' : Fits s δ0 δ1 δ2 img') (hfr : img'.frames = img.frames)
    (hle : ∀ z y x, z < img.frames → y < s.rows → x < s.cols → img.val z y x = true → img'.val z y x = true)
    (spots : List Spot) (hp : ∀ p ∈ spots, InFrames s δ2 img.frames p) :
    ∃ c c', confidence s img spots = some c ∧ confidence s img' spots = some c' ∧ c ≤ c' := by
  classical
  refine ⟨_, _, confidence_fraction s δ0 δ1 δ2 img hf spots hp,
    confidence_fraction s δ0 δ1 δ2 img' hf' spots (by rw [hfr]; exact hp), ?_⟩
  unfold Spec.fraction
  simp only
  split
  · exact le_refl _
  · have : ((spots.filter fun p => Spec.Visible s δ0 δ1 p).filter fun p => Spec.Lit s δ0 δ1 δ2 img p).length ≤
        ((spots.filter fun p => Spec.Visible s δ0 δ1 p).filter fun p => Spec.Lit s δ0 δ1 δ2 img' p).length := by
      apply filter_length_mono
      intro p hm hl
      rw [List.mem_filter] at hm
      have hv : Spec.Visible s δ0 δ1 p := by simpa using hm.2
      have hl' : Spec.Lit s δ0 δ1 δ2 img p := by simpa using hl
      obtain ⟨x, y, e, -, ⟨i', hi', hci⟩, ⟨j', hj', hcj⟩⟩ := hv
      obtain ⟨x2, y2, e2, i, j, k, hi, hj, hk, hlit⟩ := hl'
      rw [e] at e2; cases e2
      obtain ⟨k', hk', hck⟩ := hp p hm.1
      have ei : i = i' := by
        have a := (cell_iff _ _ _ hf.n0 _).1 hi; have b := (cell_iff _ _ _ hf.n0 _).1 hci; omega
      have ej : j = j' := by
        have a := (cell_iff _ _ _ hf.n1 _).1 hj; have b := (cell_iff _ _ _ hf.n1 _).1 hcj; omega
      have ek : k = k' := by
        have a := (cell_iff _ _ _ hf.n2 _).1 hk; have b := (cell_iff _ _ _ hf.n2 _).1 hck; omega
      have : Spec.Lit s δ0 δ1 δ2 img' p := by
        refine ⟨x, y, e, i, j, k, hi, hj, hk, hle k j i ?_ ?_ ?_ hlit⟩ <;> omega
      simpa using this
    apply div_le_div_of_nonneg_right _ (by positivity)
    exact_mod_cast this

/-- A pixel of the dilated stack is lit exactly if some pixel is lit at most `r` rows and `c` columns away. -/
theorem dilate_iff (r c : ℕ) (img : Stack Bool) (z y x : ℕ) :
    (dilate r c img).val z y x = true ↔ ∃ y' x', y' < img.rows ∧ x' < img.cols ∧ |(y : ℤ) - y'| ≤ r ∧ |(x : ℤ) - x'| ≤ c ∧
      img.val z y' x' = true := by
  simp only [dilate, List.any_eq_true, List.mem_range, Bool.and_eq_true, decide_eq_true_eq]
  constructor
  · rintro ⟨y', hy, x', hx, ⟨h1, h2, h3, h4⟩, h5⟩
    refine ⟨y', x', hy, hx, ?_, ?_, h5⟩ <;> rw [abs_le] <;> constructor <;> omega
  · rintro ⟨y', x', hy, hx, h1, h2, h5⟩
    rw [abs_le] at h1 h2
    refine ⟨y', hy, x', hx, ⟨?_, ?_, ?_, ?_⟩, h5⟩ <;> omega

/-- Dilating the images never lowers a confidence. -/
theorem dilated_confidence (s : Sensor) (δ0 δ1 δ2 : ℝ) (img : Stack Bool) (hf : Fits s δ0 δ1 δ2 img) (r c : ℕ)
    (spots : List Spot) (hp : ∀ p ∈ spots, InFrames s δ2 img.frames p) :
    ∃ c1 c2, confidence s img spots = some c1 ∧ confidence s (dilate r c img) spots = some c2 ∧ c1 ≤ c2 := by
  refine confidence_mono s δ0 δ1 δ2 img (dilate r c img) hf ⟨hf.n0, hf.n1, hf.n2, hf.i0, hf.i1, hf.i2, hf.rows, hf.cols⟩ rfl
    ?_ spots hp
  intro z y x _ hy hx h
  rw [dilate_iff]
  exact ⟨y, x, by rw [hf.rows]; exact hy, by rw [hf.cols]; exact hx, by simp, by simp, h⟩

/-- Drawing one spot: the bits that are set afterwards are those set before and, if the spot is on the sensor, the one of its pixel and
frame. -/
theorem writePixel_bits (s : Sensor) (δ0 δ1 δ2 : ℝ) (n0 : δ0 ≠ 0) (n1 : δ1 ≠ 0) (n2 : δ2 ≠ 0) (i0 : s.i0 = 1 / δ0)
    (i1 : s.i1 = 1 / δ1) (i2 : s.i2 = 1 / δ2) (img : Stack ℕ) (p : Spot) (hp : InFrames s δ2 img.frames p)
    (hr : s.rows ≤ img.rows) (hc : s.cols ≤ 8 * img.cols) :
    ∃ out, writePixel s img p = some out ∧ out.frames = img.frames ∧ out.rows = img.rows ∧ out.cols = img.cols ∧
      ∀ k j i, (unpack out).val k j i = true ↔ (unpack img).val k j i = true ∨
        ∃ x y, p.1 = some (x, y) ∧ i < s.cols ∧ j < s.rows ∧ Spec.InCell s.b0 δ0 x i ∧ Spec.InCell s.b1 δ1 y j ∧
          Spec.InCell s.b2 δ2 p.2 k := by
  obtain ⟨q, ω⟩ := p
  cases q with
  | none => exact ⟨img, rfl, rfl, rfl, rfl, fun k j i => by simp⟩
  | some xy =>
    obtain ⟨x, y⟩ := xy
    obtain ⟨hz0, hz1⟩ := (cells_iff _ _ _ n2 _).1 hp
    rw [← i2] at hz0 hz1
    simp only at hz0 hz1
    simp only [writePixel]
    by_cases c1 : ⌊(x - s.b0) * s.i0⌋ < 0 ∨ (s.cols : ℤ) ≤ ⌊(x - s.b0) * s.i0⌋
    · refine ⟨img, by rw [if_pos c1], rfl, rfl, rfl, fun k j i => ?_⟩
      constructor
      · exact Or.inl
      · rintro (h | ⟨x', y', e, hi, hj, h1, -, -⟩)
        · exact h
        · cases e
          rw [cell_iff _ _ _ n0, ← i0] at h1
          omega
    rw [if_neg c1]
    by_cases c2 : ⌊(y - s.b1) * s.i1⌋ < 0 ∨ (s.rows : ℤ) ≤ ⌊(y - s.b1) * s.i1⌋
    · refine ⟨img, by rw [if_pos c2], rfl, rfl, rfl, fun k j i => ?_⟩
      constructor
      · exact Or.inl
      · rintro (h | ⟨x', y', e, hi, hj, -, h1, -⟩)
        · exact h
        · cases e
          rw [cell_iff _ _ _ n1, ← i1] at h1
          omega
    rw [if_neg c2]
    have hw : wrap img.frames ⌊(ω - s.b2) * s.i2⌋ = ⌊(ω - s.b2) * s.i2⌋ := by unfold wrap; rw [if_neg (by omega)]
    rw [hw, if_pos (by omega)]
    refine ⟨_, rfl, rfl, rfl, rfl, fun k j i => ?_⟩
    have hX : ∃ X : ℕ, ⌊(x - s.b0) * s.i0⌋ = X := ⟨⌊(x - s.b0) * s.i0⌋.toNat, by omega⟩
    have hY : ∃ Y : ℕ, ⌊(y - s.b1) * s.i1⌋ = Y := ⟨⌊(y - s.b1) * s.i1⌋.toNat, by omega⟩
    have hZ : ∃ Z : ℕ, ⌊(ω - s.b2) * s.i2⌋ = Z := ⟨⌊(ω - s.b2) * s.i2⌋.toNat, by omega⟩
    obtain ⟨X, eX⟩ := hX
    obtain ⟨Y, eY⟩ := hY
    obtain ⟨Z, eZ⟩ := hZ
    have hR : (∃ x' y', some (x, y) = some (x', y') ∧ i < s.cols ∧ j < s.rows ∧ Spec.InCell s.b0 δ0 x' i ∧
        Spec.InCell s.b1 δ1 y' j ∧ Spec.InCell s.b2 δ2 ω k) ↔ X = i ∧ Y = j ∧ Z = k := by
      constructor
      · rintro ⟨x', y', e, _, _, h1, h2, h3⟩
        cases e
        rw [cell_iff _ _ _ n0, ← i0] at h1
        rw [cell_iff _ _ _ n1, ← i1] at h2
        rw [cell_iff _ _ _ n2, ← i2] at h3
        omega
      · rintro ⟨h1, h2, h3⟩
        refine ⟨x, y, rfl, by omega, by omega, ?_, ?_, ?_⟩
        · rw [cell_iff _ _ _ n0, ← i0]; omega
        · rw [cell_iff _ _ _ n1, ← i1]; omega
        · rw [cell_iff _ _ _ n2, ← i2]; omega
    rw [hR, eX, eY, eZ]
    simp only [unpack, Int.toNat_natCast]
    by_cases h : k = Z ∧ j = Y ∧ i / 8 = X / 8
    · rw [if_pos h, Nat.testBit_or, Bool.or_eq_true, Nat.one_shiftLeft, Nat.testBit_two_pow, decide_eq_true_eq]
      have : 7 - X % 8 = 7 - i % 8 ↔ X = i := by
        constructor
        · intro e; have := h.2.2; omega
        · rintro rfl; rfl
      rw [this]
      constructor
      · rintro (h1 | h1)
        · exact Or.inl h1
        · exact Or.inr ⟨h1, h.2.1.symm, h.1.symm⟩
      · rintro (h1 | h1)
        · exact Or.inl h1
        · exact Or.inr h1.1
    · rw [if_neg h]
      constructor
      · exact Or.inl
      · rintro (h1 | ⟨rfl, rfl, rfl⟩)
        · exact h1
        · exact absurd ⟨rfl, rfl, rfl⟩ h

/-- Drawing spots: the bits that are set afterwards are those set before and the pixels and frames of the spots on the sensor. -/
theorem drawn_bits (s : Sensor) (δ0 δ1 δ2 : ℝ) (n0 : δ0 ≠ 0) (n1 : δ1 ≠ 0) (n2 : δ2 ≠ 0) (i0 : s.i0 = 1 / δ0)
    (i1 : s.i1 = 1 / δ1) (i2 : s.i2 = 1 / δ2) (spots : List Spot) : ∀ (img : Stack ℕ),
    (∀ p ∈ spots, InFrames s δ2 img.frames p) → s.rows ≤ img.rows → s.cols ≤ 8 * img.cols →
    ∃ out, writePixels s img spots = some out ∧ out.frames = img.frames ∧ out.rows = img.rows ∧ out.cols = img.cols ∧
      ∀ k j i, (unpack out).val k j i = true ↔ (unpack img).val k j i = true ∨
        ∃ p ∈ spots, ∃ x y, p.1 = some (x, y) ∧ i < s.cols ∧ j < s.rows ∧ Spec.InCell s.b0 δ0 x i ∧
          Spec.InCell s.b1 δ1 y j ∧ Spec.InCell s.b2 δ2 p.2 k := by
  induction spots with
  | nil => intro img _ _ _; exact ⟨img, rfl, rfl, rfl, rfl, fun k j i => by simp⟩
  | cons p ps ih =>
    intro img hp hr hc
    obtain ⟨b, e1, f1, f2, f3, g1⟩ := writePixel_bits s δ0 δ1 δ2 n0 n1 n2 i0 i1 i2 img p (hp p (List.mem_cons_self ..)) hr hc
    obtain ⟨out, e2, k1, k2, k3, g2⟩ := ih b (by rw [f1]; exact fun q hq => hp q (List.mem_cons_of_mem _ hq))
      (by rw [f2]; exact hr) (by rw [f3]; exact hc)
    refine ⟨out, ?_, by rw [k1, f1], by rw [k2, f2], by rw [k3, f3], fun k j i => ?_⟩
    · unfold writePixels at *
      rw [List.foldlM_cons, e1]; exact e2
    · rw [g2, g1, or_assoc, List.exists_mem_cons_iff]

/-- A grain that is simulated is found again: in the unpacked stack of a square detector, on which its own spots and any others have
been drawn, its confidence is one if any of its spots is visible. -/
theorem own_confidence (s : Sensor) (δ0 δ1 δ2 : ℝ) (n0 : δ0 ≠ 0) (n1 : δ1 ≠ 0) (n2 : δ2 ≠ 0) (i0 : s.i0 = 1 / δ0)
    (i1 : s.i1 = 1 / δ1) (i2 : s.i2 = 1 / δ2) (nframes : ℕ) (hsq : s.rows = s.cols) (before own after : List Spot)
    (hp : ∀ p ∈ before ++ own ++ after, InFrames s δ2 nframes p) (hv : ∃ p ∈ own, Spec.Visible s δ0 δ1 p) :
    ∃ out, writePixels s (blank nframes s.rows s.cols) (before ++ own ++ after) = some out ∧
      confidence s { unpack out with cols := s.cols } own = some 1 := by
  have hb : (blank nframes s.rows s.cols).rows = s.cols := rfl
  have hbc : s.cols ≤ 8 * (blank nframes s.rows s.cols).cols := by simp only [blank]; omega
  obtain ⟨out, e, f1, f2, f3, g⟩ := drawn_bits s δ0 δ1 δ2 n0 n1 n2 i0 i1 i2 (before ++ own ++ after)
    (blank nframes s.rows s.cols) hp (by rw [hb, hsq]) hbc
  refine ⟨out, e, ?_⟩
  rw [confidence_one s δ0 δ1 δ2 { unpack out with cols := s.cols }
    ⟨n0, n1, n2, i0, i1, i2, by simp only [unpack]; rw [f2, hb, hsq], rfl⟩ own (by
      intro p hm
      have := hp p (List.mem_append_left _ (List.mem_append_right _ hm))
      simp only [unpack]; rw [f1]; exact this)]
  refine ⟨hv, ?_⟩
  rintro p hm ⟨x, y, e1, -, ⟨i, hi, hci⟩, ⟨j, hj, hcj⟩⟩
  obtain ⟨k, hk, hck⟩ := hp p (List.mem_append_left _ (List.mem_append_right _ hm))
  refine ⟨x, y, e1, i, j, k, hci, hcj, hck, ?_⟩
  exact (g k j i).2 (Or.inr ⟨p, List.mem_append_left _ (List.mem_append_right _ hm), x, y, e1, hi, hj, hci, hcj, hck⟩)

/-- A detector of one frame with unit pixels, and a spot in column 8. -/
noncomputable def wide (rows cols : ℕ) : Sensor := ⟨0, 0, 0, 1 / 1, 1 / 1, 1 / 1, cols, rows, -5, 1⟩

/-- The stack of a simulation has the numbers of rows and columns exchanged: on a detector with one row and nine columns a spot is
written outside of the array. -/
theorem simulated_wide_fails :
    Spec.Visible (wide 1 9) 1 1 (some (8, 0), 0) ∧ InFrames (wide 1 9) 1 1 (some (8, 0), 0) ∧
      writePixels (wide 1 9) (blank 1 1 9) [(some (8, 0), 0)] = none := by
  refine ⟨⟨8, 0, rfl, ?_, ⟨8, ?_, 8, ?_, ?_, ?_⟩, ⟨0, ?_, 0, ?_, ?_, ?_⟩⟩, ⟨0, ?_, 0, ?_, ?_, ?_⟩, ?_⟩ <;>
    norm_num [wide, writePixels, writePixel, blank, wrap]

/-- The stack of a simulation is packed and the orientation test does not unpack it: the test of the simulated grain reads outside of
the array. -/
theorem packed_confidence_fails :
    ∃ out, writePixels (wide 9 9) (blank 1 9 9) [(some (8, 0), 0)] = some out ∧
      confidence (wide 9 9) (bytes out) [(some (8, 0), 0)] = none := by
  obtain ⟨out, e, f1, f2, f3, -⟩ := drawn_bits (wide 9 9) 1 1 1 one_ne_zero one_ne_zero one_ne_zero rfl rfl rfl [(some (8, 0), 0)]
    (blank 1 9 9) (by
      intro p hp
      rw [List.mem_singleton] at hp
      subst hp
      exact ⟨0, by simp [blank], 0, by simp, by simp, by simp [wide]⟩) (by simp [wide, blank]) (by simp [wide, blank])
  refine ⟨out, e, ?_⟩
  have g1 : out.frames = 1 := f1
  have g2 : out.rows = 9 := f2
  have g3 : out.cols = 2 := f3
  norm_num [confidence, count, wide, bytes, read, wrap, g1, g2, g3]

/-- Three spots, one outside, one of the others lit. -/
example : confidence (wide 2 2) ⟨1, 2, 2, fun _ _ x => x = 1⟩ [(some (1.5, 0.5), 0), (some (7, 0.5), 0), (none, 0), (some (0.5, 1.5), 0.5)] =
    some (1 / 2) := by
  have f : ∀ (t : ℝ) (i : ℤ), (i : ℝ) ≤ t → t < i + 1 → ⌊t⌋ = i := fun t i h1 h2 => Int.floor_eq_iff.2 ⟨h1, h2⟩
  have e1 := f (1.5 : ℝ) 1 (by norm_num) (by norm_num)
  have e2 := f (0.5 : ℝ) 0 (by norm_num) (by norm_num)
  norm_num [confidence, count, wide, read, wrap, e1, e2]

end Hexrd.Confidence
