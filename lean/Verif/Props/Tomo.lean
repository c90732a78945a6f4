import Verif.Model.Tomo
import Verif.Props.Detector
import Verif.Model.GrainMap
import Mathlib.Analysis.SpecialFunctions.Log.Basic
import Mathlib.Tactic.Linarith
import Mathlib.Tactic.Ring
import Mathlib.Tactic.NormNum
import Mathlib.Tactic.FieldSimp
import Mathlib.Tactic.Positivity

/-! Properties of the tomographic reconstruction that gives the shape of the sample. -/

namespace Hexrd.Tomo

open Hexrd.Detector (npRound npRound_near npRound_int)

/-! ### Attenuation -/

/-- **C153** the attenuation is the exponent of the law of Beer and Lambert, measured from the dark field. -/
theorem attenuation_law (bright dark mu : ℝ) (h : dark < bright) :
    attenuation (dark + (bright - dark) * Real.exp (-mu)) bright dark = mu := by
  unfold attenuation
  have h0 : bright - dark ≠ 0 := by linarith
  rw [show (dark + (bright - dark) * Real.exp (-mu) - dark) / (bright - dark) = Real.exp (-mu) by field_simp; ring, Real.log_exp]
  ring

/-- **C153** a pixel that is darker attenuates more, and one as bright as the bright field not at all. -/
theorem attenuation_antitone (bright dark i j : ℝ) (h : dark < bright) (hi : dark < i) (hij : i < j) :
    attenuation j bright dark < attenuation i bright dark ∧ attenuation bright bright dark = 0 := by
  unfold attenuation
  have h0 : 0 < bright - dark := by linarith
  refine ⟨neg_lt_neg (Real.log_lt_log (by apply div_pos <;> linarith) ?_), ?_⟩
  · exact (div_lt_div_iff_of_pos_right h0).mpr (by linarith)
  · rw [div_self h0.ne', Real.log_one, neg_zero]

/-- **C153 is false** without a dark field, which is the default: it raises, whatever the images are. -/
theorem no_dark_fails {P : Type} (images : List (P → ℝ)) (bright : P → ℝ) : radiographs images bright none = none := rfl

/-- **C153** with a dark field there is one radiograph for each image, in order. -/
theorem radiographs_each {P : Type} (images : List (P → ℝ)) (bright dark : P → ℝ) :
    ∃ out, radiographs images bright (some dark) = some out ∧ out.length = images.length ∧
      ∀ (k : ℕ) (im : P → ℝ), images[k]? = some im → ∃ r, out[k]? = some r ∧ ∀ p, r p = attenuation (im p) (bright p) (dark p) := by
  refine ⟨_, rfl, by simp, fun k im hk => ⟨_, ?_, fun p => rfl⟩⟩
  rw [List.getElem?_map, hk]
  rfl

/-- **C153** the projections are spread evenly from the first angle up to, and without, the last. -/
theorem angles_even (start stop : ℝ) (n : ℕ) (hn : 0 < n) : (angles start stop n).length = n ∧
    ∀ (i : ℕ), i < n → ∃ a, (angles start stop n)[i]? = some a ∧ a = start + i * ((stop - start) / n) ∧
      (i + 1 = n → a + (stop - start) / n = stop) := by
  have hn' : (n : ℝ) ≠ 0 := by exact_mod_cast hn.ne'
  refine ⟨by simp [angles], fun i hi => ⟨_, ?_, rfl, fun h => ?_⟩⟩
  · simp [angles, List.getElem?_range hi]
  · have : (n : ℝ) = i + 1 := by exact_mod_cast h.symm
    field_simp
    rw [this]; ring

/-! ### The part of the sinogram -/

theorem bound_nonneg (n : ℕ) (a : ℤ) (h : 0 ≤ a) (h2 : a ≤ n) : (bound n a : ℤ) = a := by
  unfold bound
  rw [if_neg (by omega)]
  omega

theorem bound_neg (n : ℕ) (a : ℤ) (h : a < 0) (h2 : 0 ≤ a + n) : (bound n a : ℤ) = a + n := by
  unfold bound
  rw [if_pos h]
  omega

theorem slice_length {β : Type} (l : List β) (a b : ℤ) : (slice l a b).length = bound l.length b - bound l.length a := by
  unfold slice
  rw [List.length_drop, List.length_take]
  have : bound l.length b ≤ l.length := by unfold bound; split <;> omega
  rw [Nat.min_eq_left this]

/-- A slice of a slice. -/
theorem slice_slice {β : Type} (l : List β) (a b c d : ℕ) : (((l.take b).drop a).take d).drop c = (l.take (min b (a + d))).drop (a + c) := by
  rw [List.take_drop, List.take_take, List.drop_drop, Nat.min_comm]

/-- **C153** the columns of the sinogram that are inverted lie symmetrically about the axis of rotation, which is `axis` pixels from the
middle, and their number is that of the sample with its slack up to one, provided the sample
is at least one pixel wide and there is at least one column to cut at each side. -/
theorem cutRow_symmetric_partial {β : Type} (row : List β) (axis rad : ℤ) (hr : 1 ≤ rad) (hW : 2 * |axis| ≤ row.length)
    (hd : 1 ≤ npRound (((row.length - 2 * |axis| : ℤ) : ℝ) / 2) - rad) :
    ∃ lo hi : ℕ, cutRow row axis rad = (row.take hi).drop lo ∧ lo ≤ hi ∧ hi ≤ row.length ∧ (lo : ℤ) + hi = row.length + 2 * axis ∧
      |(hi : ℤ) - lo - 2 * rad| ≤ 1 := by
  set W := row.length with hWdef
  -- the first cut
  obtain ⟨a, b, hcut, hab, hbW, hsum, hlen⟩ : ∃ a b : ℕ, (if 0 ≤ axis then slice row (2 * axis) row.length else slice row 0 (2 * axis)) =
      (row.take b).drop a ∧ a ≤ b ∧ b ≤ W ∧ (a : ℤ) + b = W + 2 * axis ∧ (b : ℤ) - a = W - 2 * |axis| := by
    by_cases h : 0 ≤ axis
    · rw [if_pos h]
      rw [abs_of_nonneg h] at hW ⊢
      refine ⟨bound W (2 * axis), bound W W, rfl, ?_, ?_, ?_, ?_⟩
      all_goals
        have e1 := bound_nonneg W (2 * axis) (by omega) hW
        have e2 := bound_nonneg W W (by omega) le_rfl
        omega
    · rw [if_neg h]
      rw [abs_of_neg (by omega)] at hW ⊢
      refine ⟨bound W 0, bound W (2 * axis), rfl, ?_, ?_, ?_, ?_⟩
      all_goals
        have e1 := bound_nonneg W 0 le_rfl (by omega)
        have e2 := bound_neg W (2 * axis) (by omega) (by omega)
        omega
  have hcl : ((row.take b).drop a).length = b - a := by
    rw [List.length_drop, List.length_take, ← hWdef, Nat.min_eq_left hbW]
  have hba : ((b - a : ℕ) : ℤ) = W - 2 * |axis| := by omega
  have hba' : ((b - a : ℕ) : ℝ) = ((W - 2 * |axis| : ℤ) : ℝ) := by exact_mod_cast hba
  set d := npRound (((b - a : ℕ) : ℝ) / 2) - rad with hdd
  have hd1 : 1 ≤ d := by rw [hdd, hba']; exact hd
  have hnear := npRound_near (((b - a : ℕ) : ℝ) / 2)
  have hnear2 : |2 * npRound (((b - a : ℕ) : ℝ) / 2) - ((b - a : ℕ) : ℤ)| ≤ 1 := by
    rw [abs_le] at hnear ⊢
    constructor
    · have : (-1 : ℝ) ≤ 2 * (npRound (((b - a : ℕ) : ℝ) / 2) : ℝ) - ((b - a : ℕ) : ℝ) := by linarith [hnear.1]
      exact_mod_cast this
    · have : 2 * (npRound (((b - a : ℕ) : ℝ) / 2) : ℝ) - ((b - a : ℕ) : ℝ) ≤ (1 : ℝ) := by linarith [hnear.2]
      exact_mod_cast this
  rw [abs_le] at hnear2
  have hdn : 2 * d ≤ ((b - a : ℕ) : ℤ) + 1 - 2 * rad := by omega
  have hcr : cutRow row axis rad = slice ((row.take b).drop a) d (-d) := by
    unfold cutRow
    simp only [hcut, hcl]
    rfl
  have hdb : d ≤ ((b - a : ℕ) : ℤ) := by omega
  have e1 : (bound (b - a) d : ℤ) = d := bound_nonneg _ _ (by omega) hdb
  have e2 : (bound (b - a) (-d) : ℤ) = -d + ((b - a : ℕ) : ℤ) := bound_neg _ _ (by omega) (by omega)
  refine ⟨a + bound (b - a) d, max (a + bound (b - a) d) (a + bound (b - a) (-d)), ?_, le_max_left _ _, ?_, ?_, ?_⟩
  · rw [hcr]
    unfold slice
    rw [hcl, slice_slice]
    by_cases hle : a + bound (b - a) d ≤ a + bound (b - a) (-d)
    · rw [max_eq_right hle]
      congr 2
      omega
    · rw [max_eq_left (by omega)]
      rw [List.drop_eq_nil_of_le, List.drop_eq_nil_of_le]
      · rw [List.length_take]; omega
      · rw [List.length_take]; omega
  · omega
  · omega
  · rw [abs_le]; constructor <;> omega

/-- **C153 is false** for a sample that, with its slack, is as wide as the detector or wider, up to twice its width: no column is left. -/
theorem wide_sample_fails {β : Type} (row : List β) (rad : ℤ) (h1 : npRound ((row.length : ℝ) / 2) ≤ rad)
    (h2 : 2 * (rad - npRound ((row.length : ℝ) / 2)) ≤ row.length) : cutRow row 0 rad = [] := by
  have hcut : slice row (2 * 0) row.length = row := by
    have h0 : ¬ (row.length : ℤ) < 0 := by omega
    unfold slice bound
    simp [h0]
  unfold cutRow
  simp only [le_refl, if_true, hcut]
  apply List.eq_nil_of_length_eq_zero
  rw [slice_length]
  set d := npRound ((row.length : ℝ) / 2) - rad with hd
  have hd0 : d ≤ 0 := by omega
  rcases hd0.lt_or_eq with hlt | h0
  · have e1 := bound_neg row.length d hlt (by omega)
    have e2 := bound_nonneg row.length (-d) (by omega) (by omega)
    omega
  · rw [h0]; simp

/-- The hypotheses are met: 100 columns, the axis five pixels to the left, and a sample of 20 pixels to each side. -/
example : ∃ lo hi : ℕ, cutRow (List.range 100) (-5) 20 = ((List.range 100).take hi).drop lo ∧ (lo : ℤ) + hi = 90 := by
  have e : npRound ((((List.range 100).length - 2 * |(-5 : ℤ)| : ℤ) : ℝ) / 2) = 45 := by
    have := npRound_int 45
    rw [← this]
    congr 1
    norm_num
  obtain ⟨lo, hi, h, -, -, h3, -⟩ := cutRow_symmetric_partial (List.range 100) (-5) 20 (by norm_num) (by norm_num) (by rw [e]; norm_num)
  exact ⟨lo, hi, h, by rw [h3]; norm_num⟩

/-! ### Cleaning -/

theorem noise_loop {P : Type} [DecidableEq P] (pixels : List P) (lab : P → ℕ) (noise : ℕ) (image : P → Bool) (m : ℕ) (p : P) :
    (List.range m).foldl (fun im i => if size pixels lab (i + 1) < noise then fun p => if lab p = i + 1 then false else im p else im) image p =
      (image p && !decide (1 ≤ lab p ∧ lab p ≤ m ∧ size pixels lab (lab p) < noise)) := by
  induction m with
  | zero =>
    have : ¬ (1 ≤ lab p ∧ lab p ≤ 0 ∧ size pixels lab (lab p) < noise) := by omega
    simp only [List.range_zero, List.foldl_nil, this, decide_false, Bool.not_false, Bool.and_true]
  | succ m ih =>
    rw [List.range_succ, List.foldl_append]
    simp only [List.foldl_cons, List.foldl_nil]
    by_cases hs : size pixels lab (m + 1) < noise
    · rw [if_pos hs]
      by_cases hl : lab p = m + 1
      · simp only [hl, if_true, le_refl, hs, and_self, and_true]
        simp
      · simp only [hl, if_false, ih]
        have : (1 ≤ lab p ∧ lab p ≤ m + 1 ∧ size pixels lab (lab p) < noise) ↔ (1 ≤ lab p ∧ lab p ≤ m ∧ size pixels lab (lab p) < noise) := by
          constructor <;> rintro ⟨h1, h2, h3⟩ <;> exact ⟨h1, by omega, h3⟩
        simp only [this]
    · rw [if_neg hs, ih]
      have : (1 ≤ lab p ∧ lab p ≤ m + 1 ∧ size pixels lab (lab p) < noise) ↔ (1 ≤ lab p ∧ lab p ≤ m ∧ size pixels lab (lab p) < noise) := by
        constructor
        · rintro ⟨h1, h2, h3⟩
          refine ⟨h1, ?_, h3⟩
          by_contra hc
          exact hs (by rw [show lab p = m + 1 by omega] at h3; exact h3)
        · rintro ⟨h1, h2, h3⟩; exact ⟨h1, by omega, h3⟩
      simp only [this]

/-- **C153** of the connected parts other than the last one, those with fewer pixels than the limit are removed and the others kept. -/
theorem noise_partial {P : Type} [DecidableEq P] (pixels : List P) (lab : P → ℕ) (n noise : ℕ) (image : P → Bool) (p : P)
    (h1 : 1 ≤ lab p) (hn : lab p < n) : removeNoise pixels lab n noise image p = true ↔ image p = true ∧ noise ≤ size pixels lab (lab p) := by
  unfold removeNoise
  rw [noise_loop]
  have : (1 ≤ lab p ∧ lab p ≤ n - 1 ∧ size pixels lab (lab p) < noise) ↔ size pixels lab (lab p) < noise :=
    ⟨fun h => h.2.2, fun h => ⟨h1, by omega, h⟩⟩
  simp only [this, Bool.and_eq_true, Bool.not_eq_true', decide_eq_false_iff_not, not_lt]

/-- **C153 is false** for the last part: it stays, however few its pixels are; so a single speck is never removed. -/
theorem last_part_fails {P : Type} [DecidableEq P] (pixels : List P) (lab : P → ℕ) (n noise : ℕ) (image : P → Bool) (p : P)
    (hn : lab p = n) (hp : 1 ≤ n) : removeNoise pixels lab n noise image p = image p := by
  unfold removeNoise
  rw [noise_loop]
  have : ¬ (1 ≤ lab p ∧ lab p ≤ n - 1 ∧ size pixels lab (lab p) < noise) := by omega
  simp only [this, decide_false, Bool.not_false, Bool.and_true]

theorem hole_loop {P : Type} [DecidableEq P] (pixels : List P) (lab : P → ℕ) (hole : ℕ) (image : P → Bool) (m : ℕ) (p : P) :
    (List.range m).foldl (fun im i => if 1 ≤ size pixels lab (i + 1) ∧ size pixels lab (i + 1) < hole then
        fun p => if lab p = i + 1 then true else im p else im) image p =
      (image p || decide (1 ≤ lab p ∧ lab p ≤ m ∧ 1 ≤ size pixels lab (lab p) ∧ size pixels lab (lab p) < hole)) := by
  induction m with
  | zero =>
    have : ¬ (1 ≤ lab p ∧ lab p ≤ 0 ∧ 1 ≤ size pixels lab (lab p) ∧ size pixels lab (lab p) < hole) := by omega
    simp only [List.range_zero, List.foldl_nil, this, decide_false, Bool.or_false]
  | succ m ih =>
    rw [List.range_succ, List.foldl_append]
    simp only [List.foldl_cons, List.foldl_nil]
    by_cases hl : lab p = m + 1
    · by_cases hs : 1 ≤ size pixels lab (m + 1) ∧ size pixels lab (m + 1) < hole
      · rw [if_pos hs]
        simp only [hl, if_true, le_refl, hs, and_self, and_true]
        simp
      · rw [if_neg hs, ih]
        have h1 : ¬ (1 ≤ lab p ∧ lab p ≤ m ∧ 1 ≤ size pixels lab (lab p) ∧ size pixels lab (lab p) < hole) := by omega
        have h2 : ¬ (1 ≤ lab p ∧ lab p ≤ m + 1 ∧ 1 ≤ size pixels lab (lab p) ∧ size pixels lab (lab p) < hole) := by
          rw [hl]; exact fun h => hs h.2.2
        simp only [h1, h2]
    · have : (1 ≤ lab p ∧ lab p ≤ m + 1 ∧ 1 ≤ size pixels lab (lab p) ∧ size pixels lab (lab p) < hole) ↔
          (1 ≤ lab p ∧ lab p ≤ m ∧ 1 ≤ size pixels lab (lab p) ∧ size pixels lab (lab p) < hole) := by
        constructor <;> rintro ⟨h1, h2, h3⟩ <;> exact ⟨h1, by omega, h3⟩
      simp only [this]
      split <;> simp only [hl, if_false, ih]

/-- **C153** of the holes other than the last one, those with fewer pixels than the limit are closed; the others are left open. -/
theorem holes_partial {P : Type} [DecidableEq P] (pixels : List P) (lab : P → ℕ) (n hole : ℕ) (image : P → Bool) (p : P)
    (hp : p ∈ pixels) (hi : image p = false) (h1 : 1 ≤ lab p) (hn : lab p < n) :
    closeHoles pixels lab n hole image p = true ↔ size pixels lab (lab p) < hole := by
  unfold closeHoles
  rw [hole_loop, hi, Bool.false_or, decide_eq_true_iff]
  have hpos : 1 ≤ size pixels lab (lab p) := by
    unfold size
    exact List.length_pos_of_mem (List.mem_filter.mpr ⟨hp, by simp⟩)
  exact ⟨fun h => h.2.2.2, fun h => ⟨h1, by omega, hpos, h⟩⟩

/-- **C153** cleaning never touches the pixels that have no label. -/
theorem holes_keep {P : Type} [DecidableEq P] (pixels : List P) (lab : P → ℕ) (n hole : ℕ) (image : P → Bool) (p : P) (h : lab p = 0) :
    closeHoles pixels lab n hole image p = image p := by
  unfold closeHoles
  rw [hole_loop]
  have : ¬ (1 ≤ lab p ∧ lab p ≤ n - 1 ∧ 1 ≤ size pixels lab (lab p) ∧ size pixels lab (lab p) < hole) := by omega
  simp only [this, decide_false, Bool.or_false]

/-- **C153 is false** for the last hole: it stays open, however few its pixels are. -/
theorem last_hole_fails {P : Type} [DecidableEq P] (pixels : List P) (lab : P → ℕ) (n hole : ℕ) (image : P → Bool) (p : P)
    (hn : lab p = n) (hp : 1 ≤ n) (hi : image p = false) : closeHoles pixels lab n hole image p = false := by
  unfold closeHoles
  rw [hole_loop, hi]
  have : ¬ (1 ≤ lab p ∧ lab p ≤ n - 1 ∧ 1 ≤ size pixels lab (lab p) ∧ size pixels lab (lab p) < hole) := by omega
  simp only [this, decide_false, Bool.or_false]

/-- Two parts of one and three pixels and a limit of two: the first is removed if it is not the last. -/
example : removeNoise [0, 1, 2, 3, 4] (fun p => if p = 0 then 1 else if p < 4 then 2 else 0) 2 2 (fun p => decide (p < 4)) 0 = false ∧
    removeNoise [0, 1, 2, 3, 4] (fun p => if p = 0 then 2 else if p < 4 then 1 else 0) 2 2 (fun p => decide (p < 4)) 0 = true := by
  decide

/-! ### Cropping -/

/-- **C153** the resampled layer has the size of the reconstruction up to half a voxel. -/
theorem newRows_size (rows : ℕ) (spacing pixel : ℝ) (hs : 0 < spacing) :
    |newRows rows spacing pixel * spacing - rows * pixel| ≤ spacing / 2 := by
  unfold newRows
  have h := npRound_near ((rows : ℝ) / (spacing / pixel))
  have e : (npRound ((rows : ℝ) / (spacing / pixel)) : ℝ) * spacing - rows * pixel =
      ((npRound ((rows : ℝ) / (spacing / pixel)) : ℝ) - rows / (spacing / pixel)) * spacing := by
    field_simp
  rw [e, abs_mul, abs_of_pos hs]
  nlinarith

/-- **C153** the cropped layer has the size of the sample up to one voxel and is square, provided at least one voxel is cut at each side. -/
theorem crop_size_partial {β : Type} (layer : List (List β)) (spacing dim : ℝ) (hs : 0 < spacing) (hd : 0 ≤ dim)
    (hsq : ∀ r ∈ layer, r.length = layer.length) (hc : 1 ≤ cutEdge layer.length spacing dim) :
    ((crop layer spacing dim).length : ℤ) = max 0 (layer.length - 2 * cutEdge layer.length spacing dim) ∧
    (∀ r ∈ crop layer spacing dim, r.length = (crop layer spacing dim).length) ∧
    |((layer.length - 2 * cutEdge layer.length spacing dim : ℤ) : ℝ) * spacing - dim| ≤ spacing := by
  set n := layer.length with hn
  set c := cutEdge n spacing dim with hcd
  have hnear : |(c : ℝ) - (n * spacing - dim) / 2 / spacing| ≤ 1 / 2 := npRound_near _
  have hkey : |((n - 2 * c : ℤ) : ℝ) * spacing - dim| ≤ spacing := by
    have e : ((n - 2 * c : ℤ) : ℝ) * spacing - dim = -2 * spacing * ((c : ℝ) - (n * spacing - dim) / 2 / spacing) := by
      push_cast; field_simp; ring
    rw [e, abs_mul, abs_mul, abs_of_pos hs, abs_of_neg (by norm_num : (-2 : ℝ) < 0)]
    nlinarith
  have hcn : c ≤ n := by
    rw [abs_le] at hkey
    by_contra hcon
    have h1 : n + 1 ≤ c := by omega
    have h2 : (n : ℝ) + 1 ≤ c := by exact_mod_cast h1
    have h3 : ((n - 2 * c : ℤ) : ℝ) * spacing ≤ -2 * spacing := by
      push_cast
      have : (n : ℝ) - 2 * c ≤ -2 := by have : (0 : ℝ) ≤ n := Nat.cast_nonneg n; linarith
      nlinarith
    linarith [hkey.1]
  have e1 : (bound n c : ℤ) = c := bound_nonneg n c (by omega) hcn
  have e2 : (bound n (-c) : ℤ) = -c + n := bound_neg n (-c) (by omega) (by omega)
  have hlen : (crop layer spacing dim).length = bound n (-c) - bound n c := by
    unfold crop
    simp only [List.length_map, slice_length]
    rw [← hn, ← hcd]
  refine ⟨by rw [hlen]; omega, ?_, hkey⟩
  intro r hr
  rw [hlen]
  unfold crop at hr
  obtain ⟨q, hq, rfl⟩ := List.mem_map.mp hr
  have hq' : q ∈ layer := by
    unfold slice at hq
    exact List.mem_of_mem_take (List.mem_of_mem_drop hq)
  rw [slice_length, hsq q hq', ← hn, ← hcd]

/-- **C153 is false** when the layer has the size of the sample, up to less than one voxel: nothing is left of it. -/
theorem crop_exact_fails {β : Type} (layer : List (List β)) (spacing dim : ℝ) (hs : 0 < spacing)
    (h : |layer.length * spacing - dim| < spacing) : crop layer spacing dim = [] := by
  have hc : cutEdge layer.length spacing dim = 0 := by
    unfold cutEdge
    rw [abs_lt] at h
    refine Detector.npRound_eq ?_ ?_
    · rw [lt_div_iff₀ hs]; push_cast; linarith [h.1]
    · rw [div_lt_iff₀ hs]; push_cast; linarith [h.2]
  apply List.eq_nil_of_length_eq_zero
  unfold crop
  simp only [List.length_map, slice_length, hc]
  simp

/-! ### The mask -/

/-- **C153** the circular mask keeps the voxels whose coordinates in the test grid of the tomographic layer are inside the circle, whose
radius is rounded to whole voxels. -/
theorem mask_coordinates (nx : ℕ) (rad spacing lo hi : ℝ) (hs : 0 < spacing) (grid : List (ℝ × ℝ × ℝ))
    (hg : GrainMap.testGridTomo nx nx lo hi spacing = some grid) (q : ℝ × ℝ × ℝ) (hq : q ∈ grid) :
    ∃ i j : ℕ, i < nx ∧ j < nx ∧ q.1 = (j - (nx : ℝ) / 2) * spacing ∧ q.2.2 = (i - (nx : ℝ) / 2) * spacing ∧
      (inMask nx rad spacing i j ↔ q.1 ^ 2 + q.2.2 ^ 2 ≤ (npRound (rad / spacing) * spacing) ^ 2) := by
  unfold GrainMap.testGridTomo at hg
  cases hl : GrainMap.layers lo hi spacing with
  | none => rw [hl] at hg; cases hg
  | some ys =>
    rw [hl] at hg
    simp only [Option.bind_eq_bind, Option.bind_some, Option.pure_def, Option.some.injEq] at hg
    subst hg
    unfold GrainMap.flatGrid at hq
    obtain ⟨y, -, hq⟩ := List.mem_flatMap.mp hq
    obtain ⟨x, hx, hq⟩ := List.mem_flatMap.mp hq
    obtain ⟨z, hz, rfl⟩ := List.mem_map.mp hq
    obtain ⟨j, hj, rfl⟩ := List.mem_map.mp hx
    obtain ⟨i, hi', rfl⟩ := List.mem_map.mp hz
    refine ⟨i, j, List.mem_range.mp hi', List.mem_range.mp hj, rfl, rfl, ?_⟩
    unfold inMask
    simp only [not_lt, gt_iff_lt]
    have h2 : 0 < spacing ^ 2 := by positivity
    rw [show ((j - (nx : ℝ) / 2) * spacing) ^ 2 + ((i - (nx : ℝ) / 2) * spacing) ^ 2 =
      ((j - (nx : ℝ) / 2) * (j - (nx : ℝ) / 2) + (i - (nx : ℝ) / 2) * (i - (nx : ℝ) / 2)) * spacing ^ 2 by ring,
      show ((npRound (rad / spacing) : ℝ) * spacing) ^ 2 = ((npRound (rad / spacing) : ℝ) * npRound (rad / spacing)) * spacing ^ 2 by ring,
      mul_le_mul_iff_left₀ h2]

/-- **C153 is false** for the middle of the layer: the mask is not symmetric about it. -/
theorem mask_middle_fails : ∃ (nx : ℕ) (rad spacing : ℝ) (i j : ℕ), i < nx ∧ j < nx ∧ inMask nx rad spacing i j ∧
    ¬ inMask nx rad spacing (nx - 1 - i) (nx - 1 - j) := by
  have e : npRound ((1 : ℝ) / 1) = 1 := by have := npRound_int 1; simpa using this
  refine ⟨4, 1, 1, 3, 2, by norm_num, by norm_num, ?_, ?_⟩
  · unfold inMask; simp only [e]; norm_num
  · unfold inMask; simp only [e]; norm_num

/-! ### Which images are read, and where the axis of rotation lies -/

/-- **C153** `n` images are read, in order, from the first number on, each once. -/
theorem imageNumbers_each (start n : ℕ) : (imageNumbers start n).length = n ∧ (imageNumbers start n).Nodup ∧
    (∀ k, k ∈ imageNumbers start n ↔ start ≤ k ∧ k < start + n) ∧ ∀ i, i < n → (imageNumbers start n)[i]? = some (start + i) := by
  refine ⟨by simp [imageNumbers], ?_, fun k => ?_, fun i hi => by simp [imageNumbers, List.getElem?_range hi]⟩
  · exact (List.nodup_range).map (fun a b h => Nat.add_left_cancel h)
  · simp only [imageNumbers, List.mem_map, List.mem_range]
    exact ⟨fun ⟨a, h, e⟩ => by omega, fun h => ⟨k - start, by omega, by omega⟩⟩

/-- **C153** the column of the axis of rotation is opposite to the centre of rotation, and within half a pixel of it. -/
theorem axisPos_near (center pixel : ℝ) (h : 0 < pixel) : |(axisPos center pixel : ℝ) * pixel + center| ≤ pixel / 2 := by
  have h1 := npRound_near (center / pixel)
  have e : (axisPos center pixel : ℝ) * pixel + center = -(((npRound (center / pixel) : ℝ) - center / pixel) * pixel) := by
    unfold axisPos; push_cast; field_simp; ring
  rw [e, abs_neg, abs_mul, abs_of_pos h]
  nlinarith

example : imageNumbers 5 3 = [5, 6, 7] := rfl

end Hexrd.Tomo
