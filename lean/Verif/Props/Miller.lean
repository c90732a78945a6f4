import Verif.Model.Miller
import Mathlib.Tactic.Ring
import Mathlib.Tactic.FieldSimp
import Mathlib.Tactic.NormNum
import Mathlib.Tactic.Positivity

/-!
# Miller index conversions (C26)
-/
namespace Hexrd.Miller

theorem trunc_int (z : Int) : trunc (z : ℚ) = z := by
  unfold trunc; split <;> simp

/-! ## Rhombohedral and hexagonal indices of planes -/

/-- C26: rhombohedral to hexagonal and back, for all integers. -/
theorem rhomb_hex_rhomb (h k l : Int) : rhombFromHex (hexFromRhomb (h, k, l)) = ((h : ℚ), (k : ℚ), (l : ℚ)) := by
  have e : hexFromRhomb ((h : ℚ), (k : ℚ), (l : ℚ)) = (h - k, k - l, h + k + l) := by
    simp only [hexFromRhomb]
    have a1 : (h : ℚ) - k = ((h - k : Int) : ℚ) := by push_cast; ring
    have a2 : (k : ℚ) - l = ((k - l : Int) : ℚ) := by push_cast; ring
    have a3 : (h : ℚ) + k + l = ((h + k + l : Int) : ℚ) := by push_cast; ring
    rw [a1, a2, a3, trunc_int, trunc_int, trunc_int]
  rw [e]
  simp only [rhombFromHex, Prod.mk.injEq]
  refine ⟨?_, ?_, ?_⟩ <;> (push_cast; ring)

/-- C26: hexagonal to rhombohedral and back, for all integers, also when the rhombohedral
indices are not integers. -/
theorem hex_rhomb_hex (H K L : Int) : hexFromRhomb (rhombFromHex (H, K, L)) = (H, K, L) := by
  simp only [hexFromRhomb, rhombFromHex]
  have a1 : ((2 * H + K + L : Int) : ℚ) / 3 - ((-H + K + L : Int) : ℚ) / 3 = ((H : Int) : ℚ) := by push_cast; ring
  have a2 : ((-H + K + L : Int) : ℚ) / 3 - ((-H - 2 * K + L : Int) : ℚ) / 3 = ((K : Int) : ℚ) := by push_cast; ring
  have a3 : ((2 * H + K + L : Int) : ℚ) / 3 + ((-H + K + L : Int) : ℚ) / 3 + ((-H - 2 * K + L : Int) : ℚ) / 3 =
      ((L : Int) : ℚ) := by push_cast; ring
  rw [a1, a2, a3, trunc_int, trunc_int, trunc_int]

/-- C26: the rhombohedral indices of a hexagonal triple are integers exactly if the triple
satisfies the obverse condition `-H + K + L = 3n`. -/
theorem rhomb_integral_iff (H K L : Int) :
    (∃ h k l : Int, rhombFromHex (H, K, L) = ((h : ℚ), (k : ℚ), (l : ℚ))) ↔ 3 ∣ -H + K + L := by
  simp only [rhombFromHex, Prod.mk.injEq]
  constructor
  · rintro ⟨h, k, l, _, h2, _⟩
    refine ⟨k, ?_⟩
    have : ((-H + K + L : Int) : ℚ) = ((3 * k : Int) : ℚ) := by
      push_cast at h2 ⊢; linarith
    exact_mod_cast this
  · rintro ⟨n, hn⟩
    have e : ((-H + K + L : Int) : ℚ) = 3 * n := by rw [hn]; push_cast; ring
    push_cast at e
    refine ⟨H + n, n, n - K, ?_, ?_, ?_⟩ <;> (push_cast; linarith)

/-- The rhombohedral basis vectors of the obverse setting in a hexagonal cell with axes
`a` and `c`: `(2/3, 1/3, 1/3)`, `(-1/3, 1/3, 1/3)`, `(-1/3, -2/3, 1/3)`, and the dot product
of the hexagonal cell. -/
noncomputable def rhombBasis (i : Fin 3) : ℝ × ℝ × ℝ :=
  ![(2 / 3, 1 / 3, 1 / 3), (-1 / 3, 1 / 3, 1 / 3), (-1 / 3, -2 / 3, 1 / 3)] i

noncomputable def hexDot (a c : ℝ) (p q : ℝ × ℝ × ℝ) : ℝ :=
  a ^ 2 * (p.1 * q.1 + p.2.1 * q.2.1 - (p.1 * q.2.1 + p.2.1 * q.1) / 2) + c ^ 2 * p.2.2 * q.2.2

/-- C26: the rhombohedral lattice parameters of a hexagonal cell are the length and the
mutual angle of the rhombohedral basis vectors, for every cell. -/
theorem rhomb_params (a c : ℝ) (ha : 0 < a) (i j : Fin 3) :
    (rhombParams a c).1 ^ 2 = hexDot a c (rhombBasis i) (rhombBasis i) ∧ 0 ≤ (rhombParams a c).1 ∧
    (i ≠ j → (rhombParams a c).1 ^ 2 * Real.cos (rhombParams a c).2 = hexDot a c (rhombBasis i) (rhombBasis j)) ∧
    0 ≤ (rhombParams a c).2 ∧ (rhombParams a c).2 ≤ Real.pi := by
  have hs : 0 ≤ 3 * a ^ 2 + c ^ 2 := by positivity
  have h3 : 0 < 3 + (c / a) ^ 2 := by positivity
  have hsq := Real.sq_sqrt hs
  have hsq3 := Real.sq_sqrt h3.le
  have hpos3 : 0 < Real.sqrt (3 + (c / a) ^ 2) := Real.sqrt_pos.2 h3
  have len : (rhombParams a c).1 ^ 2 = (3 * a ^ 2 + c ^ 2) / 9 := by
    simp only [rhombParams]; rw [div_pow, hsq]; norm_num
  have hx0 : 0 ≤ 3 / (2 * Real.sqrt (3 + (c / a) ^ 2)) := by positivity
  have hx1 : 3 / (2 * Real.sqrt (3 + (c / a) ^ 2)) ≤ 1 := by
    rw [div_le_one (by positivity)]
    have : 3 / 2 ≤ Real.sqrt (3 + (c / a) ^ 2) := by
      apply Real.le_sqrt_of_sq_le
      have := sq_nonneg (c / a)
      linarith
    linarith
  have ang : Real.cos (rhombParams a c).2 = 1 - 9 / (2 * (3 + (c / a) ^ 2)) := by
    simp only [rhombParams]
    rw [Real.cos_two_mul, ← Real.sin_sq_add_cos_sq (Real.arcsin (3 / (2 * Real.sqrt (3 + (c / a) ^ 2))))]
    have hsin := Real.sin_arcsin (by linarith) hx1
    have hcos := Real.cos_sq' (Real.arcsin (3 / (2 * Real.sqrt (3 + (c / a) ^ 2))))
    rw [hcos, hsin, div_pow, mul_pow, hsq3]
    field_simp
    ring
  refine ⟨?_, ?_, ?_, ?_, ?_⟩
  · rw [len]
    fin_cases i <;> simp [rhombBasis, hexDot] <;> ring
  · simp only [rhombParams]; positivity
  · intro hij
    rw [len, ang]
    have h3' : 3 + (c / a) ^ 2 = (3 * a ^ 2 + c ^ 2) / a ^ 2 := by field_simp
    have hp : 0 < 3 * a ^ 2 + c ^ 2 := by positivity
    have e : (3 * a ^ 2 + c ^ 2) / 9 * (1 - 9 / (2 * (3 + (c / a) ^ 2))) = (2 * c ^ 2 - 3 * a ^ 2) / 18 := by
      rw [h3']; field_simp; ring
    rw [e]
    fin_cases i <;> fin_cases j <;> first | exact absurd rfl hij | (simp [rhombBasis, hexDot]; ring)
  · simp only [rhombParams]
    have := Real.arcsin_nonneg.2 hx0
    linarith
  · simp only [rhombParams]
    have := Real.arcsin_le_pi_div_two (3 / (2 * Real.sqrt (3 + (c / a) ^ 2)))
    linarith

/-! ## Three- and four-index directions -/

/-- Scaling a triple. -/
def smul (c : ℚ) (d : ℚ × ℚ × ℚ) : ℚ × ℚ × ℚ := (c * d.1, c * d.2.1, c * d.2.2)

/-- C26: three-index to four-index directions and back gives the direction divided by the
number the code calls `lcm`. -/
theorem direction_roundtrip (u v w : ℚ) :
    fromMB (toMB (u, v, w)) = smul (1 / divisor ((2 * u - v) / 3, (2 * v - u) / 3, w)) (u, v, w) := by
  simp only [fromMB, toMB, smul, Prod.mk.injEq]
  refine ⟨by ring, by ring, by ring⟩

theorem npMod_sign (x y r : ℚ) (h : npMod x y = some r) : (0 < y → 0 ≤ r) ∧ (y < 0 → r ≤ 0) := by
  unfold npMod at h
  split at h
  · cases h
  · rename_i hy
    cases h
    constructor
    · intro hp
      have h1 := Int.floor_le (x / y)
      have := (le_div_iff₀ hp).1 h1
      linarith
    · intro hn
      have h1 := Int.floor_le (x / y)
      have := (le_div_iff_of_neg hn).1 h1
      linarith

theorem dropTiny_some (r : Option ℚ) (x : ℚ) (h : dropTiny r = some x) : r = some x ∧ x ≠ 0 := by
  unfold dropTiny at h
  cases r with
  | none => cases h
  | some y =>
    simp only [Option.bind_some] at h
    split at h
    · cases h
    · rename_i hy
      cases h
      refine ⟨rfl, ?_⟩
      rintro rfl
      apply hy
      norm_num [epsf]

theorem divisor_ne_zero (r : ℚ × ℚ × ℚ) : divisor r ≠ 0 := by
  unfold divisor
  cases h1 : dropTiny (npMod r.1 r.2.1) with
  | none =>
    cases h2 : dropTiny (npMod r.1 r.2.2) with
    | none => simp [nanmin]
    | some y => exact (dropTiny_some _ _ h2).2
  | some x =>
    cases h2 : dropTiny (npMod r.1 r.2.2) with
    | none => exact (dropTiny_some _ _ h1).2
    | some y =>
      simp only [nanmin]
      rcases min_choice x y with h | h <;> rw [h]
      · exact (dropTiny_some _ _ h1).2
      · exact (dropTiny_some _ _ h2).2

/-- C26 (partial: the factor is only known to be non-zero): the round trip keeps the line
of the direction; it keeps the sense if `2v - u` and `w` are not negative. -/
theorem direction_roundtrip_partial (u v w : ℚ) :
    (∃ c, c ≠ 0 ∧ fromMB (toMB (u, v, w)) = smul c (u, v, w)) ∧
    (0 ≤ 2 * v - u → 0 ≤ w → ∃ c, 0 < c ∧ fromMB (toMB (u, v, w)) = smul c (u, v, w)) := by
  refine ⟨⟨_, one_div_ne_zero (divisor_ne_zero _), direction_roundtrip u v w⟩, ?_⟩
  intro hv hw
  refine ⟨_, one_div_pos.2 (lt_of_le_of_ne ?_ (divisor_ne_zero _).symm), direction_roundtrip u v w⟩
  have nn : ∀ x y r : ℚ, 0 ≤ y → dropTiny (npMod x y) = some r → 0 ≤ r := by
    intro x y r hy h
    obtain ⟨h1, -⟩ := dropTiny_some _ _ h
    rcases lt_or_eq_of_le hy with h | h
    · exact (npMod_sign _ _ _ h1).1 h
    · subst h; simp [npMod] at h1
  unfold divisor
  cases h1 : dropTiny (npMod ((2 * u - v) / 3) ((2 * v - u) / 3)) with
  | none =>
    cases h2 : dropTiny (npMod ((2 * u - v) / 3) w) with
    | none => simp [nanmin]
    | some y => exact nn _ _ _ hw h2
  | some x =>
    cases h2 : dropTiny (npMod ((2 * u - v) / 3) w) with
    | none => exact nn _ _ _ (by linarith) h1
    | some y => exact le_min (nn _ _ _ (by linarith) h1) (nn _ _ _ hw h2)

/-- C26, disagreement: the direction `[1 -1 -2]` comes back as `[-1 1 2]`. -/
theorem direction_reversed : fromMB (toMB (1, -1, -2)) = (-1, 1, 2) := by
  have e : ⌊(-2 : ℚ)⁻¹⌋ = -1 := by rw [Int.floor_eq_iff]; norm_num
  norm_num [fromMB, toMB, divisor, npMod, dropTiny, epsf, nanmin, e]

/-- C26, disagreement: the four-index form of a single direction does not have
`U + V + T = 0` unless `W = 1`; three or more directions at once raise. -/
theorem four_index_wrong (d : ℚ × ℚ × ℚ) :
    (∃ U V T W, toMB4 [d] = some [(U, V, T, W)] ∧ (U + V + T = 0 ↔ W = 1)) ∧
    ∀ d2 d3 ds, toMB4 (d :: d2 :: d3 :: ds) = none := by
  constructor
  · refine ⟨_, _, _, _, rfl, ?_⟩
    constructor
    · intro h; linarith
    · intro h; linarith
  · intro d2 d3 ds
    simp [toMB4]

/-- C26: cartesian components of four-index directions. With hexagonal axes
`a1 = a (1, 0, 0)`, `a2 = a (-1/2, √3/2, 0)`, `c = c (0, 0, 1)`, they are those of the
three-index direction that `convert_MillerBravias_direction_to_Miller` gives. -/
theorem cartesian_of_four_index (a c : ℝ) (U V W : ℚ) :
    let d := fromMB (U, V, W)
    toCartesian a c (U, V, W) =
      ((d.1 : ℝ) * a - d.2.1 * a / 2, (d.2.1 : ℝ) * a * (Real.sqrt 3 / 2), (d.2.2 : ℝ) * c) := by
  simp only [fromMB, toCartesian, Prod.mk.injEq]
  push_cast
  refine ⟨by ring, by ring, trivial⟩

/-- C26, disagreement: the documentation of the same function asks for three-index
directions. For `[0 1 0]` they give a vector that is not along `a2`. -/
theorem cartesian_of_three_index_wrong :
    toCartesian 1 1 (0, 1, 0) ≠ (-1 / 2, Real.sqrt 3 / 2, 0) := by
  intro h
  have := congrArg Prod.fst h
  norm_num [toCartesian] at this

example : fromMB (toMB (1, 1, 1)) = smul 3 (1, 1, 1) := by
  have e1 : ⌊(3 : ℚ)⁻¹⌋ = 0 := by rw [Int.floor_eq_iff]; norm_num
  norm_num [fromMB, toMB, divisor, npMod, dropTiny, epsf, nanmin, smul, e1]

end Hexrd.Miller
