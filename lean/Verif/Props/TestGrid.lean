import Verif.Spec.GrainMap
import Mathlib.Data.List.Nodup
import Mathlib.Tactic.Linarith
import Mathlib.Tactic.Ring
import Mathlib.Tactic.FieldSimp
import Mathlib.Tactic.NormNum
import Mathlib.Tactic.Positivity
import Mathlib.Tactic.Push

/-! The grids of test coordinates. -/

namespace Hexrd.GrainMap

theorem flatGrid_mem (xs ys zs : List ℝ) (p : ℝ × ℝ × ℝ) :
    p ∈ flatGrid xs ys zs ↔ p.1 ∈ xs ∧ p.2.1 ∈ ys ∧ p.2.2 ∈ zs := by
  obtain ⟨x, y, z⟩ := p
  simp only [flatGrid, List.mem_flatMap, List.mem_map, Prod.mk.injEq]
  constructor
  · rintro ⟨_, hy, _, hx, _, hz, rfl, rfl, rfl⟩; exact ⟨hx, hy, hz⟩
  · rintro ⟨hx, hy, hz⟩; exact ⟨y, hy, x, hx, z, hz, rfl, rfl, rfl⟩

theorem flatMap_length {α β : Type} (l : List α) (f : α → List β) (n : ℕ) (h : ∀ a ∈ l, (f a).length = n) :
    (l.flatMap f).length = l.length * n := by
  induction l with
  | nil => simp
  | cons a l ih =>
    rw [List.flatMap_cons, List.length_append, ih fun b hb => h b (List.mem_cons_of_mem _ hb), h a (List.mem_cons_self ..),
      List.length_cons, Nat.succ_mul, Nat.add_comm]

theorem flatMap_get {α β : Type} (l : List α) (f : α → List β) (n : ℕ) (h : ∀ a ∈ l, (f a).length = n) (i j : ℕ)
    (hj : j < n) : (l.flatMap f)[i * n + j]? = l[i]?.bind fun a => (f a)[j]? := by
  induction l generalizing i with
  | nil => simp
  | cons a l ih =>
    have ha := h a (List.mem_cons_self ..)
    rw [List.flatMap_cons]
    cases i with
    | zero => rw [List.getElem?_append_left (by rw [ha]; omega)]; simp
    | succ i =>
      rw [List.getElem?_append_right (by rw [ha, Nat.succ_mul]; omega), ha]
      have : (i + 1) * n + j - n = i * n + j := by rw [Nat.succ_mul]; omega
      rw [this, ih (fun b hb => h b (List.mem_cons_of_mem _ hb))]
      simp

/-- The number of points of a grid. -/
theorem flatGrid_length (xs ys zs : List ℝ) : (flatGrid xs ys zs).length = ys.length * (xs.length * zs.length) := by
  unfold flatGrid
  refine flatMap_length _ _ _ fun y _ => ?_
  exact flatMap_length _ _ _ fun x _ => by rw [List.length_map]

/-- The place of a point: layers of `y` first, then `x`, then `z`. -/
theorem flatGrid_get (xs ys zs : List ℝ) (i j k : ℕ) (hi : i < xs.length) (hj : j < ys.length) (hk : k < zs.length) :
    (flatGrid xs ys zs)[(j * xs.length + i) * zs.length + k]? = some (xs[i], ys[j], zs[k]) := by
  unfold flatGrid
  have e : (j * xs.length + i) * zs.length + k = j * (xs.length * zs.length) + (i * zs.length + k) := by ring
  have hlt : i * zs.length + k < xs.length * zs.length := by
    have : (i + 1) * zs.length ≤ xs.length * zs.length := Nat.mul_le_mul_right _ hi
    rw [Nat.succ_mul] at this; omega
  rw [e, flatMap_get _ _ (xs.length * zs.length) (fun y _ => flatMap_length _ _ _ fun x _ => by rw [List.length_map]) _ _ hlt,
    List.getElem?_eq_getElem hj, Option.bind_some,
    flatMap_get _ _ zs.length (fun x _ => by rw [List.length_map]) _ _ hk, List.getElem?_eq_getElem hi, Option.bind_some,
    List.getElem?_map, List.getElem?_eq_getElem hk, Option.map_some]

/-- A grid of lists without repetition has none. -/
theorem flatGrid_nodup (xs ys zs : List ℝ) (hx : xs.Nodup) (hy : ys.Nodup) (hz : zs.Nodup) : (flatGrid xs ys zs).Nodup := by
  unfold flatGrid
  rw [List.nodup_flatMap]
  refine ⟨fun y _ => ?_, ?_⟩
  · rw [List.nodup_flatMap]
    refine ⟨fun x _ => hz.map fun a b h => by simpa using h, ?_⟩
    refine hx.imp fun {a b} hab => ?_
    intro p hp hq
    simp only [List.mem_map] at hp hq
    obtain ⟨_, _, rfl⟩ := hp
    obtain ⟨_, _, h⟩ := hq
    simp only [Prod.mk.injEq] at h
    exact hab h.1.symm
  · refine hy.imp fun {a b} hab => ?_
    intro p hp hq
    simp only [List.mem_flatMap, List.mem_map] at hp hq
    obtain ⟨_, _, _, _, rfl⟩ := hp
    obtain ⟨_, _, _, _, h⟩ := hq
    simp only [Prod.mk.injEq] at h
    exact hab h.2.1.symm

/-- Half a voxel inside the lower bound: the values of `arange` are centres of voxels. -/
theorem arange_centres (lo hi s : ℝ) (hs : 0 < s) :
    arange (lo + s / 2) hi s = some (Spec.centres lo s ⌈(hi - lo) / s - 1 / 2⌉.toNat) := by
  unfold arange Spec.centres
  rw [if_neg hs.ne']
  have : (hi - (lo + s / 2)) / s = (hi - lo) / s - 1 / 2 := by field_simp; ring
  rw [this]
  congr 1
  apply List.map_congr_left
  intro i _
  ring

theorem centres_nodup (lo s : ℝ) (hs : 0 < s) (n : ℕ) : (Spec.centres lo s n).Nodup := by
  unfold Spec.centres
  apply List.Nodup.map _ List.nodup_range
  intro a b h
  simp only [add_right_inj] at h
  have := mul_right_cancel₀ hs.ne' h
  exact_mod_cast add_right_cancel this

/-- The centres of a whole number of voxels between the bounds. -/
theorem arange_exact (lo s : ℝ) (hs : 0 < s) (n : ℕ) : arange (lo + s / 2) (lo + n * s) s = some (Spec.centres lo s n) := by
  rw [arange_centres _ _ _ hs]
  have : (lo + n * s - lo) / s - 1 / 2 = n - 1 / 2 := by field_simp; ring
  rw [this]
  have hc : ⌈(n : ℝ) - 1 / 2⌉ = n := by
    rw [Int.ceil_eq_iff]
    constructor <;> push_cast <;> linarith
  rw [hc, Int.toNat_natCast]

/-- The cross section of a test grid: no point twice, every point inside the bounds, and every place of the cross section is at most
half a voxel from a coordinate, but for a margin of half a voxel at the upper end. -/
theorem grid_axis (lo hi s : ℝ) (hs : 0 < s) :
    ∃ l, arange (lo + s / 2) hi s = some l ∧ l.Nodup ∧ (∀ x ∈ l, lo < x ∧ x < hi) ∧
      ∀ x, lo ≤ x → x < hi - s / 2 → ∃ c ∈ l, |x - c| ≤ s / 2 := by
  refine ⟨_, arange_centres lo hi s hs, centres_nodup lo s hs _, ?_, ?_⟩
  · intro x hx
    simp only [Spec.centres, List.mem_map, List.mem_range] at hx
    obtain ⟨i, hi', rfl⟩ := hx
    have hi2 : (i : ℤ) < ⌈(hi - lo) / s - 1 / 2⌉ := by omega
    rw [Int.lt_ceil] at hi2
    push_cast at hi2
    have h3 : ((i : ℝ) + 1 / 2) * s < hi - lo := by
      rw [← lt_div_iff₀ hs]; linarith
    have h4 : 0 < ((i : ℝ) + 1 / 2) * s := by positivity
    constructor <;> linarith
  · intro x h1 h2
    have ht0 : 0 ≤ (x - lo) / s := div_nonneg (by linarith) hs.le
    have ht1 : (x - lo) / s < (hi - lo) / s - 1 / 2 := by
      rw [div_sub' hs.ne', div_lt_div_iff_of_pos_right hs]; linarith
    have hx : x = lo + (x - lo) / s * s := by field_simp; ring
    generalize (x - lo) / s = t at *
    have hf0 : 0 ≤ ⌊t⌋ := Int.floor_nonneg.2 ht0
    have hf1 : ⌊t⌋ < ⌈(hi - lo) / s - 1 / 2⌉ := by
      rw [Int.lt_ceil]; exact lt_of_le_of_lt (Int.floor_le t) ht1
    refine ⟨lo + ((⌊t⌋.toNat : ℝ) + 1 / 2) * s, ?_, ?_⟩
    · simp only [Spec.centres, List.mem_map, List.mem_range]
      exact ⟨⌊t⌋.toNat, by omega, rfl⟩
    · have e : ((⌊t⌋.toNat : ℕ) : ℝ) = (⌊t⌋ : ℝ) := by
        rw [← Int.cast_natCast, Int.toNat_of_nonneg hf0]
      have a := Int.floor_le t
      have b := Int.lt_floor_add_one t
      rw [e, hx, show lo + t * s - (lo + ((⌊t⌋ : ℝ) + 1 / 2) * s) = (t - ⌊t⌋ - 1 / 2) * s by ring, abs_mul, abs_of_pos hs]
      have : |t - (⌊t⌋ : ℝ) - 1 / 2| ≤ 1 / 2 := by rw [abs_le]; constructor <;> linarith
      nlinarith

/-- The layers of a grid: the one that is asked for, or centres of voxels between the bounds. -/
theorem layers_eq (lo s : ℝ) (hs : 0 < s) (n : ℕ) :
    layers lo (lo + n * s) s = some (if n = 0 then [lo] else Spec.centres lo s n) := by
  unfold layers
  by_cases hn : n = 0
  · subst hn; simp
  · have : (0 : ℝ) < n := by exact_mod_cast Nat.pos_of_ne_zero hn
    rw [if_neg (by nlinarith), if_neg hn, arange_exact lo s hs]

/-- A cross section of a whole number of voxels, and a whole number of layers: the coordinates are exactly the centres of the voxels,
none of them twice. -/
theorem grid_voxels (n m : ℕ) (lo s : ℝ) (hs : 0 < s) (hm : m ≠ 0) :
    ∃ grid, testGrid (n * s) lo (lo + m * s) s = some grid ∧ grid.length = m * (n * n) ∧ grid.Nodup ∧
      ∀ x y z, (x, y, z) ∈ grid ↔ x ∈ Spec.centres (-(n * s / 2)) s n ∧ y ∈ Spec.centres lo s m ∧
        z ∈ Spec.centres (-(n * s / 2)) s n := by
  have e : arange (-(n * s) / 2 + s / 2) (n * s / 2) s = some (Spec.centres (-(n * s / 2)) s n) := by
    have := arange_exact (-(n * s / 2)) s hs n
    rw [show -(n * s / 2) + n * s = n * s / 2 by ring] at this
    rw [show -(n * s) / 2 = -(n * s / 2) by ring]
    exact this
  refine ⟨flatGrid (Spec.centres (-(n * s / 2)) s n) (Spec.centres lo s m) (Spec.centres (-(n * s / 2)) s n), ?_, ?_, ?_, ?_⟩
  · simp only [testGrid, e, Option.bind_eq_bind, Option.bind_some, layers_eq lo s hs m, if_neg hm]
    rfl
  · rw [flatGrid_length]; simp [Spec.centres]
  · exact flatGrid_nodup _ _ _ (centres_nodup _ _ hs _) (centres_nodup _ _ hs _) (centres_nodup _ _ hs _)
  · intro x y z; exact flatGrid_mem _ _ _ _

/-- Every place between the bounds lies in exactly one voxel. -/
theorem one_voxel (lo s : ℝ) (hs : 0 < s) (n : ℕ) (x : ℝ) (h1 : lo ≤ x) (h2 : x < lo + n * s) :
    ∃! c, c ∈ Spec.centres lo s n ∧ c - s / 2 ≤ x ∧ x < c + s / 2 := by
  have ht0 : 0 ≤ (x - lo) / s := div_nonneg (by linarith) hs.le
  have ht1 : (x - lo) / s < n := by rw [div_lt_iff₀ hs]; linarith
  have hx : x = lo + (x - lo) / s * s := by field_simp; ring
  generalize (x - lo) / s = t at *
  have hf0 : 0 ≤ ⌊t⌋ := Int.floor_nonneg.2 ht0
  have hf1 : ⌊t⌋ < n := by rw [Int.floor_lt]; exact_mod_cast ht1
  have e : ((⌊t⌋.toNat : ℕ) : ℝ) = (⌊t⌋ : ℝ) := by rw [← Int.cast_natCast, Int.toNat_of_nonneg hf0]
  have a := Int.floor_le t
  have b := Int.lt_floor_add_one t
  refine ⟨lo + ((⌊t⌋.toNat : ℝ) + 1 / 2) * s, ⟨?_, ?_, ?_⟩, ?_⟩
  · simp only [Spec.centres, List.mem_map, List.mem_range]
    exact ⟨⌊t⌋.toNat, by omega, rfl⟩
  · rw [e, hx]; nlinarith
  · rw [e, hx]; nlinarith
  · rintro c ⟨hc, h3, h4⟩
    simp only [Spec.centres, List.mem_map, List.mem_range] at hc
    obtain ⟨i, hi, rfl⟩ := hc
    have h5 : (i : ℝ) * s ≤ t * s := by linarith
    have h6 : t * s < (i + 1) * s := by linarith
    have h7 : ⌊t⌋ = i := by
      rw [Int.floor_eq_iff]
      exact ⟨by exact_mod_cast le_of_mul_le_mul_right h5 hs, by exact_mod_cast lt_of_mul_lt_mul_right h6 hs.le⟩
    rw [e, h7]; simp

/-- The grid for a tomographic reconstruction of the same size is the other one moved by half a voxel. -/
theorem tomo_shift (n m : ℕ) (lo s : ℝ) (hs : 0 < s) :
    testGridTomo n n lo (lo + m * s) s =
      (testGrid (n * s) lo (lo + m * s) s).map fun g => g.map fun p => (p.1 - s / 2, p.2.1, p.2.2 - s / 2) := by
  have e : arange (-(n * s) / 2 + s / 2) (n * s / 2) s = some (Spec.centres (-(n * s / 2)) s n) := by
    have := arange_exact (-(n * s / 2)) s hs n
    rw [show -(n * s / 2) + n * s = n * s / 2 by ring] at this
    rw [show -(n * s) / 2 = -(n * s / 2) by ring]
    exact this
  have e2 : ((List.range n).map fun i : ℕ => ((i : ℝ) - n / 2) * s) = (Spec.centres (-(n * s / 2)) s n).map fun x => x - s / 2 := by
    simp only [Spec.centres, List.map_map]
    apply List.map_congr_left
    intro i _
    simp only [Function.comp]
    ring
  simp only [testGridTomo, testGrid, e, Option.bind_eq_bind, Option.bind_some, layers_eq lo s hs m, e2, Option.pure_def,
    Option.map_some]
  congr 1
  simp only [flatGrid, List.map_flatMap, List.flatMap_map, List.map_map]
  rfl

/-- Two by two voxels in one layer. -/
example : testGrid 2 5 5 1 = some [(-1 / 2, 5, -1 / 2), (-1 / 2, 5, 1 / 2), (1 / 2, 5, -1 / 2), (1 / 2, 5, 1 / 2)] := by
  have h : arange (-(2 : ℝ) / 2 + 1 / 2) (2 / 2) 1 = some [-1 / 2, 1 / 2] := by
    have : ⌈(2 / 2 - (-(2 : ℝ) / 2 + 1 / 2)) / 1⌉ = 2 := by rw [Int.ceil_eq_iff]; norm_num
    unfold arange
    rw [this, if_neg one_ne_zero, show Int.toNat 2 = 2 from rfl]
    norm_num [List.range_succ]
  unfold testGrid
  rw [h]
  norm_num [layers, flatGrid]

end Hexrd.GrainMap
