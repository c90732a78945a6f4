import Verif.Model.Grid
import Mathlib.Tactic.Linarith
import Mathlib.Tactic.Ring
import Mathlib.Tactic.NormNum
import Mathlib.Tactic.FieldSimp
import Mathlib.Tactic.Push
import Mathlib.Data.List.Rotate
import Mathlib.Algebra.BigOperators.Ring.List
import Mathlib.Algebra.BigOperators.Group.List.Basic

/-!
# Grid connectivity (C38), areas (C39), tolerance grids (C41) and bin lookup (C42)
-/
namespace Hexrd.Grid

namespace Spec

/-- The number of the node in layer `k`, row `r`, column `c` of a grid with `(m+1) × (n+1)` nodes in a layer. -/
def node (m n k r c : Nat) : Nat := (k * (m + 1) + r) * (n + 1) + c

/-- The corners of the cell in row `j`, column `i`, going round it. -/
def corners (m n k j i : Nat) : List Nat :=
  [node m n k j (i + 1), node m n k j i, node m n k (j + 1) i, node m n k (j + 1) (i + 1)]

/-- `a` and `b` are next to each other going round the list. -/
def IsSide (a b : Nat) (l : List Nat) : Prop :=
  (a, b) ∈ l.zip (l.rotate 1) ∨ (b, a) ∈ l.zip (l.rotate 1)

/-- The cells in rows `j`, `j'` and columns `i`, `i'` are neighbours. -/
def Neighbours (j i j' i' : Nat) : Prop :=
  (j = j' ∧ (i = i' + 1 ∨ i' = i + 1)) ∨ (i = i' ∧ (j = j' + 1 ∨ j' = j + 1))

/-- Twice the signed area by the shoelace formula, for the vertices in order, going back to the first. -/
def shoelace (l : List Pt) : ℝ := ((l.zip (l.rotate 1)).map fun e => cross e.1 e.2).sum

end Spec

open Spec

/-! ## Connectivity -/

theorem node_inj {m n k r c k' r' c' : Nat} (hc : c ≤ n) (hc' : c' ≤ n) (hr : r ≤ m) (hr' : r' ≤ m) :
    node m n k r c = node m n k' r' c' ↔ k = k' ∧ r = r' ∧ c = c' := by
  constructor
  · unfold node
    intro h
    have e1 : ∀ a b : Nat, b ≤ n → (a * (n + 1) + b) / (n + 1) = a := fun a b hb => by
      rw [Nat.mul_comm, Nat.mul_add_div (by omega), Nat.div_eq_of_lt (by omega)]; rfl
    have e2 : ∀ a b : Nat, b ≤ m → (a * (m + 1) + b) / (m + 1) = a := fun a b hb => by
      rw [Nat.mul_comm, Nat.mul_add_div (by omega), Nat.div_eq_of_lt (by omega)]; rfl
    have h1 := congrArg (· / (n + 1)) h
    simp only [e1 _ _ hc, e1 _ _ hc'] at h1
    have h2 := congrArg (· / (m + 1)) h1
    simp only [e2 _ _ hr, e2 _ _ hr'] at h2
    subst h2
    have h3 : r = r' := by omega
    subst h3
    exact ⟨rfl, rfl, by omega⟩
  · rintro ⟨rfl, rfl, rfl⟩; rfl

theorem cellNodes_eq (m n k j i : Nat) : cellNodes m n k j i = corners m n k j i := by
  simp only [cellNodes, corners, node, List.cons.injEq, and_true]
  refine ⟨?_, ?_, ?_, ?_⟩ <;> ring

theorem flatMap_length_const {α β : Type} (l : List α) (f : α → List β) (c : Nat) (h : ∀ a ∈ l, (f a).length = c) :
    (l.flatMap f).length = l.length * c := by
  induction l with
  | nil => simp
  | cons a l ih =>
    rw [List.flatMap_cons, List.length_append, h a (by simp), ih fun b hb => h b (by simp [hb]), List.length_cons]
    ring

theorem flatMap_getElem? {α β : Type} (l : List α) (f : α → List β) (c : Nat) (h : ∀ a ∈ l, (f a).length = c)
    (q r : Nat) (hr : r < c) : (l.flatMap f)[q * c + r]? = l[q]?.bind fun a => (f a)[r]? := by
  induction l generalizing q with
  | nil => simp
  | cons a l ih =>
    have ha := h a (by simp)
    rw [List.flatMap_cons]
    cases q with
    | zero =>
      rw [Nat.zero_mul, Nat.zero_add, List.getElem?_append_left (by omega)]; rfl
    | succ q =>
      rw [List.getElem?_append_right (by rw [ha]; nlinarith), ha,
        show (q + 1) * c + r - c = q * c + r by rw [Nat.succ_mul]; omega,
        ih (fun b hb => h b (by simp [hb]))]
      rfl

theorem layer_length (m n k : Nat) :
    ((List.range m).flatMap fun j => (List.range n).map fun i => cellNodes m n k j i).length = m * n := by
  rw [flatMap_length_const _ _ n (by simp)]; simp

theorem fill_length (m n p : Nat) : (fillConnectivity m n p).length = p * (m * n) := by
  unfold fillConnectivity
  rw [flatMap_length_const _ _ (m * n) (fun k _ => layer_length m n k)]; simp

theorem cell_index_lt {m n j i : Nat} (hj : j < m) (hi : i < n) : j * n + i < m * n := by
  calc j * n + i < j * n + n := by omega
    _ = (j + 1) * n := by ring
    _ ≤ m * n := Nat.mul_le_mul_right _ hj

theorem fill_get (m n p : Nat) {k j i : Nat} (hk : k < p) (hj : j < m) (hi : i < n) :
    (fillConnectivity m n p)[k * (m * n) + (j * n + i)]? = some (corners m n k j i) := by
  unfold fillConnectivity
  rw [flatMap_getElem? _ _ (m * n) (fun k _ => layer_length m n k) _ _ (cell_index_lt hj hi)]
  rw [List.getElem?_range hk]
  simp only [Option.bind_some]
  rw [flatMap_getElem? _ _ n (by simp) _ _ hi, List.getElem?_range hj]
  simp only [Option.bind_some, List.getElem?_map, List.getElem?_range hi, Option.map_some, cellNodes_eq]

/-- C38: one layer gives `m n` cells. -/
theorem conn_length (m n : Nat) (o : Origin) : (cellConnectivity m n 1 o).length = m * n := by
  cases o <;> simp [cellConnectivity, fill_length]

/-- C38: in row-major order, each cell with its four corners. -/
theorem conn_cell (m n : Nat) {j i : Nat} (hj : j < m) (hi : i < n) :
    (cellConnectivity m n 1 .ul)[j * n + i]? = some (corners m n 0 j i) := by
  have := fill_get m n 1 (k := 0) Nat.one_pos hj hi
  rw [Nat.zero_mul, Nat.zero_add] at this
  simpa [cellConnectivity] using this

/-- C38: the lower-left origin lists the same corners the other way round. -/
theorem conn_ll (m n p : Nat) : cellConnectivity m n p .ll = (cellConnectivity m n p .ul).map List.reverse := by
  rfl

/-- C38: the corners of a cell are distinct nodes of the grid. -/
theorem corners_distinct (m n k : Nat) {j i : Nat} (hj : j < m) (hi : i < n) :
    (corners m n k j i).Nodup ∧ ∀ a ∈ corners m n k j i, a < (k + 1) * ((m + 1) * (n + 1)) := by
  constructor
  · simp [corners, node_inj (m := m) (n := n) (show i ≤ n by omega) (show i + 1 ≤ n by omega),
      node_inj (m := m) (n := n) (show i + 1 ≤ n by omega) (show i ≤ n by omega),
      node_inj (m := m) (n := n) (show i ≤ n by omega) (show i ≤ n by omega),
      node_inj (m := m) (n := n) (show i + 1 ≤ n by omega) (show i + 1 ≤ n by omega),
      show j ≤ m by omega, show j + 1 ≤ m by omega]
  · have key : ∀ r c, r ≤ m → c ≤ n → node m n k r c < (k + 1) * ((m + 1) * (n + 1)) := by
      intro r c hr hc
      unfold node
      calc (k * (m + 1) + r) * (n + 1) + c < (k * (m + 1) + r) * (n + 1) + (n + 1) := by omega
        _ = (k * (m + 1) + (r + 1)) * (n + 1) := by ring
        _ ≤ (k * (m + 1) + (m + 1)) * (n + 1) := Nat.mul_le_mul_right _ (by omega)
        _ = _ := by ring
    intro a ha
    simp only [corners, List.mem_cons, List.not_mem_nil, or_false] at ha
    rcases ha with rfl | rfl | rfl | rfl <;> apply key <;> omega

/-- C38: two different cells share a side exactly when they are neighbours. -/
theorem share_side (m n k : Nat) {j i j' i' : Nat} (hj : j < m) (hi : i < n) (hj' : j' < m) (hi' : i' < n)
    (hne : (j, i) ≠ (j', i')) :
    (∃ a b, IsSide a b (corners m n k j i) ∧ IsSide a b (corners m n k j' i')) ↔ Neighbours j i j' i' := by
  have inj : ∀ {r c r' c' : Nat}, c ≤ n → c' ≤ n → r ≤ m → r' ≤ m → node m n k r c = node m n k r' c' →
      r = r' ∧ c = c' := fun h1 h2 h3 h4 h => ((node_inj h1 h2 h3 h4).1 h).2
  have hne' : j ≠ j' ∨ i ≠ i' := by
    by_contra h; push Not at h; exact hne (by rw [h.1, h.2])
  constructor
  · rintro ⟨a, b, h, h'⟩
    simp only [IsSide, corners, List.rotate_cons_succ, List.rotate_zero, List.cons_append, List.nil_append,
      List.zip_cons_cons, List.zip_nil_right, List.mem_cons, List.not_mem_nil, or_false, Prod.mk.injEq] at h h'
    unfold Neighbours
    rcases h with (h | h | h | h) | (h | h | h | h) <;> obtain ⟨ha, hb⟩ := h <;> subst ha <;> subst hb <;>
      rcases h' with (h' | h' | h' | h') | (h' | h' | h' | h') <;> obtain ⟨h1, h2⟩ := h' <;>
      have e1 := inj (by omega) (by omega) (by omega) (by omega) h1 <;>
      have e2 := inj (by omega) (by omega) (by omega) (by omega) h2 <;> omega
  · intro h
    simp only [IsSide, corners, List.rotate_cons_succ, List.rotate_zero, List.cons_append, List.nil_append,
      List.zip_cons_cons, List.zip_nil_right, List.mem_cons, List.not_mem_nil, or_false, Prod.mk.injEq]
    rcases h with ⟨rfl, rfl | rfl⟩ | ⟨rfl, rfl | rfl⟩
    · exact ⟨node m n k j (i' + 1), node m n k (j + 1) (i' + 1), by simp, by simp⟩
    · exact ⟨node m n k j (i + 1), node m n k (j + 1) (i + 1), by simp, by simp⟩
    · exact ⟨node m n k (j' + 1) i, node m n k (j' + 1) (i + 1), by simp, by simp⟩
    · exact ⟨node m n k (j + 1) i, node m n k (j + 1) (i + 1), by simp, by simp⟩

theorem layerRows_length (m n p : Nat) {k : Nat} (hk : k < p) :
    (layerRows (fillConnectivity m n p) (m * n) k).length = m * n := by
  unfold layerRows
  rw [List.length_take, List.length_drop, fill_length]
  have : (k + 1) * (m * n) ≤ p * (m * n) := Nat.mul_le_mul_right _ hk
  rw [Nat.succ_mul] at this
  omega

theorem layerRows_get (m n p : Nat) {k j i : Nat} (hk : k < p) (hj : j < m) (hi : i < n) :
    (layerRows (fillConnectivity m n p) (m * n) k)[j * n + i]? = some (corners m n k j i) := by
  unfold layerRows
  rw [List.getElem?_take_of_lt (cell_index_lt hj hi), List.getElem?_drop, fill_get m n p hk hj hi]

/-- C38: several layers give the `(p - 1) m n` hexahedra between successive layers. -/
theorem conn_hex_length (m n : Nat) {p : Nat} (hp : 1 < p) (o : Origin) :
    (cellConnectivity m n p o).length = (p - 1) * (m * n) := by
  have : ∀ k ∈ List.range (p - 1), (List.zipWith (· ++ ·) (layerRows (fillConnectivity m n p) (m * n) k)
      (layerRows (fillConnectivity m n p) (m * n) (k + 1))).length = m * n := by
    intro k hk
    have hk := List.mem_range.1 hk
    rw [List.length_zipWith, layerRows_length m n p (by omega), layerRows_length m n p (by omega), Nat.min_self]
  cases o <;> simp only [cellConnectivity, if_pos (show p > 1 from hp), List.length_map] <;>
    rw [flatMap_length_const _ _ (m * n) this, List.length_range]

/-- C38: each hexahedron is the four corners in a layer followed by the corresponding corners in the next. -/
theorem conn_hex (m n : Nat) {p k j i : Nat} (hk : k + 1 < p) (hj : j < m) (hi : i < n) :
    (cellConnectivity m n p .ul)[k * (m * n) + (j * n + i)]? =
      some (corners m n k j i ++ corners m n (k + 1) j i) := by
  have : ∀ k ∈ List.range (p - 1), (List.zipWith (· ++ ·) (layerRows (fillConnectivity m n p) (m * n) k)
      (layerRows (fillConnectivity m n p) (m * n) (k + 1))).length = m * n := by
    intro k hk
    have hk := List.mem_range.1 hk
    rw [List.length_zipWith, layerRows_length m n p (by omega), layerRows_length m n p (by omega), Nat.min_self]
  simp only [cellConnectivity, if_pos (show p > 1 by omega)]
  rw [flatMap_getElem? _ _ (m * n) this _ _ (cell_index_lt hj hi), List.getElem?_range (by omega)]
  simp only [Option.bind_some, List.getElem?_zipWith, layerRows_get m n p (show k < p by omega) hj hi,
    layerRows_get m n p hk hj hi]

/-- Non-vacuity and the picture: two rows of three cells. -/
example : cellConnectivity 2 3 1 .ul =
    [[1, 0, 4, 5], [2, 1, 5, 6], [3, 2, 6, 7], [5, 4, 8, 9], [6, 5, 9, 10], [7, 6, 10, 11]] := by decide

/-! ## Areas -/

theorem shoelace_cons (a b : Pt) (l : List Pt) : shoelace (a :: b :: l) =
    cross a b + (((b :: l).zip (l ++ [a])).map fun e => cross e.1 e.2).sum := by
  simp [shoelace]

/-- C39: `compute_areas` of a quadrilateral whose side 1–2 is parallel to 0–3 (all parallelograms) is its area. -/
theorem areas_partial (p0 p1 p2 p3 : Pt) :
    computeAreas p0 p1 p2 p3 = 1 / 2 * shoelace [p0, p1, p2, p3] ↔
      cross (p2.1 - p1.1, p2.2 - p1.2) (p3.1 - p0.1, p3.2 - p0.2) = 0 := by
  simp only [computeAreas, shoelace, cross, List.rotate_cons_succ, List.rotate_zero, List.cons_append, List.nil_append,
      List.zip_cons_cons, List.zip_nil_right, List.map_cons, List.map_nil, List.sum_cons, List.sum_nil, List.foldl_cons,
      List.foldl_nil]
  constructor <;> intro h <;> linarith

/-- C39: what it returns in general: the triangles 0 1 2 and 0 1 3, the second in place of 0 2 3. -/
theorem areas_two_triangles (p0 p1 p2 p3 : Pt) :
    computeAreas p0 p1 p2 p3 = 1 / 2 * shoelace [p0, p1, p2] + 1 / 2 * shoelace [p0, p1, p3] := by
  simp only [computeAreas, shoelace, cross, List.rotate_cons_succ, List.rotate_zero, List.cons_append, List.nil_append,
      List.zip_cons_cons, List.zip_nil_right, List.map_cons, List.map_nil, List.sum_cons, List.sum_nil, List.foldl_cons,
      List.foldl_nil]
  ring

/-- C39 fails for other quadrilaterals: the convex one (0,0), (1,0), (3,3), (0,1) has area 3, `compute_areas` gives 2. -/
theorem areas_wrong : computeAreas (0, 0) (1, 0) (3, 3) (0, 1) = 2 ∧
    1 / 2 * shoelace [(0, 0), (1, 0), (3, 3), (0, 1)] = 3 := by
  simp only [computeAreas, shoelace, cross, List.rotate_cons_succ, List.rotate_zero, List.cons_append, List.nil_append,
      List.zip_cons_cons, List.zip_nil_right, List.map_cons, List.map_nil, List.sum_cons, List.sum_nil, List.foldl_cons,
      List.foldl_nil]
  norm_num

/-- C39: translation does not change it. -/
theorem areas_translate (p0 p1 p2 p3 t : Pt) :
    computeAreas (p0 + t) (p1 + t) (p2 + t) (p3 + t) = computeAreas p0 p1 p2 p3 := by
  simp only [computeAreas, List.foldl_cons, List.foldl_nil, Prod.fst_add, Prod.snd_add]
  ring

theorem area_fold (l : List Nat) (f : Nat → ℝ) (a : ℝ) :
    l.foldl (fun s i => s + f i) a = a + (l.map f).sum := by
  induction l generalizing a with
  | nil => simp
  | cons x l ih => rw [List.foldl_cons, ih]; simp; ring

/-- The triangles from `o` to successive points. -/
noncomputable def fan (o : Pt) : List Pt → ℝ
  | a :: b :: l => cross (a - o) (b - o) + fan o (b :: l)
  | _ => 0

theorem fan_eq_sum (o : Pt) (l : List Pt) : fan o l =
    ((List.range (l.length - 1)).map fun i => cross (l.getD i 0 - o) (l.getD (i + 1) 0 - o)).sum := by
  induction l with
  | nil => simp [fan]
  | cons a l ih =>
    cases l with
    | nil => simp [fan]
    | cons b l =>
      rw [fan, ih]
      simp only [List.length_cons, Nat.add_sub_cancel]
      rw [List.range_succ_eq_map, List.map_cons, List.map_map, List.sum_cons]
      rfl

theorem computeArea_fan (o : Pt) (l : List Pt) : computeArea (o :: l) = 1 / 2 * fan o l := by
  unfold computeArea
  simp only
  rw [area_fold, zero_add, fan_eq_sum, List.map_map, ← List.sum_map_mul_left]
  simp only [List.length_cons]
  rw [show l.length + 1 - 2 = l.length - 1 by omega]
  congr 1

theorem zip_shift_sum (o a : Pt) (l : List Pt) :
    (((a :: l).zip (l ++ [o])).map fun e => cross e.1 e.2).sum =
      fan o (a :: l) + cross a o := by
  induction l generalizing a with
  | nil => simp [fan]
  | cons b l ih =>
    rw [List.cons_append, List.zip_cons_cons, List.map_cons, List.sum_cons, ih b, fan]
    simp [cross]; ring

/-- C39: `computeArea` is half the shoelace sum, for any number of vertices. -/
theorem area_shoelace (l : List Pt) (h : l ≠ []) : computeArea l = 1 / 2 * shoelace l := by
  match l, h with
  | [o], _ => rw [computeArea_fan]; simp [fan, shoelace, cross]; ring
  | o :: a :: l, _ =>
    rw [computeArea_fan, shoelace_cons, zip_shift_sum]
    simp [cross]; ring

theorem fan_translate (o t : Pt) (l : List Pt) : fan (o + t) (l.map (· + t)) = fan o l := by
  induction l with
  | nil => rfl
  | cons a l ih =>
    cases l with
    | nil => rfl
    | cons b l =>
      simp only [List.map_cons, fan, add_sub_add_right_eq_sub] at ih ⊢
      rw [ih]

/-- C39: translation does not change `computeArea`. -/
theorem area_translate (l : List Pt) (t : Pt) : computeArea (l.map (· + t)) = computeArea l := by
  cases l with
  | nil => rfl
  | cons o l => rw [List.map_cons, computeArea_fan, computeArea_fan, fan_translate]

theorem fan_append (o x : Pt) (l l' : List Pt) : fan o (l ++ x :: l') = fan o (l ++ [x]) + fan o (x :: l') := by
  induction l with
  | nil => simp [fan]
  | cons a l ih =>
    cases l with
    | nil => simp [fan]
    | cons b l =>
      simp only [List.cons_append, fan] at ih ⊢
      rw [ih]; ring

/-- C39: additive: cutting a polygon along a diagonal from its first vertex splits the area. -/
theorem area_additive (o x : Pt) (l l' : List Pt) :
    computeArea (o :: l ++ x :: l') = computeArea (o :: l ++ [x]) + computeArea (o :: x :: l') := by
  simp only [List.cons_append, computeArea_fan]
  rw [fan_append]; ring

theorem fan_reverse (o : Pt) (l : List Pt) : fan o l.reverse = - fan o l := by
  induction l with
  | nil => simp [fan]
  | cons a l ih =>
    cases l with
    | nil => simp [fan]
    | cons b l =>
      rw [List.reverse_cons, List.reverse_cons, List.append_assoc, List.cons_append, List.nil_append, fan_append,
        ← List.reverse_cons, ih]
      simp [fan, cross]; ring

theorem shoelace_rotate (l : List Pt) : shoelace (l.rotate 1) = shoelace l := by
  unfold shoelace
  rw [List.zip, ← List.zipWith_rotate_distrib _ _ _ _ (by simp), List.map_rotate]
  exact (List.rotate_perm _ _).sum_eq

/-- C39: the other orientation changes the sign. -/
theorem area_reverse (l : List Pt) : computeArea l.reverse = - computeArea l := by
  cases l with
  | nil => simp [computeArea]
  | cons o l =>
    have h1 : computeArea (o :: l).reverse = 1 / 2 * fan o l.reverse := by
      rw [← computeArea_fan, area_shoelace _ (by simp), area_shoelace _ (by simp), List.reverse_cons]
      congr 1
      rw [← shoelace_rotate (o :: l.reverse)]
      simp
    rw [h1, fan_reverse, computeArea_fan]; ring

/-- Non-vacuity: the unit square. -/
example : computeArea [(0, 0), (1, 0), (1, 1), (0, 1)] = 1 := by
  rw [computeArea_fan]; simp [fan, cross]; norm_num

/-! ## Bin lookup -/

namespace Spec

/-- `n + 1` evenly spaced edges from `e0` in steps `d` (negative for a descending grid). -/
noncomputable def edges (n : Nat) (e0 d : ℝ) : List ℝ := (List.range (n + 1)).map fun (k : Nat) => e0 + k * d

end Spec

theorem edges_shape (n : Nat) (e0 d : ℝ) : ∃ rest, edges (n + 1) e0 d = e0 :: (e0 + d) :: rest ∧
    ((e0 + d) :: rest).getLastD (e0 + d) = e0 + (n + 1 : ℕ) * d := by
  refine ⟨(List.range n).map fun (k : Nat) => e0 + ((k + 2 : ℕ) : ℝ) * d, ?_, ?_⟩
  · unfold Spec.edges
    rw [List.range_succ_eq_map, List.range_succ_eq_map]
    simp [Function.comp_def, List.map_map]
    intro k _; left; ring
  · cases n with
    | zero => simp
    | succ n =>
      rw [List.range_succ, List.map_append, List.getLastD_cons, List.map_singleton, List.getLastD_concat]

theorem ztol_pos : 0 < ztol := by unfold ztol; norm_num

theorem cell_up (n : Nat) (e0 x : ℝ) {d : ℝ} (hd : 0 < d) : cellIndices (edges (n + 1) e0 d) x =
    some ⌊((if x ≥ e0 + (n + 1 : ℕ) * d - ztol then x - ztol else x) - e0) / d⌋ := by
  obtain ⟨rest, h1, h2⟩ := edges_shape n e0 d
  rw [h1, cellIndices]
  simp only [h2, add_sub_cancel_left, gt_iff_lt, if_pos hd]

theorem cell_down (n : Nat) (e0 x : ℝ) {d : ℝ} (hd : d < 0) : cellIndices (edges (n + 1) e0 d) x =
    some (⌈((if x ≤ e0 + (n + 1 : ℕ) * d + ztol then x + ztol else x) - e0) / d⌉ - 1) := by
  obtain ⟨rest, h1, h2⟩ := edges_shape n e0 d
  rw [h1, cellIndices]
  simp only [h2, add_sub_cancel_left, gt_iff_lt, if_pos hd, if_neg (not_lt.2 hd.le)]

/-- C42, ascending edges at least two tolerances apart, a point of the grid: the index `i` of the bin with
`edge i ≤ x < edge (i + 1)`, where the last edge counts to the last bin. -/
theorem bin_up_partial (n : Nat) (e0 x : ℝ) {d : ℝ} (hd : 2 * ztol ≤ d) (h0 : e0 ≤ x) (h1 : x ≤ e0 + (n + 1 : ℕ) * d) :
    ∃ i : Nat, cellIndices (edges (n + 1) e0 d) x = some (i : Int) ∧ i ≤ n ∧ e0 + i * d ≤ x ∧
      (x < e0 + (i + 1) * d ∨ (i = n ∧ x = e0 + (n + 1 : ℕ) * d)) := by
  have hz := ztol_pos
  have hd' : 0 < d := by linarith
  rw [cell_up n e0 x hd']
  push_cast at h1 ⊢
  have hdn : 0 ≤ (n : ℝ) * d := by positivity
  by_cases hx : x ≥ e0 + (n + 1) * d - ztol
  · rw [if_pos hx]
    refine ⟨n, ?_, le_rfl, by nlinarith, ?_⟩
    · rw [Option.some.injEq, Int.floor_eq_iff, le_div_iff₀ hd', div_lt_iff₀ hd']
      push_cast
      constructor <;> nlinarith
    · rcases h1.lt_or_eq with h | h
      · exact Or.inl h
      · exact Or.inr ⟨rfl, h⟩
  · rw [if_neg hx]
    push Not at hx
    have hf : 0 ≤ ⌊(x - e0) / d⌋ := Int.floor_nonneg.2 (div_nonneg (by linarith) hd'.le)
    obtain ⟨i, hi⟩ := Int.eq_ofNat_of_zero_le hf
    have hfl := Int.floor_eq_iff.1 hi
    rw [le_div_iff₀ hd', div_lt_iff₀ hd'] at hfl
    push_cast at hfl
    refine ⟨i, by rw [hi], ?_, by linarith [hfl.1], Or.inl (by linarith [hfl.2])⟩
    by_contra hc
    have : (n : ℝ) + 1 ≤ i := by exact_mod_cast (by omega : n + 1 ≤ i)
    nlinarith [hfl.1]

/-- C42: points before the first edge get a negative index, points beyond the last one (by the tolerance) an index
past the last bin. -/
theorem bin_up_outside (n : Nat) (e0 x : ℝ) {d : ℝ} (hd : 2 * ztol ≤ d) (h : x < e0 ∨ e0 + (n + 1 : ℕ) * d + ztol ≤ x) :
    ∃ i : Int, cellIndices (edges (n + 1) e0 d) x = some i ∧ (i < 0 ∨ (n : Int) < i) := by
  have hz := ztol_pos
  have hd' : 0 < d := by linarith
  rw [cell_up n e0 x hd']
  refine ⟨_, rfl, ?_⟩
  push_cast at h ⊢
  have hdn : 0 ≤ (n : ℝ) * d := by positivity
  rcases h with h | h
  · left
    rw [if_neg (by nlinarith), Int.floor_lt, div_lt_iff₀ hd']
    push_cast; linarith
  · right
    rw [if_pos (by linarith), ← Int.add_one_le_iff, Int.le_floor, le_div_iff₀ hd']
    push_cast; linarith

/-- C42, descending edges more than two tolerances apart: every point of the grid except the first edge gets the bin with
`edge (i + 1) ≤ x < edge i`. -/
theorem bin_down_partial (n : Nat) (e0 x : ℝ) {d : ℝ} (hd : d < -(2 * ztol)) (h0 : x < e0)
    (h1 : e0 + (n + 1 : ℕ) * d ≤ x) :
    ∃ i : Nat, cellIndices (edges (n + 1) e0 d) x = some (i : Int) ∧ i ≤ n ∧ x < e0 + i * d ∧ e0 + (i + 1) * d ≤ x := by
  have hz := ztol_pos
  have hd' : d < 0 := by linarith
  rw [cell_down n e0 x hd']
  push_cast at h1 ⊢
  have hdn : (n : ℝ) * d ≤ 0 := by nlinarith [show (0 : ℝ) ≤ n by positivity]
  by_cases hx : x ≤ e0 + (n + 1) * d + ztol
  · rw [if_pos hx]
    refine ⟨n, ?_, le_rfl, by nlinarith, h1⟩
    rw [Option.some.injEq, sub_eq_iff_eq_add, Int.ceil_eq_iff, div_le_iff_of_neg hd', lt_div_iff_of_neg hd']
    push_cast
    constructor <;> nlinarith
  · rw [if_neg hx]
    push Not at hx
    have hf : 0 < ⌈(x - e0) / d⌉ := Int.ceil_pos.2 (div_pos_of_neg_of_neg (by linarith) hd')
    obtain ⟨i, hi⟩ := Int.eq_ofNat_of_zero_le (show 0 ≤ ⌈(x - e0) / d⌉ - 1 by omega)
    have hfl := Int.ceil_eq_iff.1 (sub_eq_iff_eq_add.1 hi)
    rw [div_le_iff_of_neg hd', lt_div_iff_of_neg hd'] at hfl
    push_cast at hfl
    refine ⟨i, by rw [hi], ?_, by linarith [hfl.1], by linarith [hfl.2]⟩
    by_contra hc
    have : (n : ℝ) + 1 ≤ i := by exact_mod_cast (by omega : n + 1 ≤ i)
    nlinarith [hfl.1]

/-- C42 fails at the first edge of a descending grid: the index is -1. -/
theorem bin_down_first (n : Nat) (e0 : ℝ) {d : ℝ} (hd : d ≤ -(2 * ztol)) :
    cellIndices (edges (n + 1) e0 d) e0 = some (-1) := by
  have hz := ztol_pos
  rw [cell_down n e0 e0 (by linarith)]
  have hdn : (n : ℝ) * d ≤ 0 := by nlinarith [show (0 : ℝ) ≤ n by positivity]
  rw [if_neg (by push_cast; nlinarith)]
  simp

/-- C42 fails for bins narrower than two tolerances: in bins of one tolerance, 3/2 of it is put in bin 0. -/
theorem bin_narrow : cellIndices (edges 2 0 ztol) (3 / 2 * ztol) = some 0 := by
  have hz := ztol_pos
  rw [cell_up 1 0 _ hz, if_pos (by push_cast; linarith), Option.some.injEq, Int.floor_eq_iff, le_div_iff₀ hz, div_lt_iff₀ hz]
  constructor <;> push_cast <;> linarith

theorem truncate_pos {x : ℝ} (k : Int) (h0 : 0 ≤ x) (h1 : (k : ℝ) ≤ x) (h2 : x < k + 1) : truncate x = k := by
  rw [truncate, if_pos h0, Int.floor_eq_iff]; exact ⟨h1, h2⟩

/-- C42 fails for integer points: with the edges 0, 1/2, 1 the last edge 1 is put in bin 0, because subtracting the
tolerance in an integer array takes away a whole 1; with the edges -2, -1 the last edge is put in bin 1, which does
not exist. -/
theorem bin_integers : cellIndicesInt [0, 1 / 2, 1] 1 = some 0 ∧ cellIndicesInt [-2, -1] (-1) = some 1 := by
  have hz : ztol = 1 / 67108864 := rfl
  constructor
  · have e : truncate (((1 : Int) : ℝ) - ztol) = 0 :=
      truncate_pos 0 (by rw [hz]; norm_num) (by rw [hz]; norm_num) (by rw [hz]; norm_num)
    rw [cellIndicesInt]
    simp only [List.getLastD_cons]
    rw [if_pos (by norm_num), if_pos (by rw [hz]; norm_num), e]
    norm_num
  · have e : truncate (((-1 : Int) : ℝ) - ztol) = -1 := by
      rw [truncate, if_neg (by rw [hz]; norm_num), Int.ceil_eq_iff, hz]; norm_num
    rw [cellIndicesInt]
    simp only [List.getLastD_cons, List.getLastD_nil]
    rw [if_pos (by norm_num), if_pos (by rw [hz]; norm_num), e]
    norm_num

/-- Non-vacuity: the example of the docstring. -/
example : cellIndices (edges 4 1 1) (5 / 2) = some 1 ∧ cellIndices (edges 4 5 (-1)) (5 / 2) = some 2 := by
  have hz : ztol = 1 / 67108864 := rfl
  constructor
  · rw [cell_up 3 1 _ (by norm_num), if_neg (by rw [hz]; norm_num), Option.some.injEq, Int.floor_eq_iff]; norm_num
  · rw [cell_down 3 5 _ (by norm_num), if_neg (by rw [hz]; norm_num), Option.some.injEq, sub_eq_iff_eq_add, Int.ceil_eq_iff]
    norm_num

/-! ## Tolerance grids -/

namespace Spec

/-- A grid of `n + 1` points a step `h` apart that is symmetric about zero. -/
def SymmetricUniform (n : Nat) (h : ℝ) (l : List ℝ) : Prop :=
  l.length = n + 1 ∧ (∀ k, k < n → l.getD (k + 1) 0 - l.getD k 0 = h) ∧ ∀ k, k ≤ n → l.getD (n - k) 0 = - l.getD k 0

end Spec

theorem getD_map_range (f : Nat → ℝ) {n k : Nat} (h : k < n) : ((List.range n).map f).getD k 0 = f k := by
  rw [List.getD_eq_getElem?_getD, List.getElem?_map, List.getElem?_range h]; rfl

theorem ceil_quot_pos {b w : ℝ} (hb : 0 < b) (hw : 0 < w) : 1 ≤ ⌈w / min b w⌉ :=
  Int.one_le_ceil_iff.2 (div_pos hw (lt_min hb hw))

/-- The number of divisions of a two-sided grid. -/
theorem ndiv_two_sided {w b : ℝ} (hb : 0 < b) (hw : 0 < w) (s : Nat) :
    (((truncate ((s : ℝ) * (⌈w / b⌉ : ℝ))).toNat : ℕ) : ℝ) = s * (⌈w / b⌉ : ℝ) := by
  have h0 : 0 ≤ ⌈w / b⌉ := Int.ceil_nonneg (div_nonneg hw.le hb.le)
  have e : ((s : ℝ) * (⌈w / b⌉ : ℝ)) = (((s : Int) * ⌈w / b⌉ : Int) : ℝ) := by push_cast; rfl
  have h1 : (0 : ℝ) ≤ (s : ℝ) * (⌈w / b⌉ : ℝ) := mul_nonneg (by positivity) (by exact_mod_cast h0)
  rw [truncate, if_pos h1, e, Int.floor_intCast]
  have h2 : 0 ≤ (s : Int) * ⌈w / b⌉ := mul_nonneg (by omega) h0
  have h3 := Int.toNat_of_nonneg h2
  exact_mod_cast congrArg (fun z : Int => (z : ℝ)) h3

/-- The window after the optional adjustment: rounded up to whole bins. -/
noncomputable def window (b w : ℝ) (adj : Bool) : ℝ := if adj then (⌈w / min b w⌉ : ℝ) * min b w else w

theorem window_pos {b w : ℝ} (hb : 0 < b) (hw : 0 < w) (adj : Bool) : 0 < window b w adj := by
  unfold window
  split
  · exact mul_pos (by exact_mod_cast ceil_quot_pos hb hw) (lt_min hb hw)
  · exact hw

/-- The adjusted window is a whole number of bins and exceeds the window by less than a bin. -/
theorem window_adjusted {b w : ℝ} (hb : 0 < b) (hw : 0 < w) :
    (∃ k : Int, window b w true = k * min b w) ∧ w ≤ window b w true ∧ window b w true < w + min b w := by
  have hm := lt_min hb hw
  refine ⟨⟨_, rfl⟩, ?_, ?_⟩ <;> simp only [window, if_true]
  · have := Int.le_ceil (w / min b w); rwa [div_le_iff₀ hm] at this
  · have := Int.ceil_lt_add_one (w / min b w)
    rw [← sub_lt_iff_lt_add, lt_div_iff₀ hm] at this
    linarith

/-- C41, two-sided: `ndiv + 1` evenly spaced points symmetric about zero, from minus to plus half the window. -/
theorem grid_two_sided {b w : ℝ} (hb : 0 < b) (hw : 0 < w) {s : Nat} (hs : 0 < s) (adj : Bool) :
    let (n, l) := makeToleranceGrid b w s adj false
    0 < n ∧ SymmetricUniform n (window b w adj / n) l ∧ l.getD 0 0 = -(window b w adj / 2) ∧
      l.getD n 0 = window b w adj / 2 := by
  have hW := window_pos hb hw adj
  have hm := lt_min hb hw
  have hn := ndiv_two_sided hm hW s
  set n := (truncate ((s : ℝ) * (⌈window b w adj / min b w⌉ : ℝ))).toNat with hndef
  have e : makeToleranceGrid b w s adj false = (n, (List.range (n + 1)).map fun (k : Nat) =>
      (k : ℝ) * window b w adj / n - 1 / 2 * window b w adj) := by
    simp only [makeToleranceGrid, Bool.false_eq_true, if_false]; rfl
  have hpos : 0 < (n : ℝ) := by
    rw [hn]
    exact mul_pos (by exact_mod_cast hs) (by exact_mod_cast Int.ceil_pos.2 (div_pos hW hm))
  rw [e]
  refine ⟨by exact_mod_cast hpos, ⟨by simp, ?_, ?_⟩, ?_, ?_⟩
  · intro k hk
    rw [getD_map_range _ (by omega), getD_map_range _ (by omega)]
    push_cast; field_simp; ring
  · intro k hk
    rw [getD_map_range _ (by omega), getD_map_range _ (by omega), Nat.cast_sub hk]
    field_simp; ring
  · rw [getD_map_range _ (by omega)]; push_cast; ring
  · rw [getD_map_range _ (by omega)]; field_simp; ring

/-- C41: with one subdivision and the adjusted window, the step of a two-sided grid is the bin width. -/
theorem grid_step {b w : ℝ} (hb : 0 < b) (hw : 0 < w) :
    window b w true / ((makeToleranceGrid b w 1 true false).1 : ℝ) = min b w := by
  have hm := lt_min hb hw
  have hn := ndiv_two_sided hm (window_pos hb hw true) 1
  have e : ((makeToleranceGrid b w 1 true false).1 : ℝ) = (1 : ℕ) * (⌈window b w true / min b w⌉ : ℝ) := by
    rw [← hn]; rfl
  have hc : (0 : ℝ) < (⌈w / min b w⌉ : ℝ) := by exact_mod_cast (ceil_quot_pos hb hw)
  have e2 : window b w true / min b w = (⌈w / min b w⌉ : ℝ) := by
    simp only [window, if_true]; field_simp
  rw [e, e2, Int.ceil_intCast]
  simp only [window, if_true]
  push_cast
  field_simp

/-- C41, one-sided: `ndiv + 1` points a bin apart, symmetric about zero, out to the largest whole number of bins within
the window on each side (the whole window when it was adjusted). -/
theorem grid_one_sided {b w : ℝ} (hb : 0 < b) (hw : 0 < w) (s : Nat) (adj : Bool) :
    let (n, l) := makeToleranceGrid b w s adj true
    SymmetricUniform n (min b w) l ∧ l.getD n 0 ≤ window b w adj ∧ window b w adj < l.getD n 0 + min b w ∧
      (adj = true → l.getD n 0 = window b w true) := by
  have hW := window_pos hb hw adj
  have hm := lt_min hb hw
  set n := (truncate (window b w adj / min b w)).natAbs with hndef
  have e : makeToleranceGrid b w s adj true = (2 * n, (List.range (2 * n + 1)).map fun (k : Nat) =>
      ((k : ℝ) - n) * min b w) := by
    simp only [makeToleranceGrid, if_true]; rfl
  have hn : (n : ℝ) = (⌊window b w adj / min b w⌋ : ℝ) := by
    have h0 : 0 ≤ window b w adj / min b w := div_nonneg hW.le hm.le
    have h1 : 0 ≤ ⌊window b w adj / min b w⌋ := Int.floor_nonneg.2 h0
    rw [hndef, truncate, if_pos h0]
    rw [Nat.cast_natAbs, abs_of_nonneg h1]
  have hlast : ((List.range (2 * n + 1)).map fun (k : Nat) => ((k : ℝ) - n) * min b w).getD (2 * n) 0 = n * min b w := by
    rw [getD_map_range _ (by omega)]; push_cast; ring
  rw [e]
  refine ⟨⟨by simp, ?_, ?_⟩, ?_, ?_, ?_⟩
  · intro k hk
    rw [getD_map_range _ (by omega), getD_map_range _ (by omega)]
    push_cast; ring
  · intro k hk
    rw [getD_map_range _ (by omega), getD_map_range _ (by omega), Nat.cast_sub hk]
    push_cast; ring
  · rw [hlast, hn, ← le_div_iff₀ hm]; exact Int.floor_le _
  · rw [hlast, hn]
    have := Int.lt_floor_add_one (window b w adj / min b w)
    rw [div_lt_iff₀ hm] at this
    linarith
  · intro ha
    subst ha
    rw [hlast, hn]
    have : window b w true / min b w = (⌈w / min b w⌉ : ℝ) := by simp only [window, if_true]; field_simp
    rw [this, Int.floor_intCast]; simp [window]

/-- Non-vacuity: a bin of 1/2 in a window of 2. -/
example : (makeToleranceGrid (1 / 2) 2 1 false false).1 = 4 := by
  have h := ndiv_two_sided (w := 2) (b := min (1 / 2) 2) (by norm_num) (by norm_num) 1
  have e : ⌈(2 : ℝ) / min (1 / 2) 2⌉ = 4 := by rw [Int.ceil_eq_iff]; norm_num
  rw [e] at h
  have : ((makeToleranceGrid (1 / 2) 2 1 false false).1 : ℝ) = 4 := by
    simp only [makeToleranceGrid, Bool.false_eq_true, if_false]
    rw [e, h]; norm_num
  exact_mod_cast this

/-! ### Centroids of cells -/

theorem centroid_fold (crd : Nat → Pt) (con : List Nat) (a : Pt) :
    con.foldl (fun (a : Pt) k => (a.1 + (crd k).1, a.2 + (crd k).2)) a =
      (a.1 + (con.map fun k => (crd k).1).sum, a.2 + (con.map fun k => (crd k).2).sum) := by
  induction con generalizing a with
  | nil => simp
  | cons k con ih => rw [List.foldl_cons, ih]; simp [add_assoc]

/-- C39: the centroid of a cell is the mean of its corners, coordinate by coordinate. -/
theorem centroid_mean (crd : Nat → Pt) {con : List Nat} (h : con ≠ []) :
    con.length * (cellCentroid crd con).1 = (con.map fun k => (crd k).1).sum ∧
      con.length * (cellCentroid crd con).2 = (con.map fun k => (crd k).2).sum := by
  have hl : (con.length : ℝ) ≠ 0 := by
    have := List.length_pos_iff.2 h
    positivity
  simp only [cellCentroid, centroid_fold, zero_add]
  constructor <;> field_simp

/-- C39: so it moves with the cell. -/
theorem centroid_translate (crd : Nat → Pt) {con : List Nat} (h : con ≠ []) (t : Pt) :
    cellCentroid (fun k => crd k + t) con = cellCentroid crd con + t := by
  have hl : (con.length : ℝ) ≠ 0 := by
    have := List.length_pos_iff.2 h
    positivity
  have hs : ∀ (f : Nat → ℝ) (c : ℝ), (con.map fun k => f k + c).sum = (con.map f).sum + con.length * c := by
    intro f c
    clear h hl
    induction con with
    | nil => simp
    | cons a con ih => simp [ih]; ring
  ext
  · have e := (centroid_mean (fun k => crd k + t) h).1
    simp only [Prod.fst_add, hs, ← (centroid_mean crd h).1] at e
    rw [← mul_add] at e
    exact mul_left_cancel₀ hl e
  · have e := (centroid_mean (fun k => crd k + t) h).2
    simp only [Prod.snd_add, hs, ← (centroid_mean crd h).2] at e
    rw [← mul_add] at e
    exact mul_left_cancel₀ hl e

/-- The unit square. -/
example : cellCentroid (fun k => [(0, 0), (1, 0), (1, 1), (0, 1)].getD k (0, 0)) [0, 1, 2, 3] = (1 / 2, 1 / 2) := by
  simp [cellCentroid]; norm_num

end Hexrd.Grid
