import Verif.Model.Spherical
import Verif.Spec.Spherical
import Mathlib.Tactic.Linarith
import Mathlib.Tactic.FieldSimp
import Mathlib.Tactic.Ring
import Mathlib.Tactic.Positivity
import Mathlib.Data.Real.Basic

/-!
# C164: spherical views
-/
namespace Hexrd.Spherical

theorem mem_every (skip n i : ℕ) : i ∈ every skip n ↔ Spec.Used skip n i := by
  simp [every, Spec.Used, Nat.dvd_iff_mod_eq_zero]

theorem zip_flatMap {α β γ : Type} (l : List α) (f : α → List β) (g : α → List γ) (h : ∀ a ∈ l, (f a).length = (g a).length) :
    (l.flatMap f).zip (l.flatMap g) = l.flatMap fun a => (f a).zip (g a) := by
  induction l with
  | nil => simp
  | cons a l ih =>
    rw [List.flatMap_cons, List.flatMap_cons, List.flatMap_cons, List.zip_append (h a (by simp)),
      ih fun b hb => h b (List.mem_cons_of_mem _ hb)]

theorem zip_map_const {α β : Type} (l : List α) (b : β) : l.zip (l.map fun _ => b) = l.map fun a => (a, b) := by
  induction l with
  | nil => rfl
  | cons a l ih => rw [List.map_cons, List.map_cons, List.zip_cons_cons, ih]

theorem zip_map_self {α β γ : Type} (l : List α) (f : α → β) (g : α → γ) : (l.map f).zip (l.map g) = l.map fun a => (f a, g a) := by
  induction l with
  | nil => rfl
  | cons a l ih => simp [ih]

theorem gridXY_zip {α β : Type} (x : List α) (y : List β) :
    (gridXY₁ x y).zip (gridXY₂ x y) = y.flatMap fun b => x.map fun a => (a, b) := by
  unfold gridXY₁ gridXY₂
  rw [zip_flatMap _ _ _ (by simp)]
  simp only [zip_map_const]

theorem gridIJ_zip {α β : Type} (x : List α) (y : List β) :
    (gridIJ₂ x y).zip (gridIJ₁ x y) = x.flatMap fun a => y.map fun b => (b, a) := by
  unfold gridIJ₁ gridIJ₂
  rw [zip_flatMap _ _ _ (by simp)]
  simp only [zip_map_const]

/-- **C164**: in the polar view every pixel used is paired with the projection of its own angles, and nothing else is paired. -/
theorem polarPairs_mem (dim skip nrows ncols : ℕ) (tth eta : ℕ → ℝ) (project : ℝ × ℝ → ℝ × ℝ) (q : (ℕ × ℕ) × (ℝ × ℝ)) :
    q ∈ polarPairs dim skip nrows ncols tth eta project ↔
      ∃ c r, Spec.Used skip ncols c ∧ Spec.Used skip nrows r ∧ q = ((c, r), outPixel dim (project (tth c, eta r))) := by
  have he : polarPairs dim skip nrows ncols tth eta project
      = (every skip nrows).flatMap fun r => (every skip ncols).map fun c => ((c, r), outPixel dim (project (tth c, eta r))) := by
    unfold polarPairs
    simp only [gridXY_zip, List.flatMap_map, List.map_flatMap, List.map_map]
    rw [zip_flatMap _ _ _ (by simp)]
    congr 1
    funext r
    rw [zip_map_self]; rfl
  rw [he]
  simp only [List.mem_flatMap, List.mem_map, mem_every]
  constructor
  · rintro ⟨r, hr, c, hc, rfl⟩; exact ⟨c, r, hc, hr, rfl⟩
  · rintro ⟨c, r, hc, hr, rfl⟩; exact ⟨r, hr, c, hc, rfl⟩

/-- **C164**: so is it in the view of a map of eta and omega (omega by rows), if as many etas as omegas are used and all points are
on the hemisphere that is shown. -/
theorem etaOmePairs_square_partial (dim skip netas nomes : ℕ) (eta ome : ℕ → ℝ) (project : ℝ × ℝ → Option (ℝ × ℝ))
    (hsq : every skip netas = every skip nomes) (hvis : ∀ a, (project a).isSome) (q : (ℕ × ℕ) × (ℝ × ℝ)) :
    q ∈ etaOmePairs dim skip netas nomes eta ome project ↔
      ∃ c r p, Spec.Used skip netas c ∧ Spec.Used skip nomes r ∧ project (eta c, ome r) = some p ∧ q = ((c, r), outPixel dim p) := by
  have hp : ∀ a, project a = some ((project a).getD (0, 0)) := by
    intro a
    obtain ⟨x, hx⟩ := Option.isSome_iff_exists.mp (hvis a)
    simp [hx]
  have he : etaOmePairs dim skip netas nomes eta ome project
      = (every skip nomes).flatMap fun r => (every skip netas).map fun c => ((c, r), outPixel dim ((project (eta c, ome r)).getD (0, 0))) := by
    unfold etaOmePairs
    simp only [gridIJ_zip]
    rw [show project = fun a => some ((project a).getD (0, 0)) from funext hp, List.filterMap_eq_map']
    simp only [List.flatMap_map, List.map_flatMap, List.map_map]
    rw [hsq, zip_flatMap _ _ _ (by simp)]
    congr 1
    funext r
    rw [zip_map_self]; rfl
  rw [he]
  simp only [List.mem_flatMap, List.mem_map, mem_every]
  constructor
  · rintro ⟨r, hr, c, hc, rfl⟩; exact ⟨c, r, _, hc, hr, hp _, rfl⟩
  · rintro ⟨c, r, p, hc, hr, h, rfl⟩; exact ⟨r, hr, c, hc, by rw [h]; rfl⟩

/-- The hypotheses are met with three of each. -/
example : every 10 25 = every 10 30 ∧ every 10 25 = [0, 10, 20] := by decide

/-- **C164**, against the claim for other maps: with two etas and one omega the pixel in column 0 and row 1 is used, though there is
no row 1, and it is paired with the projection of the second eta. -/
theorem etaOmePairs_shape_fails (dim : ℕ) (eta ome : ℕ → ℝ) (project : ℝ × ℝ → ℝ × ℝ) :
    etaOmePairs dim 1 2 1 eta ome (fun a => some (project a))
      = [((0, 0), outPixel dim (project (eta 0, ome 0))), ((0, 1), outPixel dim (project (eta 1, ome 0)))] := by
  have h1 : every 1 2 = [0, 1] := by decide
  have h2 : every 1 1 = [0] := by decide
  simp [etaOmePairs, h1, h2, gridIJ₁, gridIJ₂]

/-- **C164**, against the claim with hidden points: if the first of four points is hidden, its pixel is paired with the projection of
the second, and so on. -/
theorem etaOmePairs_hidden_fails (dim : ℕ) (eta ome : ℕ → ℝ) (p : ℕ → ℝ × ℝ) (project : ℝ × ℝ → Option (ℝ × ℝ))
    (h0 : project (eta 0, ome 0) = none) (h1 : project (eta 1, ome 0) = some (p 1)) (h2 : project (eta 0, ome 1) = some (p 2))
    (h3 : project (eta 1, ome 1) = some (p 3)) : etaOmePairs dim 1 2 2 eta ome project
      = [((0, 0), outPixel dim (p 1)), ((1, 0), outPixel dim (p 2)), ((0, 1), outPixel dim (p 3))] := by
  have e : every 1 2 = [0, 1] := by decide
  simp [etaOmePairs, e, gridIJ₁, gridIJ₂, h0, h1, h2, h3]

/-- Such projections exist. -/
example : ∃ (eta ome : ℕ → ℝ) (p : ℕ → ℝ × ℝ) (project : ℝ × ℝ → Option (ℝ × ℝ)), project (eta 0, ome 0) = none ∧
    project (eta 1, ome 0) = some (p 1) ∧ project (eta 0, ome 1) = some (p 2) ∧ project (eta 1, ome 1) = some (p 3) := by
  classical
  refine ⟨fun i => i, fun i => i, fun _ => (0, 0), fun a => if a = (0, 0) then none else some (0, 0), ?_, ?_, ?_, ?_⟩ <;> simp

/-- **C164**: points of length at most the root of two, the radius of the equal-area projection of a hemisphere, lie inside the
output image. -/
theorem outPixel_inside (dim : ℕ) (hd : 0 < dim) (p : ℝ × ℝ) (hp : p.1 ^ 2 + p.2 ^ 2 ≤ 2) : Spec.Inside dim (outPixel dim p) := by
  have hd' : (0 : ℝ) < dim := Nat.cast_pos.mpr hd
  have hx : |p.1| < 3 / 2 := abs_lt_of_sq_lt_sq (by nlinarith [sq_nonneg p.2]) (by norm_num)
  have hy : |p.2| < 3 / 2 := abs_lt_of_sq_lt_sq (by nlinarith [sq_nonneg p.1]) (by norm_num)
  have e1 : (outPixel dim p).1 = dim * (p.1 / 3 + 1 / 2) := by unfold outPixel; field_simp
  have e2 : (outPixel dim p).2 = dim * (1 / 2 - p.2 / 3) := by unfold outPixel; field_simp
  obtain ⟨a, b⟩ := abs_lt.mp hx
  obtain ⟨c, d⟩ := abs_lt.mp hy
  refine ⟨?_, ?_, ?_, ?_⟩
  · rw [e1]; apply mul_pos hd'; linarith
  · rw [e1]; nlinarith
  · rw [e2]; apply mul_pos hd'; linarith
  · rw [e2]; nlinarith

/-- **C164**: no two points go to one pixel position, the centre goes to the middle, x runs along the columns and y against the rows,
at `dim / 3` pixels for the unit. -/
theorem outPixel_affine (dim : ℕ) (hd : 0 < dim) (p q : ℝ × ℝ) :
    outPixel dim (0, 0) = ((dim : ℝ) / 2, (dim : ℝ) / 2) ∧ (outPixel dim p).1 - (outPixel dim q).1 = dim / 3 * (p.1 - q.1) ∧
      (outPixel dim p).2 - (outPixel dim q).2 = -(dim / 3 * (p.2 - q.2)) ∧ (outPixel dim p = outPixel dim q → p = q) := by
  have hd' : (0 : ℝ) < dim := Nat.cast_pos.mpr hd
  have h1 : (outPixel dim p).1 - (outPixel dim q).1 = dim / 3 * (p.1 - q.1) := by unfold outPixel; field_simp; ring
  have h2 : (outPixel dim p).2 - (outPixel dim q).2 = -(dim / 3 * (p.2 - q.2)) := by unfold outPixel; field_simp; ring
  refine ⟨?_, h1, h2, ?_⟩
  · unfold outPixel
    simp only [zero_div, zero_add, sub_zero]
    ext <;> simp only <;> ring
  · intro h
    rw [h, sub_self] at h1 h2
    have h3 : (dim / 3 : ℝ) ≠ 0 := by positivity
    apply Prod.ext
    · exact sub_eq_zero.mp ((mul_eq_zero.mp h1.symm).resolve_left h3)
    · exact sub_eq_zero.mp ((mul_eq_zero.mp (neg_eq_zero.mp h2.symm)).resolve_left h3)

/-- **C164**: the settings are checked: anything else than the known names is refused. -/
theorem set_refuses (v : View) (s : String) :
    ((setMapping v s).isSome ↔ s = "stereographic" ∨ s = "equal-area") ∧ ((setVectorType v s).isSome ↔ s = "d" ∨ s = "q") := by
  constructor
  · unfold setMapping; split <;> simp_all
  · unfold setVectorType; split <;> simp_all

/-- **C164**, against the claim that a setting can be changed: a name that is accepted is not stored. -/
theorem set_stores_fails : ∃ (v v' : View), setMapping v "equal-area" = some v' ∧ v'.mapping = "stereographic" :=
  ⟨mk "stereographic" "d" 512, _, rfl, rfl⟩

/-- **C164**: a single image is returned for one map, and it is the image of that map. -/
theorem warpMaps_one {I : Type} (w : ℕ → I) (ids : List ℕ) (x : I) : warpMaps w ids = some (.inl x) ↔ ∃ i, ids = [i] ∧ x = w i := by
  match ids with
  | [] => simp [warpMaps]
  | [i] => simp [warpMaps, eq_comm]
  | _ :: _ :: _ => simp [warpMaps]

/-- **C164**, against the claim for several maps: for two maps or more there is always an exception. -/
theorem warpMaps_several_fails {I : Type} (w : ℕ → I) (ids : List ℕ) : warpMaps w ids = none ↔ 2 ≤ ids.length := by
  match ids with
  | [] => simp [warpMaps]
  | [i] => simp [warpMaps]
  | _ :: _ :: _ => simp [warpMaps]

end Hexrd.Spherical
