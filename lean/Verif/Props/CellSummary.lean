import Verif.Spec.CellSummary
import Mathlib.Tactic.Linarith
import Mathlib.Tactic.Ring
import Mathlib.Tactic.FieldSimp
import Mathlib.Tactic.FinCases
import Mathlib.Tactic.NormNum

/-! # C172: density, reflections below an angle and symmetry directions -/
namespace Hexrd.CellSummary

theorem fold_addSite (weight : ℕ → ℝ) (sites : List Site) : ∀ acc, sites.foldl (addSite weight) acc =
    (acc.1 + Spec.total weight sites, acc.2 + (sites.map fun s => (s.num : ℝ) * s.z).sum) := by
  induction sites with
  | nil => intro acc; simp [Spec.total]
  | cons s l ih =>
    intro acc
    rw [List.foldl_cons, ih]
    simp only [addSite, Spec.total, List.map_cons, List.sum_cons, Spec.atoms, Prod.mk.injEq]
    constructor <;> ring

theorem natom_total (sites : List Site) : (sites.map fun s => (s.num : ℝ) * s.occ).sum = Spec.total (fun _ => 1) sites := by
  simp [Spec.total, Spec.atoms]

/-- **C172** the density times the volume is the mass of the atoms in the cell, each counted with its occupation. -/
theorem density_mass (weight : ℕ → ℝ) (na vol : ℝ) (sites : List Site) (hv : vol ≠ 0) (hn : na ≠ 0) :
    (calcDensity weight na vol sites).1 * (vol * 1.0e-21) = Spec.total weight sites / na := by
  simp only [calcDensity, fold_addSite]
  field_simp
  ring

/-- **C172** the mean atomic weight is the mean over the atoms in the cell. -/
theorem avA_mean (weight : ℕ → ℝ) (na vol : ℝ) (sites : List Site) : (calcDensity weight na vol sites).2.1 = Spec.mean weight sites := by
  simp only [calcDensity, fold_addSite, natom_total, zero_add, Spec.mean]

/-- **C172** an entry may be split in two that share its occupation. -/
theorem density_split (weight : ℕ → ℝ) (na vol : ℝ) (a b : List Site) (z num : ℕ) (o p : ℝ) :
    (calcDensity weight na vol (a ++ ⟨z, num, o + p⟩ :: b)).1 = (calcDensity weight na vol (a ++ ⟨z, num, o⟩ :: ⟨z, num, p⟩ :: b)).1 ∧
    (calcDensity weight na vol (a ++ ⟨z, num, o + p⟩ :: b)).2.1 = (calcDensity weight na vol (a ++ ⟨z, num, o⟩ :: ⟨z, num, p⟩ :: b)).2.1 := by
  have h : ∀ q : ℕ → ℝ, Spec.total q (a ++ ⟨z, num, o + p⟩ :: b) = Spec.total q (a ++ ⟨z, num, o⟩ :: ⟨z, num, p⟩ :: b) := by
    intro q; simp [Spec.total, Spec.atoms]; ring
  constructor
  · simp only [calcDensity, fold_addSite, h]
  · rw [avA_mean, avA_mean, Spec.mean, Spec.mean, h, h]

theorem total_bounds (q : ℕ → ℝ) (lo hi : ℝ) (sites : List Site) (ho : ∀ s ∈ sites, 0 ≤ s.occ) (hq : ∀ s ∈ sites, lo ≤ q s.z ∧ q s.z ≤ hi) :
    lo * Spec.total (fun _ => 1) sites ≤ Spec.total q sites ∧ Spec.total q sites ≤ hi * Spec.total (fun _ => 1) sites := by
  induction sites with
  | nil => simp [Spec.total]
  | cons s l ih =>
    obtain ⟨i1, i2⟩ := ih (fun x hx => ho x (List.mem_cons_of_mem _ hx)) (fun x hx => hq x (List.mem_cons_of_mem _ hx))
    have ha : 0 ≤ Spec.atoms s := mul_nonneg (Nat.cast_nonneg _) (ho s (List.mem_cons_self ..))
    obtain ⟨q1, q2⟩ := hq s (List.mem_cons_self ..)
    simp only [Spec.total, List.map_cons, List.sum_cons] at i1 i2 ⊢
    constructor <;> nlinarith [mul_le_mul_of_nonneg_left q1 ha, mul_le_mul_of_nonneg_left q2 ha]

/-- **C172** the mean atomic weight lies between the smallest and the largest weight in the cell. -/
theorem avA_bounds (weight : ℕ → ℝ) (na vol lo hi : ℝ) (sites : List Site) (ho : ∀ s ∈ sites, 0 ≤ s.occ)
    (hq : ∀ s ∈ sites, lo ≤ weight s.z ∧ weight s.z ≤ hi) (hp : 0 < Spec.total (fun _ => 1) sites) :
    lo ≤ (calcDensity weight na vol sites).2.1 ∧ (calcDensity weight na vol sites).2.1 ≤ hi := by
  rw [avA_mean, Spec.mean, le_div_iff₀ hp, div_le_iff₀ hp]
  exact total_bounds weight lo hi sites ho hq

/-- **C172** the mean atomic number is the mean over the atoms in the cell, if all entries have the same occupation. Missing: other
occupations, for which it is false. -/
theorem avZ_mean_partial (weight : ℕ → ℝ) (na vol o : ℝ) (sites : List Site) (ho : o ≠ 0) (h : ∀ s ∈ sites, s.occ = o) :
    (calcDensity weight na vol sites).2.2 = Spec.mean (fun z => (z : ℝ)) sites := by
  have e : ∀ q : ℕ → ℝ, Spec.total q sites = o * (sites.map fun s => (s.num : ℝ) * q s.z).sum := by
    intro q
    rw [← List.sum_map_mul_left]
    unfold Spec.total Spec.atoms
    congr 1
    apply List.map_congr_left
    intro s hs
    rw [h s hs]; ring
  simp only [calcDensity, fold_addSite, zero_add, Spec.mean, e]
  rw [mul_div_mul_left _ _ ho]
  simp

/-- **C172 is false** for partly occupied positions: half an atom of nickel and half an atom of aluminium beside a whole atom of nickel
have a mean atomic number of 24.25, the code gives 23. -/
theorem avZ_fails (weight : ℕ → ℝ) (na vol : ℝ) : (calcDensity weight na vol [⟨28, 1, 1⟩, ⟨28, 1, 1 / 2⟩, ⟨13, 1, 1 / 2⟩]).2.2 = 23 ∧
    Spec.mean (fun z => (z : ℝ)) [⟨28, 1, 1⟩, ⟨28, 1, 1 / 2⟩, ⟨13, 1, 1 / 2⟩] = 24.25 := by
  constructor
  · simp only [calcDensity, fold_addSite]; norm_num
  · norm_num [Spec.mean, Spec.total, Spec.atoms]

/-- A cell that meets the hypotheses of the bounds. -/
example : 0 < Spec.total (fun _ => 1) [⟨28, 1, 1⟩, ⟨13, 3, 1 / 2⟩] := by norm_num [Spec.total, Spec.atoms]

theorem byAngle_iff (thr : ℝ) (r : Refl) : byAngle thr r = false ↔ ∃ t, r.tth = some t ∧ 0 ≤ t ∧ t ≤ thr := by
  unfold byAngle
  cases h : r.tth <;> simp

/-- **C172** with reflections from a file those are used that the file names and whose angle is at most the threshold. -/
theorem below_file (f : List (ℤ × ℤ × ℤ)) (thr : ℝ) (l : List Refl) : ∃ e, enableBelow (some f) thr l = some e ∧ e.length = l.length ∧
    ∀ (i : ℕ) (r : Refl), l[i]? = some r → (e[i]? = some false ↔ r.hkl ∈ f ∧ ∃ t, r.tth = some t ∧ 0 ≤ t ∧ t ≤ thr) := by
  refine ⟨_, rfl, by simp, fun i r h => ?_⟩
  simp [h, byAngle_iff]

/-- **C172** without a file those are used whose angle is at most the threshold, apart from the first. Missing: the first reflection,
for which it is false. -/
theorem below_partial (thr : ℝ) (l : List Refl) (hl : l ≠ []) : ∃ e, enableBelow none thr l = some e ∧ e.length = l.length ∧
    ∀ (i : ℕ) (r : Refl), 0 < i → l[i]? = some r → (e[i]? = some false ↔ ∃ t, r.tth = some t ∧ 0 ≤ t ∧ t ≤ thr) := by
  obtain ⟨a, l, rfl⟩ := List.exists_cons_of_ne_nil hl
  refine ⟨false :: l.map (byAngle thr), rfl, by simp, fun i r hi h => ?_⟩
  obtain ⟨j, rfl⟩ : ∃ j, i = j + 1 := ⟨i - 1, by omega⟩
  simp only [List.getElem?_cons_succ] at h ⊢
  simp [h, byAngle_iff]

/-- **C172 is false** for the first reflection: it is used whatever its angle, also if it has none; and a material without reflections
raises an exception. -/
theorem below_first_fails (thr : ℝ) (r : Refl) (l : List Refl) :
    (∃ e, enableBelow none thr (r :: l) = some (false :: e)) ∧ enableBelow none thr [] = none :=
  ⟨⟨_, rfl⟩, rfl⟩

/-- **C172** a larger threshold uses no fewer reflections. -/
theorem below_mono (file : Option (List (ℤ × ℤ × ℤ))) (thr thr' : ℝ) (h : thr ≤ thr') (l : List Refl) (e e' : List Bool)
    (he : enableBelow file thr l = some e) (he' : enableBelow file thr' l = some e') (i : ℕ) (hi : e[i]? = some false) : e'[i]? = some false := by
  have key : ∀ r, byAngle thr r = false → byAngle thr' r = false := by
    intro r hr
    rw [byAngle_iff] at hr ⊢
    obtain ⟨t, a, b, c⟩ := hr
    exact ⟨t, a, b, c.trans h⟩
  cases file with
  | some f =>
    simp only [enableBelow, Option.some.injEq] at he he'
    subst he he'
    cases hr : l[i]? with
    | none => simp [hr] at hi
    | some r =>
      simp only [List.getElem?_zipWith, List.getElem?_map, hr, Option.map_some, Option.some.injEq, Bool.or_eq_false_iff] at hi ⊢
      exact ⟨hi.1, key r hi.2⟩
  | none =>
    cases l with
    | nil => simp [enableBelow, clearFirst] at he
    | cons a l =>
      simp only [enableBelow, List.map_cons, clearFirst, Option.some.injEq] at he he'
      subst he he'
      cases i with
      | zero => rfl
      | succ i =>
        simp only [List.getElem?_cons_succ, List.getElem?_map] at hi ⊢
        cases hr : l[i]? with
        | none => simp [hr] at hi
        | some r =>
          simp only [hr, Option.map_some, Option.some.injEq] at hi ⊢
          exact key r hi

/-- Two reflections below a threshold of 1, one above it and one without an angle. -/
example : ∃ e, enableBelow none 1 [⟨(1, 1, 1), some (1 / 2)⟩, ⟨(2, 0, 0), some 1⟩, ⟨(2, 2, 0), some 2⟩, ⟨(3, 1, 1), none⟩] = some e ∧
    e[1]? = some false ∧ e[2]? = some true ∧ e[3]? = some true := by
  refine ⟨_, rfl, ?_, ?_, ?_⟩ <;> norm_num [byAngle]

theorem metric_entries {c : System} {g : Matrix (Fin 3) (Fin 3) ℝ} (h : Spec.Metric c g) : g 1 0 = g 0 1 ∧ g 2 0 = g 0 2 ∧ g 2 1 = g 1 2 :=
  ⟨congrFun (congrFun h.symm 0) 1, congrFun (congrFun h.symm 0) 2, congrFun (congrFun h.symm 1) 2⟩

macro "axis " r:term : tactic => `(tactic| (
  refine ⟨$r, by decide, by decide, by decide, fun g hg => ?_⟩
  obtain ⟨s1, s2, s3⟩ := metric_entries hg
  have hs := hg.shape
  simp only at hs
  ext i j
  fin_cases i <;> fin_cases j <;> simp [Matrix.mul_apply, Fin.sum_univ_three, s1, s2, s3, hs] <;> linarith))

/-- **C172** the first direction is an axis of symmetry of the system, for all systems that have one. -/
theorem primary_axis : ∀ c : System, c ≠ .triclinic → Spec.IsAxis c (directions c).1
  | .triclinic, h => absurd rfl h
  | .monoclinic, _ => by axis !![-1, 0, 0; 0, 1, 0; 0, 0, -1]
  | .orthorhombic, _ => by axis !![1, 0, 0; 0, -1, 0; 0, 0, -1]
  | .tetragonal, _ => by axis !![-1, 0, 0; 0, -1, 0; 0, 0, 1]
  | .trigonal, _ => by axis !![-1, 0, 0; 0, -1, 0; 0, 0, 1]
  | .hexagonal, _ => by axis !![-1, 0, 0; 0, -1, 0; 0, 0, 1]
  | .cubic, _ => by axis !![-1, 0, 0; 0, -1, 0; 0, 0, 1]

/-- **C172** the second direction is an axis of symmetry of the system, for all systems that have axes in more than one direction. -/
theorem secondary_axis : ∀ c : System, c ≠ .triclinic → c ≠ .monoclinic → Spec.IsAxis c (directions c).2.1
  | .triclinic, h, _ => absurd rfl h
  | .monoclinic, _, h => absurd rfl h
  | .orthorhombic, _, _ => by axis !![-1, 0, 0; 0, 1, 0; 0, 0, -1]
  | .tetragonal, _, _ => by axis !![1, 0, 0; 0, -1, 0; 0, 0, -1]
  | .trigonal, _, _ => by axis !![1, -1, 0; 0, -1, 0; 0, 0, -1]
  | .hexagonal, _, _ => by axis !![1, -1, 0; 0, -1, 0; 0, 0, -1]
  | .cubic, _, _ => by axis !![0, 0, 1; 1, 0, 0; 0, 1, 0]

/-- **C172** so is the third direction. Missing: orthorhombic crystals, for which it is false. -/
theorem tertiary_axis_partial : ∀ c : System, c ≠ .triclinic → c ≠ .monoclinic → c ≠ .orthorhombic → Spec.IsAxis c (directions c).2.2
  | .triclinic, h, _, _ => absurd rfl h
  | .monoclinic, _, h, _ => absurd rfl h
  | .orthorhombic, _, _, h => absurd rfl h
  | .tetragonal, _, _, _ => by axis !![0, 1, 0; 1, 0, 0; 0, 0, -1]
  | .trigonal, _, _, _ => by axis !![-1, 1, 0; 0, 1, 0; 0, 0, -1]
  | .hexagonal, _, _, _ => by axis !![-1, 1, 0; 0, 1, 0; 0, 0, -1]
  | .cubic, _, _, _ => by axis !![0, 1, 0; 1, 0, 0; 0, 0, -1]

theorem metric_diag (a b c : ℝ) (ha : 0 < a) (hb : 0 < b) (hc : 0 < c) : Spec.Metric .orthorhombic !![a, 0, 0; 0, b, 0; 0, 0, c] where
  symm := by ext i j; fin_cases i <;> fin_cases j <;> rfl
  pos v hv := by
    have e : dotProduct v (Matrix.mulVec !![a, 0, 0; 0, b, 0; 0, 0, c] v) = a * v 0 ^ 2 + b * v 1 ^ 2 + c * v 2 ^ 2 := by
      simp [dotProduct, Matrix.mulVec, Fin.sum_univ_three]; ring
    rw [e]
    by_contra hn
    apply hv
    have h0 := mul_nonneg ha.le (sq_nonneg (v 0))
    have h1 := mul_nonneg hb.le (sq_nonneg (v 1))
    have h2 := mul_nonneg hc.le (sq_nonneg (v 2))
    have z : ∀ (k x : ℝ), 0 < k → k * x ^ 2 = 0 → x = 0 := fun k x hk h => by
      rcases mul_eq_zero.1 h with h | h
      · exact absurd h hk.ne'
      · exact pow_eq_zero_iff (two_ne_zero) |>.1 h
    funext i
    fin_cases i
    · exact z a (v 0) ha (by linarith)
    · exact z b (v 1) hb (by linarith)
    · exact z c (v 2) hc (by linarith)
  shape := by simp

/-- **C172 is false** for the third direction of orthorhombic crystals, `[1,0,1]`: no rotation about it is a symmetry of all orthorhombic
lattices. The axis `[0,0,1]` is one. -/
theorem orthorhombic_fails : (directions .orthorhombic).2.2 = (1, 0, 1) ∧ ¬ Spec.IsAxis .orthorhombic (1, 0, 1) ∧
    Spec.IsAxis .orthorhombic (0, 0, 1) := by
  refine ⟨rfl, ?_, by axis !![-1, 0, 0; 0, -1, 0; 0, 0, 1]⟩
  rintro ⟨r, h1, hd, hf, hg⟩
  have key : ∀ (a b c : ℝ), 0 < a → 0 < b → 0 < c → ∀ j : Fin 3, a * (r 0 j : ℝ) ^ 2 + b * (r 1 j : ℝ) ^ 2 + c * (r 2 j : ℝ) ^ 2 = ![a, b, c] j := by
    intro a b c ha hb hc j
    have h := congrFun (congrFun (hg _ (metric_diag a b c ha hb hc)) j) j
    simp [Matrix.mul_apply, Fin.sum_univ_three] at h
    fin_cases j <;> simp at h ⊢ <;> linarith
  have k0 := key 1 1 1 one_pos one_pos one_pos
  have k1 := key 2 1 1 two_pos one_pos one_pos
  have k2 := key 1 2 1 one_pos two_pos one_pos
  have k3 := key 1 1 2 one_pos one_pos two_pos
  have z : ∀ x : ℤ, (x : ℝ) ^ 2 = 0 → x = 0 := fun x h => by exact_mod_cast (pow_eq_zero_iff two_ne_zero).1 h
  have e10 : r 1 0 = 0 := z _ (by have a := k0 0; have b := k2 0; simp at a b; linarith)
  have e20 : r 2 0 = 0 := z _ (by have a := k0 0; have b := k3 0; simp at a b; linarith)
  have e01 : r 0 1 = 0 := z _ (by have a := k0 1; have b := k1 1; simp at a b; linarith)
  have e21 : r 2 1 = 0 := z _ (by have a := k0 1; have b := k3 1; simp at a b; linarith)
  have e02 : r 0 2 = 0 := z _ (by have a := k0 2; have b := k1 2; simp at a b; linarith)
  have e12 : r 1 2 = 0 := z _ (by have a := k0 2; have b := k2 2; simp at a b; linarith)
  have f0 := congrFun hf 0
  have f2 := congrFun hf 2
  simp [Matrix.mulVec, dotProduct, Fin.sum_univ_three, Spec.vec, e01, e02, e20, e21] at f0 f2
  rw [Matrix.det_fin_three] at hd
  simp [e01, e02, e10, e12, e20, e21, f0, f2] at hd
  apply h1
  ext i j
  fin_cases i <;> fin_cases j <;> simp [e01, e02, e10, e12, e20, e21, f0, f2, hd]

/-- There are metrics of every system to which the axes apply, for instance a unit cube. -/
example : Spec.Metric .cubic 1 where
  symm := Matrix.transpose_one
  pos v hv := by
    have h := (metric_diag 1 1 1 one_pos one_pos one_pos).pos v hv
    have e : (!![1, 0, 0; 0, 1, 0; 0, 0, 1] : Matrix (Fin 3) (Fin 3) ℝ) = 1 := by ext i j; fin_cases i <;> fin_cases j <;> rfl
    rwa [e] at h
  shape := by simp

end Hexrd.CellSummary
