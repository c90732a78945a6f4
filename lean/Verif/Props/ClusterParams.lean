import Verif.Spec.ClusterParams
import Mathlib.Data.List.Nodup
import Mathlib.Tactic.Linarith
import Mathlib.Tactic.Positivity
import Mathlib.Tactic.NormNum
import Mathlib.Tactic.FieldSimp
import Mathlib.Tactic.Ring

/-! # C180: parameters of the clustering -/
namespace Hexrd.ClusterParams

theorem foldl_sum (f : Panel → ℕ) (l : List Panel) : ∀ n, l.foldl (fun n p => n + f p) n = n + (l.map f).sum := by
  induction l with
  | nil => simp
  | cons p l ih => intro n; simp [ih, add_assoc]

/-- **C180** the reflections of a grain are counted on all detectors. -/
theorem reflections_eq (panels : List Panel) (i : ℕ) : reflections panels i = (Spec.all panels i).length := by
  unfold reflections Spec.all
  rw [foldl_sum fun p => (p.getD i []).length]
  simp [List.length_flatMap]

theorem count_seeds (seeds : List ℕ) (hs : seeds.Nodup) (l : List ℕ) :
    (seeds.map fun s => l.countP fun r => r == s).sum = (l.filter fun r => decide (r ∈ seeds)).length := by
  induction l with
  | nil => simp
  | cons a l ih =>
    have e : (seeds.map fun s => (a :: l).countP fun r => r == s).sum =
        (seeds.map fun s => l.countP fun r => r == s).sum + (seeds.map fun s => if a = s then 1 else 0).sum := by
      rw [← List.sum_map_add]
      congr 1
      apply List.map_congr_left
      intro s _
      simp [List.countP_cons]
    have h1 : ∀ t : List ℕ, t.Nodup → (t.map fun s => if a = s then 1 else 0).sum = if a ∈ t then 1 else 0 := by
      intro t ht
      induction t with
      | nil => simp
      | cons b t iht =>
        rw [List.nodup_cons] at ht
        rw [List.map_cons, List.sum_cons, iht ht.2]
        by_cases hab : a = b
        · subst hab; simp [ht.1]
        · simp [hab]
    rw [e, ih, h1 seeds hs, List.filter_cons]
    by_cases ha : a ∈ seeds <;> simp [ha]

/-- **C180** for different seeds, the seeded reflections are those of a family of the seeds, each counted once. -/
theorem seedReflections_partial (seeds : List ℕ) (hs : seeds.Nodup) (panels : List Panel) (i : ℕ) :
    seedReflections seeds panels i = (Spec.seeded seeds panels i).length := by
  unfold seedReflections Spec.seeded Spec.all
  rw [foldl_sum fun p => (seeds.map fun s => (p.getD i []).countP fun r => r == s).sum]
  induction panels with
  | nil => simp
  | cons p l ih =>
    simp only [List.map_cons, List.sum_cons, zero_add, List.flatMap_cons, List.filter_append, List.length_append] at ih ⊢
    rw [ih, count_seeds seeds hs]

theorem least_spec (l : List ℕ) (m : ℕ) (h : least l = some m) : m ∈ l ∧ ∀ x ∈ l, m ≤ x := by
  cases l with
  | nil => simp [least] at h
  | cons a l =>
    simp only [least, Option.some.injEq] at h
    subst h
    induction l generalizing a with
    | nil => simp
    | cons b l ih =>
      obtain ⟨h1, h2⟩ := ih (min a b)
      simp only [List.foldl_cons]
      refine ⟨?_, fun x hx => ?_⟩
      · rcases List.mem_cons.1 h1 with h | h
        · rw [h]
          rcases min_choice a b with h' | h' <;> rw [h'] <;> simp
        · simp [h]
      · have h0 := h2 (min a b) (by simp)
        rcases List.mem_cons.1 hx with rfl | hx
        · exact h0.trans (min_le_left _ _)
        · rcases List.mem_cons.1 hx with rfl | hx
          · exact h0.trans (min_le_right _ _)
          · exact h2 x (List.mem_cons_of_mem _ hx)

/-- **C180** the size of a cluster is at least two and, above that, the greatest that is at most half of the wanted part of the reflections of
every grain. -/
theorem minSamples_iff (c : ℝ) (hc : 0 ≤ c) (counts : List ℕ) (k : ℤ) (h : minSamples c counts = some k) :
    2 ≤ k ∧ ∀ j : ℤ, 2 < j → (j ≤ k ↔ ∀ n ∈ counts, (j : ℝ) ≤ c * n / 2) := by
  unfold minSamples at h
  cases hm : least counts with
  | none => simp [hm] at h
  | some m =>
    simp only [hm, Option.map_some, Option.some.injEq] at h
    subst h
    obtain ⟨h1, h2⟩ := least_spec counts m hm
    refine ⟨le_max_right _ _, fun j hj => ?_⟩
    rw [le_max_iff, Int.le_floor]
    constructor
    · rintro (h | h) n hn
      · have : (m : ℝ) ≤ n := by exact_mod_cast h2 n hn
        have := mul_le_mul_of_nonneg_left this hc
        norm_num at h
        linarith
      · omega
    · intro h
      left
      have := h m h1
      norm_num
      linarith

/-- **C180** there is a size exactly if there are grains. -/
theorem minSamples_some (c : ℝ) (counts : List ℕ) : (minSamples c counts).isSome = true ↔ counts ≠ [] := by
  cases counts <;> simp [minSamples, least]

/-- **C180** a grain of which the wanted part of the seeded reflections is found gives a cluster that is large enough. -/
theorem complete_enough (c : ℝ) (hc : 0 ≤ c) (counts : List ℕ) (k : ℤ) (h : minSamples c counts = some k) (n : ℕ) (hn : n ∈ counts) (found : ℕ)
    (hf : c * n ≤ found) (h2 : 2 ≤ found) : k ≤ found := by
  obtain ⟨-, h'⟩ := minSamples_iff c hc counts k h
  rcases le_or_gt k 2 with hk | hk
  · have : (2 : ℤ) ≤ found := by exact_mod_cast h2
    omega
  · have := (h' k hk).1 le_rfl n hn
    have hp : 0 ≤ c * n := by positivity
    have : (k : ℝ) ≤ (found : ℤ) := by push_cast; linarith
    exact_mod_cast this

/-- **C180** asking for a higher completeness never makes the clusters smaller. -/
theorem minSamples_mono (c c' : ℝ) (hcc : c ≤ c') (counts : List ℕ) (k k' : ℤ) (h : minSamples c counts = some k) (h' : minSamples c' counts = some k') :
    k ≤ k' := by
  unfold minSamples at h h'
  cases hm : least counts with
  | none => simp [hm] at h
  | some m =>
    simp only [hm, Option.map_some, Option.some.injEq] at h h'
    subst h h'
    apply max_le_max _ le_rfl
    apply Int.floor_le_floor
    have : (0 : ℝ) ≤ m := by positivity
    nlinarith

theorem roundEven_near (x : ℝ) : |(roundEven x : ℝ) - x| ≤ 1 / 2 := by
  have h1 := Int.floor_le x
  have h2 := Int.lt_floor_add_one x
  unfold roundEven
  split
  · rw [abs_le]; constructor <;> linarith
  · split
    · push_cast; rw [abs_le]; constructor <;> linarith
    · split
      · rw [abs_le]; constructor <;> linarith
      · push_cast; rw [abs_le]; constructor <;> linarith

/-- **C180** the mean number of reflections is the mean up to one half. -/
theorem meanRpg_spec (counts : List ℕ) (hn : counts ≠ []) : |(meanRpg counts : ℝ) * counts.length - counts.sum| ≤ counts.length / 2 := by
  have hl : (0 : ℝ) < counts.length := by exact_mod_cast List.length_pos_iff.2 hn
  have h := roundEven_near ((counts.sum : ℝ) / counts.length)
  have e : (meanRpg counts : ℝ) * counts.length - counts.sum = (meanRpg counts - (counts.sum : ℝ) / counts.length) * counts.length := by
    field_simp
  rw [e, abs_mul, abs_of_pos hl]
  have := mul_le_mul_of_nonneg_right h hl.le
  unfold meanRpg
  linarith

/-- **C180** if the mean is halfway between two integers, the even one is taken. -/
theorem meanRpg_tie (counts : List ℕ) (hn : counts ≠ []) (k : ℤ) (h : 2 * (counts.sum : ℤ) = (2 * k + 1) * counts.length) :
    meanRpg counts % 2 = 0 := by
  have hl : (0 : ℝ) < counts.length := by exact_mod_cast List.length_pos_iff.2 hn
  have e : (counts.sum : ℝ) / counts.length = k + 1 / 2 := by
    have h' : 2 * (counts.sum : ℝ) = (2 * k + 1) * counts.length := by exact_mod_cast h
    field_simp
    linarith
  have f : ⌊(k : ℝ) + 1 / 2⌋ = k := by
    rw [Int.floor_eq_iff]
    constructor <;> linarith
  unfold meanRpg roundEven
  rw [e, f]
  rw [if_neg (by linarith), if_neg (by linarith)]
  split <;> omega

/-- **C180** the result does not depend on the order of the detectors or of the seeds. -/
theorem parameters_perm (n : ℕ) (c : ℝ) (active fiber fiber' : List ℕ) (panels panels' : List Panel) (hp : panels.Perm panels') (ids ids' : List ℕ)
    (h1 : seedIds active fiber = some ids) (h2 : seedIds active fiber' = some ids') (hi : ids.Perm ids') :
    parameters n c active fiber panels = parameters n c active fiber' panels' := by
  have e1 : ∀ i, reflections panels i = reflections panels' i := by
    intro i
    unfold reflections
    rw [foldl_sum fun p => (p.getD i []).length, foldl_sum fun p => (p.getD i []).length, (hp.map _).sum_eq]
  have e2 : ∀ i, seedReflections ids panels i = seedReflections ids' panels' i := by
    intro i
    unfold seedReflections
    rw [foldl_sum fun p => (ids.map fun s => (p.getD i []).countP fun r => r == s).sum,
      foldl_sum fun p => (ids'.map fun s => (p.getD i []).countP fun r => r == s).sum, (hp.map _).sum_eq]
    congr 2
    apply List.map_congr_left
    intro p _
    exact (hi.map _).sum_eq
  unfold parameters
  rw [h1, h2]
  simp only [Option.bind_eq_bind, Option.bind_some, funext e1, funext e2]

/-- **C180** the families of the seeds are those at the given places of the active ones, in the same order. -/
theorem seedIds_spec (active fiber ids : List ℕ) (h : seedIds active fiber = some ids) :
    fiber.map (fun i => active[i]?) = ids.map some := by
  unfold seedIds at h
  induction fiber generalizing ids with
  | nil => simp at h; subst h; rfl
  | cons i l ih =>
    rw [List.mapM_cons] at h
    simp only [Option.bind_eq_bind, Option.bind_eq_some_iff, Option.pure_def, Option.some.injEq] at h
    obtain ⟨a, ha, t, ht, rfl⟩ := h
    simp [ha, ih t ht]

/-- **C180** both parameters, from the reflections of the grains: the size of the clusters from the seeded ones, the mean from all. -/
theorem parameters_partial (n : ℕ) (c : ℝ) (active fiber ids : List ℕ) (panels : List Panel) (h : seedIds active fiber = some ids) (hn : ids.Nodup) :
    parameters n c active fiber panels = (minSamples c ((List.range n).map fun i => (Spec.seeded ids panels i).length)).map fun m =>
      (m, meanRpg ((List.range n).map fun i => (Spec.all panels i).length)) := by
  have e1 : reflections panels = fun i => (Spec.all panels i).length := funext (reflections_eq panels)
  have e2 : seedReflections ids panels = fun i => (Spec.seeded ids panels i).length := funext (seedReflections_partial ids hn panels)
  unfold parameters
  rw [h, e1]
  simp only [Option.bind_eq_bind, Option.bind_some, e2]
  cases minSamples c ((List.range n).map fun i => (Spec.seeded ids panels i).length) <;> rfl

/-- **C180 is false** for seeds that are given twice: their reflections are counted twice, so that there seem to be more than there are. -/
theorem twice_fails (s : ℕ) (panels : List Panel) (i : ℕ) : seedReflections [s, s] panels i = 2 * seedReflections [s] panels i := by
  unfold seedReflections
  rw [foldl_sum fun p => ([s, s].map fun s => (p.getD i []).countP fun r => r == s).sum,
    foldl_sum fun p => ([s].map fun s => (p.getD i []).countP fun r => r == s).sum]
  simp only [zero_add]
  induction panels with
  | nil => rfl
  | cons p l ih => simp only [List.map_cons, List.sum_cons, ih]; simp; ring

/-- Two detectors and two grains. -/
example : seedReflections [3, 7] [[[3, 7, 5], [1]], [[3], [7, 7]]] 0 = 3 ∧ reflections [[[3, 7, 5], [1]], [[3], [7, 7]]] 1 = 3 ∧
    seedIds [2, 3, 7] [1, 2] = some [3, 7] := by decide

end Hexrd.ClusterParams
