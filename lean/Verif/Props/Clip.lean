import Verif.Spec.Clip
import Mathlib.Analysis.Convex.Join
import Mathlib.Tactic.Linarith
import Mathlib.Tactic.Ring
import Mathlib.Tactic.FieldSimp
import Mathlib.Tactic.LinearCombination
import Mathlib.Tactic.Push

/-!
# Polygon clipping (C40)
-/
namespace Hexrd.Grid

open Spec

/-- The signed distance (times the length) to the left of the line from `pv` to `cv`. -/
def off (pv cv p : Pt) : ℝ := (cv.1 - pv.1) * (p.2 - pv.2) - (cv.2 - pv.2) * (p.1 - pv.1)

theorem leftOf_iff (a b p : Pt) : LeftOf a b p ↔ 0 ≤ off a b p := Iff.rfl

theorem isinside_iff (p cv pv : Pt) : isinside p cv pv = true ↔ LeftOf pv cv p := by
  have e : cross (p.1 - cv.1, p.2 - cv.2) (pv.1 - cv.1, pv.2 - cv.2) = off pv cv p := by
    simp only [cross, off]; ring
  rw [leftOf_iff, isinside]
  simp only [e]
  split
  · rename_i h; exact ⟨fun _ => le_of_lt h, fun _ => rfl⟩
  · split
    · rename_i h; constructor
      · intro h'; exact absurd h' (by decide)
      · intro h'; exact absurd h (by linarith)
    · rename_i h h'; exact ⟨fun _ => by linarith, fun _ => rfl⟩

theorem off_line (pv cv p q : Pt) (t : ℝ) :
    off pv cv (p + t • (q - p)) = (1 - t) * off pv cv p + t * off pv cv q := by
  simp only [off, Prod.fst_add, Prod.snd_add, Prod.smul_fst, Prod.smul_snd, Prod.fst_sub, Prod.snd_sub, smul_eq_mul]
  ring

/-- The crossing point of the segment from `p` to `q` with the line. -/
noncomputable def cut (pv cv p q : Pt) : Pt := p + (off pv cv p / (off pv cv p - off pv cv q)) • (q - p)

theorem inter_eq (pv cv p q : Pt) (h : off pv cv p ≠ off pv cv q) :
    computeIntersection p q cv pv = some (cut pv cv p q) := by
  have hd : (p.1 - q.1) * (cv.2 - pv.2) - (p.2 - q.2) * (cv.1 - pv.1) = off pv cv q - off pv cv p := by
    simp only [off]; ring
  have h1 : off pv cv q - off pv cv p ≠ 0 := fun h' => h (by linarith)
  have h2 : off pv cv p - off pv cv q ≠ 0 := fun h' => h (by linarith)
  rw [computeIntersection]
  simp only
  rw [hd, if_neg h1, Option.some.injEq]
  have e : off pv cv q - off pv cv p = -(off pv cv p - off pv cv q) := by ring
  rw [e]
  unfold cut
  ext
  · simp only [Prod.fst_add, Prod.smul_fst, Prod.fst_sub, smul_eq_mul]
    field_simp
    simp only [off]; ring
  · simp only [Prod.snd_add, Prod.smul_snd, Prod.snd_sub, smul_eq_mul]
    field_simp
    simp only [off]; ring

theorem cut_comm (pv cv p q : Pt) (h : off pv cv p ≠ off pv cv q) : cut pv cv p q = cut pv cv q p := by
  have h1 : off pv cv q - off pv cv p ≠ 0 := fun h' => h (by linarith)
  have h2 : off pv cv p - off pv cv q ≠ 0 := fun h' => h (by linarith)
  unfold cut
  have e : off pv cv q / (off pv cv q - off pv cv p) = 1 - off pv cv p / (off pv cv p - off pv cv q) := by
    field_simp; ring
  rw [e]
  ext <;> simp <;> ring

/-- One end inside and the other outside: the crossing point is on the line and on the segment. -/
theorem cut_spec {pv cv p q : Pt} (hp : 0 ≤ off pv cv p) (hq : off pv cv q < 0) :
    off pv cv (cut pv cv p q) = 0 ∧ ∃ t : ℝ, 0 ≤ t ∧ t ≤ 1 ∧ cut pv cv p q = p + t • (q - p) := by
  have h2 : 0 < off pv cv p - off pv cv q := by linarith
  refine ⟨?_, _, ?_, ?_, rfl⟩
  · unfold cut; rw [off_line]; field_simp; ring
  · positivity
  · rw [div_le_one h2]; linarith

/-! ## The inner loop without failures -/

/-- The points emitted for one side of the subject. -/
noncomputable def emit (pv cv prev curr : Pt) : List Pt :=
  open Classical in
  if 0 ≤ off pv cv curr then
    if 0 ≤ off pv cv prev then [curr] else [cut pv cv curr prev, curr]
  else if 0 ≤ off pv cv prev then [cut pv cv prev curr] else []

/-- The whole inner loop. -/
noncomputable def clip1 (pv cv : Pt) : Pt → List Pt → List Pt
  | _, [] => []
  | prev, curr :: rest => emit pv cv prev curr ++ clip1 pv cv curr rest

theorem clipLoop_eq (pv cv prev : Pt) (l : List Pt) : clipLoop cv pv prev l = some (clip1 pv cv prev l) := by
  induction l generalizing prev with
  | nil => rfl
  | cons curr rest ih =>
    rw [clipLoop, ih]
    have hc := isinside_iff curr cv pv
    have hp := isinside_iff prev cv pv
    rw [leftOf_iff] at hc hp
    by_cases h1 : 0 ≤ off pv cv curr <;> by_cases h2 : 0 ≤ off pv cv prev
    · simp [hc.2 h1, hp.2 h2, clip1, emit, h1, h2]
    · have h2' : isinside prev cv pv = false := by rw [← Bool.not_eq_true]; exact fun h => h2 (hp.1 h)
      have := inter_eq pv cv curr prev (fun h => h2 (by rw [← h]; exact h1))
      simp [hc.2 h1, h2', clip1, emit, h1, h2, this]
    · have h1' : isinside curr cv pv = false := by rw [← Bool.not_eq_true]; exact fun h => h1 (hc.1 h)
      have hne : off pv cv curr ≠ off pv cv prev := fun h => h1 (by rw [h]; exact h2)
      have := inter_eq pv cv curr prev hne
      rw [cut_comm _ _ _ _ hne] at this
      simp [h1', hp.2 h2, clip1, emit, h1, h2, this]
    · have h2' : isinside prev cv pv = false := by rw [← Bool.not_eq_true]; exact fun h => h2 (hp.1 h)
      have h1' : isinside curr cv pv = false := by rw [← Bool.not_eq_true]; exact fun h => h1 (hc.1 h)
      simp [h1', h2', clip1, emit, h1, h2]

/-- The inner loop on a closed polygon. -/
noncomputable def clipC (pv cv : Pt) (l : List Pt) : List Pt :=
  match l.getLast? with
  | none => []
  | some z => clip1 pv cv z l

/-- All clip sides one after the other. -/
noncomputable def clipAll : Pt → List Pt → List Pt → List Pt
  | _, [], l => l
  | pv, cv :: clip, l => clipAll cv clip (clipC pv cv l)

theorem clipAll_nil (pv : Pt) (clip : List Pt) : clipAll pv clip [] = [] := by
  induction clip generalizing pv with
  | nil => rfl
  | cons cv clip ih => rw [clipAll, show clipC pv cv [] = [] from rfl, ih]

theorem clipOuter_nil (pv : Pt) (clip : List Pt) : clipOuter pv clip [] = some [] := by
  induction clip generalizing pv with
  | nil => rfl
  | cons cv clip ih => simp [clipOuter, ih]

theorem clipOuter_eq (pv : Pt) (clip l : List Pt) : clipOuter pv clip l = some (clipAll pv clip l) := by
  induction clip generalizing pv l with
  | nil => rfl
  | cons cv clip ih =>
    rw [clipOuter, clipAll]
    cases l with
    | nil => simp [clipOuter_nil, clipC, clipAll_nil]
    | cons a l =>
      have hz : (a :: l).getLast? = some ((a :: l).getLast (by simp)) := List.getLast?_eq_some_getLast (by simp)
      rw [clipC, hz]
      simp only [clipLoop_eq, Option.bind_eq_bind, Option.bind_some, List.isEmpty_cons, Bool.false_eq_true, if_false]
      exact ih _ _

/-! ## Vertices -/

/-- The sides of the path that starts at `z` and goes through `l`. -/
def path (z : Pt) (l : List Pt) : List (Pt × Pt) := (z :: l).zip l

@[simp] theorem path_cons (z a : Pt) (l : List Pt) : path z (a :: l) = (z, a) :: path a l := rfl
@[simp] theorem path_nil (z : Pt) : path z [] = [] := rfl

theorem mem_path {z : Pt} {l : List Pt} {e : Pt × Pt} (h : e ∈ path z l) : e.1 ∈ z :: l ∧ e.2 ∈ l := by
  have := List.of_mem_zip (show (e.1, e.2) ∈ (z :: l).zip l from h)
  exact this

theorem sides_path {l : List Pt} {z : Pt} (h : l.getLast? = some z) : sides l = path z l := by
  rw [sides, h]; rfl

/-- What a vertex of the result is: a vertex of the input that is inside, or the point where a side crosses. -/
inductive Emitted (pv cv : Pt) (S : List (Pt × Pt)) (x : Pt) : Prop
  | keep (a : Pt) (h : (a, x) ∈ S) (hx : 0 ≤ off pv cv x)
  | leave (a b : Pt) (h : (a, b) ∈ S) (ha : 0 ≤ off pv cv a) (hb : off pv cv b < 0) (e : x = cut pv cv a b)
  | enter (a b : Pt) (h : (a, b) ∈ S) (ha : off pv cv a < 0) (hb : 0 ≤ off pv cv b) (e : x = cut pv cv b a)

theorem Emitted.mono {pv cv : Pt} {S T : List (Pt × Pt)} {x : Pt} (h : Emitted pv cv S x) (hs : ∀ e ∈ S, e ∈ T) :
    Emitted pv cv T x := by
  cases h with
  | keep a h hx => exact .keep a (hs _ h) hx
  | leave a b h ha hb e => exact .leave a b (hs _ h) ha hb e
  | enter a b h ha hb e => exact .enter a b (hs _ h) ha hb e

theorem mem_clip1 {pv cv z x : Pt} {l : List Pt} (h : x ∈ clip1 pv cv z l) : Emitted pv cv (path z l) x := by
  induction l generalizing z with
  | nil => simp [clip1] at h
  | cons a l ih =>
    rw [clip1, List.mem_append] at h
    rcases h with h | h
    · unfold emit at h
      split at h
      · rename_i h1
        split at h
        · rw [List.mem_singleton] at h; subst h; exact .keep z (by simp) h1
        · rename_i h2
          rw [List.mem_cons, List.mem_singleton] at h
          rcases h with h | h
          · exact .enter z a (by simp) (not_le.1 h2) h1 h
          · subst h; exact .keep z (by simp) h1
      · rename_i h1
        split at h
        · rename_i h2
          rw [List.mem_singleton] at h
          exact .leave z a (by simp) h2 (not_le.1 h1) h
        · simp at h
    · exact (ih h).mono fun e he => by simp [he]

theorem convex_left (a b : Pt) : _root_.Convex ℝ {p : Pt | LeftOf a b p} := by
  intro p hp q hq s t hs ht hst
  simp only [Set.mem_setOf_eq, leftOf_iff, off] at hp hq ⊢
  have : off a b (s • p + t • q) = s * off a b p + t * off a b q := by
    have : s = 1 - t := by linarith
    subst this
    simp only [off, Prod.fst_add, Prod.snd_add, Prod.smul_fst, Prod.smul_snd, smul_eq_mul]; ring
  have h2 : 0 ≤ off a b (s • p + t • q) := by
    rw [this]; exact add_nonneg (mul_nonneg hs hp) (mul_nonneg ht hq)
  exact h2

theorem seg_mem {S : Set Pt} (hS : _root_.Convex ℝ S) {p q : Pt} (hp : p ∈ S) (hq : q ∈ S) {t : ℝ} (h0 : 0 ≤ t) (h1 : t ≤ 1) :
    p + t • (q - p) ∈ S := by
  have := hS hp hq (show 0 ≤ 1 - t by linarith) h0 (by ring)
  convert this using 1
  ext <;> simp <;> ring

theorem convex_hull (l : List Pt) : _root_.Convex ℝ (hull l) := convex_convexHull ℝ _

theorem mem_hull {l : List Pt} {v : Pt} (h : v ∈ l) : v ∈ hull l := subset_convexHull ℝ _ h

theorem emitted_spec {pv cv x : Pt} {S : List (Pt × Pt)} (h : Emitted pv cv S x) {C : Set Pt} (hC : _root_.Convex ℝ C)
    (hS : ∀ e ∈ S, e.1 ∈ C ∧ e.2 ∈ C) : 0 ≤ off pv cv x ∧ x ∈ C := by
  cases h with
  | keep a h hx => exact ⟨hx, (hS _ h).2⟩
  | leave a b h ha hb e =>
    obtain ⟨h0, t, ht0, ht1, ht⟩ := cut_spec ha hb
    subst e
    exact ⟨h0.ge, by rw [ht]; exact seg_mem hC (hS _ h).1 (hS _ h).2 ht0 ht1⟩
  | enter a b h ha hb e =>
    obtain ⟨h0, t, ht0, ht1, ht⟩ := cut_spec hb ha
    subst e
    exact ⟨h0.ge, by rw [ht]; exact seg_mem hC (hS _ h).2 (hS _ h).1 ht0 ht1⟩

theorem clipC_mem {pv cv x : Pt} {l : List Pt} (h : x ∈ clipC pv cv l) : Emitted pv cv (sides l) x := by
  unfold clipC at h
  split at h
  · simp at h
  · rename_i z hz
    rw [sides_path hz]
    exact mem_clip1 h

theorem sides_mem {l : List Pt} {e : Pt × Pt} (h : e ∈ sides l) : e.1 ∈ l ∧ e.2 ∈ l := by
  unfold sides at h
  split at h
  · simp at h
  · rename_i z hz
    have := mem_path h
    refine ⟨?_, this.2⟩
    rcases List.mem_cons.1 this.1 with h | h
    · rw [h]; exact List.mem_of_getLast? hz
    · exact h

theorem clipC_spec {pv cv x : Pt} {l : List Pt} (h : x ∈ clipC pv cv l) : LeftOf pv cv x ∧ x ∈ hull l :=
  emitted_spec (clipC_mem h) (convex_hull l) fun e he => ⟨mem_hull (sides_mem he).1, mem_hull (sides_mem he).2⟩

theorem hull_le {l l' : List Pt} (h : ∀ x ∈ l, x ∈ hull l') : hull l ⊆ hull l' :=
  convexHull_min h (convex_convexHull ℝ _)

theorem hull_left {a b : Pt} {l : List Pt} (h : ∀ x ∈ l, LeftOf a b x) : ∀ x ∈ hull l, LeftOf a b x :=
  convexHull_min (t := {p | LeftOf a b p}) h (convex_left a b)

theorem clipAll_spec {pv x : Pt} {clip l : List Pt} (h : x ∈ clipAll pv clip l) :
    x ∈ hull l ∧ ∀ e ∈ path pv clip, LeftOf e.1 e.2 x := by
  induction clip generalizing pv l with
  | nil => exact ⟨mem_hull h, by simp⟩
  | cons cv clip ih =>
    rw [clipAll] at h
    have hi := ih h
    refine ⟨hull_le (fun y hy => (clipC_spec hy).2) hi.1, ?_⟩
    rw [path_cons, List.forall_mem_cons]
    exact ⟨hull_left (fun y hy => (clipC_spec hy).1) x hi.1, hi.2⟩

theorem sh_eq {clip : List Pt} {z : Pt} (h : clip.getLast? = some z) (subject : List Pt) :
    sutherlandHodgman subject clip = some (clipAll z clip subject) := by
  rw [sutherlandHodgman, h]; exact clipOuter_eq _ _ _

theorem exists_last {l : List Pt} (h : l ≠ []) : ∃ z, l.getLast? = some z :=
  ⟨_, List.getLast?_eq_some_getLast h⟩

/-- C40: with any clip polygon that has a vertex the clipping succeeds (no side is ever intersected with a parallel
line), and every vertex of the result is in the convex hull of the subject and to the left of every clip side. -/
theorem clip_sound (subject : List Pt) {clip : List Pt} (h : clip ≠ []) :
    ∃ out, sutherlandHodgman subject clip = some out ∧ ∀ x ∈ out, x ∈ hull subject ∧ x ∈ Inside clip := by
  obtain ⟨z, hz⟩ := exists_last h
  refine ⟨_, sh_eq hz subject, fun x hx => ?_⟩
  have := clipAll_spec hx
  refine ⟨this.1, ?_⟩
  unfold Inside
  rw [sides_path hz]
  exact this.2

/-- C40: an empty clip polygon is an error. -/
theorem clip_empty (subject : List Pt) : sutherlandHodgman subject [] = none := rfl

theorem clip1_id {pv cv z : Pt} {l : List Pt} (hz : 0 ≤ off pv cv z) (h : ∀ x ∈ l, 0 ≤ off pv cv x) :
    clip1 pv cv z l = l := by
  induction l generalizing z with
  | nil => rfl
  | cons a l ih =>
    have ha := h a (by simp)
    rw [clip1, ih ha fun x hx => h x (by simp [hx]), emit, if_pos ha, if_pos hz]; rfl

/-- C40: a subject that is inside the clip polygon is returned unchanged. -/
theorem clip_inside {subject clip : List Pt} (h : clip ≠ []) (hin : ∀ x ∈ subject, x ∈ Inside clip) :
    sutherlandHodgman subject clip = some subject := by
  obtain ⟨z, hz⟩ := exists_last h
  rw [sh_eq hz]
  have hin' : ∀ x ∈ subject, ∀ e ∈ path z clip, LeftOf e.1 e.2 x := by
    rw [← sides_path hz]; exact hin
  clear hin hz h
  congr 1
  induction clip generalizing z with
  | nil => rfl
  | cons cv clip ih =>
    have e : clipC z cv subject = subject := by
      unfold clipC
      split
      · rename_i hn; rw [List.getLast?_eq_none_iff] at hn; exact hn.symm
      · rename_i w hw
        exact clip1_id (hin' w (List.mem_of_getLast? hw) (z, cv) (by simp)) fun x hx => hin' x hx (z, cv) (by simp)
    rw [clipAll, e]
    exact ih cv fun x hx e he => hin' x hx e (by simp [he])

/-! ## Convex subjects: the result is exactly the intersection -/

/-- `x` is where some side leaves, or enters. -/
def Leaves (pv cv : Pt) (S : List (Pt × Pt)) (x : Pt) : Prop :=
  ∃ e ∈ S, 0 ≤ off pv cv e.1 ∧ off pv cv e.2 < 0 ∧ x = cut pv cv e.1 e.2

def Enters (pv cv : Pt) (S : List (Pt × Pt)) (x : Pt) : Prop :=
  ∃ e ∈ S, off pv cv e.1 < 0 ∧ 0 ≤ off pv cv e.2 ∧ x = cut pv cv e.2 e.1

/-- The sides of the result: parts of sides of the subject, or from a leaving to an entering point. -/
def Good (pv cv : Pt) (S : List (Pt × Pt)) (g : Pt × Pt) : Prop :=
  (∃ e ∈ S, ∃ α β : ℝ, 0 ≤ β ∧ g.1 = e.1 + α • (e.2 - e.1) ∧ g.2 - g.1 = β • (e.2 - e.1)) ∨
    (Leaves pv cv S g.1 ∧ Enters pv cv S g.2)

theorem good_path (pv cv : Pt) (S : List (Pt × Pt)) (l : List Pt) : ∀ z : Pt, (∀ e ∈ path z l, e ∈ S) →
    (0 ≤ off pv cv z → ∀ g ∈ path z (clip1 pv cv z l), Good pv cv S g) ∧
    (off pv cv z < 0 → ∀ s, Leaves pv cv S s → ∀ g ∈ path s (clip1 pv cv z l), Good pv cv S g) := by
  induction l with
  | nil => intro z _; simp [clip1]
  | cons b l ih =>
    intro a hS
    obtain ⟨ihA, ihB⟩ := ih b fun e he => hS e (by simp [he])
    have hab : (a, b) ∈ S := hS _ (by simp)
    constructor
    · intro ha
      by_cases hb : 0 ≤ off pv cv b
      · rw [clip1, emit, if_pos hb, if_pos ha]
        simp only [List.singleton_append, path_cons, List.forall_mem_cons]
        exact ⟨Or.inl ⟨_, hab, 0, 1, zero_le_one, by simp, by simp⟩, ihA hb⟩
      · rw [clip1, emit, if_neg hb, if_pos ha]
        simp only [List.singleton_append, path_cons, List.forall_mem_cons]
        have hb := not_le.1 hb
        obtain ⟨_, t, ht, _, e⟩ := cut_spec ha hb
        exact ⟨Or.inl ⟨_, hab, 0, t, ht, by simp, by simp [e]⟩, ihB hb _ ⟨_, hab, ha, hb, rfl⟩⟩
    · intro ha s hs
      by_cases hb : 0 ≤ off pv cv b
      · rw [clip1, emit, if_pos hb, if_neg (not_le.2 ha)]
        simp only [List.cons_append, List.nil_append, path_cons, List.forall_mem_cons]
        obtain ⟨_, t, ht, _, e⟩ := cut_spec hb ha
        refine ⟨Or.inr ⟨hs, _, hab, ha, hb, rfl⟩, Or.inl ⟨_, hab, 1 - t, t, ht, ?_, ?_⟩, ihA hb⟩
        · simp only [e]; ext <;> simp <;> ring
        · simp only [e]; ext <;> simp <;> ring
      · rw [clip1, emit, if_neg hb, if_neg (not_le.2 ha)]
        exact ihB (not_le.1 hb) s hs

theorem clip1_ne_nil {pv cv z a : Pt} {l : List Pt} (hz : 0 ≤ off pv cv z) : clip1 pv cv z (a :: l) ≠ [] := by
  rw [clip1, emit, if_pos hz, if_pos hz]; split <;> simp

theorem last_clip1 (pv cv : Pt) (S : List (Pt × Pt)) (l : List Pt) : ∀ z w : Pt, (∀ e ∈ path z l, e ∈ S) →
    l.getLast? = some w →
    (0 ≤ off pv cv w → (clip1 pv cv z l).getLast? = some w) ∧
    (off pv cv w < 0 → ∀ y, (clip1 pv cv z l).getLast? = some y → Leaves pv cv S y) := by
  induction l with
  | nil => intro z w _ h; simp at h
  | cons b l ih =>
    intro a w hS hw
    have hab : (a, b) ∈ S := hS _ (by simp)
    cases l with
    | nil =>
      simp only [List.getLast?_singleton, Option.some.injEq] at hw
      subst hw
      simp only [clip1, List.append_nil]
      constructor
      · intro hb
        rw [emit, if_pos hb]; split <;> simp
      · intro hb y hy
        rw [emit, if_neg (not_le.2 hb)] at hy
        split at hy
        · rename_i ha
          simp only [List.getLast?_singleton, Option.some.injEq] at hy
          exact ⟨_, hab, ha, hb, hy.symm⟩
        · simp at hy
    | cons c l =>
      rw [List.getLast?_cons_cons] at hw
      obtain ⟨ih1, ih2⟩ := ih b w (fun e he => hS e (by rw [path_cons]; exact List.mem_cons_of_mem _ he)) hw
      rw [clip1]
      constructor
      · intro h
        rw [List.getLast?_append, ih1 h]; rfl
      · intro h y hy
        rw [List.getLast?_append] at hy
        rcases hr : (clip1 pv cv b (c :: l)).getLast? with _ | y'
        · rw [hr, Option.none_or] at hy
          rw [List.getLast?_eq_none_iff] at hr
          have hb : ¬ 0 ≤ off pv cv b := fun hb => clip1_ne_nil hb hr
          rw [emit, if_neg hb] at hy
          split at hy
          · rename_i ha
            simp only [List.getLast?_singleton, Option.some.injEq] at hy
            exact ⟨_, hab, ha, not_le.1 hb, hy.symm⟩
          · simp at hy
        · rw [hr, Option.some_or, Option.some.injEq] at hy
          subst hy
          exact ih2 h _ hr

/-- Every side of the result is good. -/
theorem good_sides (pv cv : Pt) (l : List Pt) : ∀ g ∈ sides (clipC pv cv l), Good pv cv (sides l) g := by
  intro g hg
  unfold clipC at hg
  split at hg
  · simp [sides] at hg
  · rename_i z hz
    rw [sides_path hz]
    rcases hy : (clip1 pv cv z l).getLast? with _ | y
    · rw [sides, hy] at hg; simp at hg
    · rw [sides_path hy] at hg
      obtain ⟨h1, h2⟩ := good_path pv cv (path z l) l z fun _ h => h
      obtain ⟨h3, h4⟩ := last_clip1 pv cv (path z l) l z z (fun _ h => h) hz
      by_cases hin : 0 ≤ off pv cv z
      · rw [h3 hin, Option.some.injEq] at hy
        rw [← hy] at hg
        exact h1 hin g hg
      · exact h2 (not_le.1 hin) y (h4 (not_le.1 hin) y hy) g hg

/-! ### The line -/

theorem on_line {d v : Pt} (hd : d ≠ 0) (h : d.1 * v.2 - d.2 * v.1 = 0) : ∃ s : ℝ, v = s • d := by
  by_cases h1 : d.1 = 0
  · have h2 : d.2 ≠ 0 := fun h2 => hd (Prod.ext h1 h2)
    refine ⟨v.2 / d.2, ?_⟩
    have : v.1 = 0 := by
      rw [h1] at h; simp only [zero_mul, zero_sub, neg_eq_zero, mul_eq_zero] at h; exact h.resolve_left h2
    ext
    · simp [this, h1]
    · simp; field_simp
  · refine ⟨v.1 / d.1, ?_⟩
    ext
    · simp; field_simp
    · simp only [Prod.smul_snd, smul_eq_mul]; field_simp; linarith

theorem off_sub (pv cv p q : Pt) :
    (cv - pv).1 * (p - q).2 - (cv - pv).2 * (p - q).1 = off pv cv p - off pv cv q := by
  simp only [off, Prod.fst_sub, Prod.snd_sub]; ring

theorem dir_ne {pv cv b : Pt} (h : off pv cv b < 0) : cv - pv ≠ 0 := by
  intro h'
  have h1 : cv.1 - pv.1 = 0 := congrArg Prod.fst h'
  have h2 : cv.2 - pv.2 = 0 := congrArg Prod.snd h'
  simp [off, h1, h2] at h

/-- A point of the line that is to the left of a leaving side is ahead of the leaving point. -/
theorem leave_ahead {pv cv a b c : Pt} (ha : 0 ≤ off pv cv a) (hb : off pv cv b < 0) (hc : LeftOf a b c)
    (h0 : off pv cv c = 0) : ∃ s : ℝ, 0 ≤ s ∧ c = cut pv cv a b + s • (cv - pv) := by
  obtain ⟨he, t, _, _, ht⟩ := cut_spec ha hb
  obtain ⟨s, hs⟩ := on_line (dir_ne hb) (v := c - cut pv cv a b) (by rw [off_sub, h0, he]; ring)
  refine ⟨s, ?_, by rw [← hs]; abel⟩
  have hc' : c = a + t • (b - a) + s • (cv - pv) := by rw [← hs, ht]; abel
  have e : off a b c = s * (off pv cv a - off pv cv b) := by
    rw [hc']; simp [off]; ring
  rw [leftOf_iff, e] at hc
  by_contra hn
  nlinarith

/-- A point of the line that is to the left of an entering side is behind the entering point. -/
theorem enter_behind {pv cv a b c : Pt} (ha : off pv cv a < 0) (hb : 0 ≤ off pv cv b) (hc : LeftOf a b c)
    (h0 : off pv cv c = 0) : ∃ s : ℝ, 0 ≤ s ∧ c = cut pv cv b a - s • (cv - pv) := by
  obtain ⟨he, t, _, _, ht⟩ := cut_spec hb ha
  obtain ⟨s, hs⟩ := on_line (dir_ne ha) (v := cut pv cv b a - c) (by rw [off_sub, h0, he]; ring)
  refine ⟨s, ?_, by rw [← hs]; abel⟩
  have hc' : c = b + t • (a - b) - s • (cv - pv) := by rw [← hs, ht]; abel
  have e : off a b c = s * (off pv cv b - off pv cv a) := by
    rw [hc']; simp [off]; ring
  rw [leftOf_iff, e] at hc
  by_contra hn
  nlinarith

theorem hull_inside {l : List Pt} (h : Spec.Convex l) {x : Pt} (hx : x ∈ hull l) : x ∈ Inside l :=
  fun e he => hull_left (fun v hv => h v hv e he) x hx

theorem good_left {pv cv : Pt} {l : List Pt} (hl : Spec.Convex l) {g : Pt × Pt} (hg : Good pv cv (sides l) g) {x : Pt}
    (hx : x ∈ hull l) (hx0 : LeftOf pv cv x) : LeftOf g.1 g.2 x := by
  rcases hg with ⟨e, he, α, β, hβ, h1, h2⟩ | ⟨⟨e, he, ha, hb, h1⟩, ⟨e', he', ha', hb', h2⟩⟩
  · have := hull_inside hl hx e he
    rw [leftOf_iff] at this ⊢
    have h2' : g.2 = g.1 + β • (e.2 - e.1) := by rw [← h2]; abel
    have : off g.1 g.2 x = β * off e.1 e.2 x := by
      rw [h2', h1]; simp [off]; ring
    rw [this]; positivity
  · obtain ⟨hz', t, ht0, ht1, ht⟩ := cut_spec hb' ha'
    have hmem : cut pv cv e'.2 e'.1 ∈ hull l := by
      rw [ht]; exact seg_mem (convex_hull l) (mem_hull (sides_mem he').2) (mem_hull (sides_mem he').1) ht0 ht1
    obtain ⟨s, hs, hc⟩ := leave_ahead ha hb (hull_inside hl hmem e he) hz'
    have hz := (cut_spec ha hb).1
    rw [leftOf_iff] at hx0 ⊢
    have : off g.1 g.2 x = s * (off pv cv x - off pv cv (cut pv cv e.1 e.2)) := by
      rw [h2, hc, h1]; simp [off]; ring
    rw [this, hz, sub_zero]; positivity

theorem clipC_convex {pv cv : Pt} {l : List Pt} (hl : Spec.Convex l) : Spec.Convex (clipC pv cv l) :=
  fun _ hv g hg => good_left hl (good_sides pv cv l g hg) (clipC_spec hv).2 (clipC_spec hv).1

/-! ### Going round -/

theorem path_closed {P : Pt → Prop} {l : List Pt} {z : Pt} (h : ∀ e ∈ path z l, P e.1 → P e.2) :
    (P z → ∀ v ∈ l, P v) ∧ ∀ w, l.getLast? = some w → (∃ v ∈ l, P v) → P w := by
  induction l generalizing z with
  | nil => simp
  | cons a l ih =>
    have ha := h (z, a) (by simp)
    obtain ⟨ih1, ih2⟩ := ih (z := a) fun e he => h e (by simp [he])
    constructor
    · intro hz
      rw [List.forall_mem_cons]
      exact ⟨ha hz, ih1 (ha hz)⟩
    · rintro w hw ⟨v, hv, hPv⟩
      cases l with
      | nil =>
        simp only [List.getLast?_singleton, Option.some.injEq] at hw
        simp only [List.mem_singleton] at hv
        rw [← hw, ← hv]; exact hPv
      | cons b l =>
        rw [List.getLast?_cons_cons] at hw
        rcases List.mem_cons.1 hv with rfl | hv
        · exact ih1 hPv w (List.mem_of_getLast? hw)
        · exact ih2 w hw ⟨v, hv, hPv⟩

theorem round_closed {P : Pt → Prop} {l : List Pt} (h : ∀ e ∈ sides l, P e.1 → P e.2) (hv : ∃ v ∈ l, P v) :
    ∀ v ∈ l, P v := by
  have hne : l ≠ [] := by rintro rfl; obtain ⟨v, hv, _⟩ := hv; simp at hv
  obtain ⟨z, hz⟩ := exists_last hne
  rw [sides_path hz] at h
  obtain ⟨h1, h2⟩ := path_closed h
  exact h1 (h2 z hz hv)

theorem emit_mem {pv cv : Pt} {l : List Pt} {z : Pt} {e : Pt × Pt} (he : e ∈ path z l) {x : Pt} (hx : x ∈ emit pv cv e.1 e.2) :
    x ∈ clip1 pv cv z l := by
  induction l generalizing z with
  | nil => simp at he
  | cons a l ih =>
    rw [clip1, List.mem_append]
    rw [path_cons, List.mem_cons] at he
    rcases he with rfl | he
    · exact Or.inl hx
    · exact Or.inr (ih he)

theorem emit_memC {pv cv : Pt} {l : List Pt} {e : Pt × Pt} (he : e ∈ sides l) {x : Pt} (hx : x ∈ emit pv cv e.1 e.2) :
    x ∈ clipC pv cv l := by
  have hne : l ≠ [] := by rintro rfl; simp [sides] at he
  obtain ⟨z, hz⟩ := exists_last hne
  rw [sides_path hz] at he
  rw [clipC, hz]
  exact emit_mem he hx

theorem side_into {l : List Pt} {v : Pt} (hv : v ∈ l) : ∃ e ∈ sides l, e.2 = v := by
  have hne : l ≠ [] := by rintro rfl; simp at hv
  obtain ⟨z, hz⟩ := exists_last hne
  rw [sides_path hz]
  clear hz hne
  induction l generalizing z with
  | nil => simp at hv
  | cons a l ih =>
    rcases List.mem_cons.1 hv with rfl | hv
    · exact ⟨(z, v), by simp, rfl⟩
    · obtain ⟨e, he, h⟩ := ih hv a
      exact ⟨e, by simp [he], h⟩

theorem keep_mem {pv cv : Pt} {l : List Pt} {v : Pt} (hv : v ∈ l) (h : 0 ≤ off pv cv v) : v ∈ clipC pv cv l := by
  obtain ⟨e, he, rfl⟩ := side_into hv
  apply emit_memC he
  rw [emit, if_pos h]; split <;> simp

/-- A point of the hull that is on the line is between a leaving and an entering point. -/
theorem line_mem {pv cv : Pt} {l : List Pt} (hl : Spec.Convex l) (hi : ∃ v ∈ l, 0 ≤ off pv cv v)
    (ho : ∃ v ∈ l, off pv cv v < 0) {c : Pt} (hc : c ∈ hull l) (h0 : off pv cv c = 0) : c ∈ hull (clipC pv cv l) := by
  have hin := hull_inside hl hc
  obtain ⟨e, he, ha, hb⟩ : ∃ e ∈ sides l, 0 ≤ off pv cv e.1 ∧ off pv cv e.2 < 0 := by
    by_contra hn
    push Not at hn
    obtain ⟨v, hv, hv'⟩ := ho
    exact absurd (round_closed (P := fun v => 0 ≤ off pv cv v) hn hi v hv) (not_le.2 hv')
  obtain ⟨e', he', ha', hb'⟩ : ∃ e ∈ sides l, off pv cv e.1 < 0 ∧ 0 ≤ off pv cv e.2 := by
    by_contra hn
    push Not at hn
    obtain ⟨v, hv, hv'⟩ := hi
    exact absurd hv' (not_le.2 (round_closed (P := fun v => off pv cv v < 0) hn ho v hv))
  have hE : cut pv cv e.1 e.2 ∈ hull (clipC pv cv l) :=
    mem_hull (emit_memC he (by rw [emit, if_neg (not_le.2 hb), if_pos ha]; simp))
  have hN : cut pv cv e'.2 e'.1 ∈ hull (clipC pv cv l) :=
    mem_hull (emit_memC he' (by rw [emit, if_pos hb', if_neg (not_le.2 ha')]; simp))
  obtain ⟨s, hs, h1⟩ := leave_ahead ha hb (hin e he) h0
  obtain ⟨r, hr, h2⟩ := enter_behind ha' hb' (hin e' he') h0
  rcases (add_nonneg hs hr).eq_or_lt with h | h
  · have : s = 0 := by linarith
    rw [h1, this]; simpa using hE
  · have h3 : cut pv cv e'.2 e'.1 - cut pv cv e.1 e.2 = (s + r) • (cv - pv) := by
      rw [show cut pv cv e'.2 e'.1 = c + r • (cv - pv) by rw [h2]; abel,
        show cut pv cv e.1 e.2 = c - s • (cv - pv) by rw [h1]; abel, add_smul]
      abel
    have := seg_mem (convex_hull (clipC pv cv l)) hE hN (t := s / (s + r)) (by positivity)
      (by rw [div_le_one h]; linarith)
    rw [h3, smul_smul, div_mul_cancel₀ _ h.ne', ← h1] at this
    exact this

theorem strict_convex (a b : Pt) : _root_.Convex ℝ {p : Pt | off a b p < 0} := by
  intro p hp q hq s t hs ht hst
  have e : s = 1 - t := by linarith
  subst e
  have : off a b ((1 - t) • p + t • q) = (1 - t) * off a b p + t * off a b q := by
    simp only [off, Prod.fst_add, Prod.snd_add, Prod.smul_fst, Prod.smul_snd, smul_eq_mul]; ring
  simp only [Set.mem_setOf_eq] at hp hq ⊢
  rw [this]
  rcases ht.eq_or_lt with h | h
  · rw [← h]; linarith
  · nlinarith

/-- One clip side: exactly the part of the hull to its left. -/
theorem clipC_exact {pv cv : Pt} {l : List Pt} (hl : Spec.Convex l) :
    hull (clipC pv cv l) = hull l ∩ {x | LeftOf pv cv x} := by
  apply Set.Subset.antisymm
  · exact fun x hx => ⟨hull_le (fun y hy => (clipC_spec hy).2) hx, hull_left (fun y hy => (clipC_spec hy).1) x hx⟩
  rintro x ⟨hx, hx0⟩
  rw [Set.mem_setOf_eq, leftOf_iff] at hx0
  set I : Set Pt := {v | v ∈ l ∧ 0 ≤ off pv cv v} with hI
  set O : Set Pt := {v | v ∈ l ∧ off pv cv v < 0} with hO
  have hIO : {v | v ∈ l} = I ∪ O := by
    ext v
    simp only [Set.mem_setOf_eq, Set.mem_union, hI, hO, ← and_or_left]
    exact ⟨fun h => ⟨h, le_or_gt _ _⟩, fun h => h.1⟩
  have hIsub : convexHull ℝ I ⊆ hull (clipC pv cv l) :=
    convexHull_min (fun v hv => mem_hull (keep_mem hv.1 hv.2)) (convex_hull _)
  have hOneg : convexHull ℝ O ⊆ {p | off pv cv p < 0} := convexHull_min (fun v hv => hv.2) (strict_convex pv cv)
  have hIpos : convexHull ℝ I ⊆ {p | LeftOf pv cv p} := convexHull_min (fun v hv => hv.2) (convex_left pv cv)
  rcases I.eq_empty_or_nonempty with hIe | hIn
  · rw [hull, hIO, hIe, Set.empty_union] at hx
    exact absurd hx0 (not_le.2 (hOneg hx))
  rcases O.eq_empty_or_nonempty with hOe | hOn
  · rw [hull, hIO, hOe, Set.union_empty] at hx
    exact hIsub hx
  have hx' := hx
  rw [hull, hIO, convexHull_union hIn hOn, mem_convexJoin] at hx'
  obtain ⟨a, ha, b, hb, hseg⟩ := hx'
  have hal : a ∈ hull l := convexHull_mono (fun v hv => hv.1) ha
  have hbl : b ∈ hull l := convexHull_mono (fun v hv => hv.1) hb
  have fa : 0 ≤ off pv cv a := hIpos ha
  have fb : off pv cv b < 0 := hOneg hb
  obtain ⟨h0, t, ht0, ht1, hcut⟩ := cut_spec fa fb
  have hc := line_mem hl ⟨_, hIn.some_mem.1, hIn.some_mem.2⟩ ⟨_, hOn.some_mem.1, hOn.some_mem.2⟩
    (by rw [hcut]; exact seg_mem (convex_hull l) hal hbl ht0 ht1) h0
  rw [segment_eq_image'] at hseg
  obtain ⟨q, ⟨hq0, hq1⟩, rfl⟩ := hseg
  have hqt : q ≤ t := by
    simp only [off_line] at hx0
    rw [hcut, off_line] at h0
    by_contra hn
    nlinarith
  rcases ht0.eq_or_lt with h | h
  · have : q = 0 := by linarith
    rw [this]; simpa using hIsub ha
  · have := seg_mem (convex_hull (clipC pv cv l)) (hIsub ha) hc (t := q / t) (by positivity)
      (by rw [div_le_one h]; exact hqt)
    rw [hcut, add_sub_cancel_left, smul_smul, div_mul_cancel₀ _ h.ne'] at this
    exact this

theorem clipAll_exact {clip : List Pt} : ∀ {pv : Pt} {l : List Pt}, Spec.Convex l →
    Spec.Convex (clipAll pv clip l) ∧
      hull (clipAll pv clip l) = hull l ∩ {x | ∀ e ∈ path pv clip, LeftOf e.1 e.2 x} := by
  induction clip with
  | nil => intro pv l hl; exact ⟨hl, by simp [clipAll]⟩
  | cons cv clip ih =>
    intro pv l hl
    obtain ⟨h1, h2⟩ := ih (pv := cv) (clipC_convex (pv := pv) (cv := cv) hl)
    refine ⟨h1, ?_⟩
    rw [clipAll, h2, clipC_exact hl]
    ext x
    simp only [Set.mem_inter_iff, Set.mem_setOf_eq, path_cons, List.forall_mem_cons, and_assoc]

/-- C40: clipping a convex counterclockwise polygon gives a convex counterclockwise polygon whose hull is exactly
the part of the subject inside the clip polygon. -/
theorem clip_exact {subject clip : List Pt} (hs : Spec.Convex subject) (h : clip ≠ []) :
    ∃ out, sutherlandHodgman subject clip = some out ∧ Spec.Convex out ∧ hull out = hull subject ∩ Inside clip := by
  obtain ⟨z, hz⟩ := exists_last h
  obtain ⟨h1, h2⟩ := clipAll_exact (clip := clip) (pv := z) hs
  refine ⟨_, sh_eq hz subject, h1, ?_⟩
  rw [h2, Inside, sides_path hz]

/-- Non-vacuity: the unit square is convex and counterclockwise, and so is the triangle that cuts off a corner. -/
example : Spec.Convex [(0, 0), (1, 0), (1, 1), (0, 1)] ∧ Spec.Convex [(0, 0), (2, 0), (0, 1)] := by
  constructor <;>
  · intro v hv e he
    simp [sides] at hv he
    rcases hv with rfl | rfl | rfl | rfl <;> rcases he with rfl | rfl | rfl | rfl <;> simp [LeftOf] <;> norm_num

end Hexrd.Grid
