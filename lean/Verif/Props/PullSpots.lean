import Verif.Spec.PullSpots
import Verif.Props.Angles
import Verif.Props.Grid
import Mathlib.Tactic.Linarith
import Mathlib.Tactic.Ring
import Mathlib.Tactic.FieldSimp
import Mathlib.Tactic.NormNum
import Mathlib.Tactic.LinearCombination
import Mathlib.Algebra.BigOperators.Group.List.Basic
import Mathlib.Data.List.Dedup

/-!
C103: spots extracted from an omega series.
-/

namespace Hexrd.PullSpots
open Hexrd.Angles Hexrd.Angles.Spec

/-! ### Lemmas -/

theorem mem_places {p : Patch} {v : Voxel} :
    v ∈ places p ↔ v.1 < p.frames.length ∧ v.2.1 < p.rows ∧ v.2.2 < p.cols := by
  obtain ⟨k, i, j⟩ := v
  simp only [places, List.mem_flatMap, List.mem_range, List.mem_map, Prod.mk.injEq]
  constructor
  · rintro ⟨k', hk, i', hi, j', hj, rfl, rfl, rfl⟩; exact ⟨hk, hi, hj⟩
  · rintro ⟨hk, hi, hj⟩; exact ⟨k, hk, i, hi, j, hj, rfl, rfl, rfl⟩

theorem mem_above {p : Patch} {data : Voxel → ℝ} {t : ℝ} {v : Voxel} : v ∈ above p data t ↔ Lit p data t v := by
  unfold above Lit
  rw [List.mem_filter, mem_places]
  simp

theorem closest_none {f : List Voxel → ℝ} {l : List (List Voxel)} : closest f l = none ↔ l = [] := by
  cases l with
  | nil => simp [closest]
  | cons r rs =>
    simp only [closest, reduceCtorEq, iff_false]
    split
    · simp
    · split <;> simp

theorem closest_spec {f : List Voxel → ℝ} {l : List (List Voxel)} {r : List Voxel} (h : closest f l = some r) :
    r ∈ l ∧ ∀ s ∈ l, f r ≤ f s := by
  induction l generalizing r with
  | nil => simp [closest] at h
  | cons a l ih =>
    simp only [closest] at h
    split at h
    · rename_i hn
      rw [closest_none] at hn
      cases h; subst hn; simp
    · rename_i s hs
      obtain ⟨hm, hle⟩ := ih hs
      split at h
      · rename_i hc
        cases h
        refine ⟨by simp, fun x hx => ?_⟩
        rcases List.mem_cons.1 hx with rfl | hx
        · exact le_refl _
        · exact hc.trans (hle x hx)
      · rename_i hc
        cases h
        refine ⟨by simp [hm], fun x hx => ?_⟩
        rcases List.mem_cons.1 hx with rfl | hx
        · exact (not_le.1 hc).le
        · exact hle x hx

theorem sum_pos {data : Voxel → ℝ} {r : List Voxel} (hne : r ≠ []) (hp : ∀ v ∈ r, 0 < data v) : 0 < (r.map data).sum := by
  induction r with
  | nil => exact absurd rfl hne
  | cons a l ih =>
    rw [List.map_cons, List.sum_cons]
    have ha := hp a (by simp)
    by_cases hl : l = []
    · subst hl; simpa using ha
    · have := ih hl fun v hv => hp v (by simp [hv])
      linarith

theorem sum_affine (data : Voxel → ℝ) (coord : Voxel → ℕ) (a d : ℝ) (r : List Voxel) :
    (r.map fun v => data v * (a + ((coord v : ℝ) + 1 / 2) * d)).sum =
      (a + d / 2) * (r.map data).sum + d * (r.map fun v => data v * (coord v : ℝ)).sum := by
  induction r with
  | nil => simp
  | cons v l ih => simp only [List.map_cons, List.sum_cons, ih]; ring

theorem isMean_centroid {data : Voxel → ℝ} {r : List Voxel} (hs : 0 < (r.map data).sum) (coord : Voxel → ℕ) (a d : ℝ) :
    IsMean data r (fun v => a + ((coord v : ℝ) + 1 / 2) * d) (a + (1 / 2 + centroid data r coord) * d) := by
  refine ⟨hs, ?_⟩
  rw [sum_affine]
  unfold centroid
  field_simp
  ring

theorem isMean_scale {data : Voxel → ℝ} {r : List Voxel} {f : Voxel → ℝ} {m : ℝ} (h : IsMean data r f m) (c : ℝ) :
    IsMean data r (fun v => f v * c) (m * c) := by
  refine ⟨h.1, ?_⟩
  have e : (r.map fun v => data v * (f v * c)).sum = (r.map fun v => data v * f v).sum * c := by
    induction r with
    | nil => simp
    | cons v l ih => 
      have : ∀ l : List Voxel, (l.map fun v => data v * (f v * c)).sum = (l.map fun v => data v * f v).sum * c := by
        intro l
        induction l with
        | nil => simp
        | cons v l ih => simp only [List.map_cons, List.sum_cons, ih]; ring
      exact this (v :: l)
  rw [e, ← h.2]; ring

/-- A weighted mean lies between bounds of its terms. -/
theorem isMean_between {data : Voxel → ℝ} {r : List Voxel} {f : Voxel → ℝ} {m a b : ℝ} (h : IsMean data r f m)
    (hp : ∀ v ∈ r, 0 < data v) (hb : ∀ v ∈ r, a ≤ f v ∧ f v ≤ b) : a ≤ m ∧ m ≤ b := by
  have key : ∀ l : List Voxel, (∀ v ∈ l, 0 < data v) → (∀ v ∈ l, a ≤ f v ∧ f v ≤ b) →
      a * (l.map data).sum ≤ (l.map fun v => data v * f v).sum ∧ (l.map fun v => data v * f v).sum ≤ b * (l.map data).sum := by
    intro l
    induction l with
    | nil => simp
    | cons v l ih =>
      intro h1 h2
      obtain ⟨i1, i2⟩ := ih (fun x hx => h1 x (by simp [hx])) (fun x hx => h2 x (by simp [hx]))
      have p1 := h1 v (by simp)
      obtain ⟨q1, q2⟩ := h2 v (by simp)
      simp only [List.map_cons, List.sum_cons]
      have e1 := mul_le_mul_of_nonneg_left q1 p1.le
      have e2 := mul_le_mul_of_nonneg_left q2 p1.le
      constructor <;> nlinarith
  obtain ⟨k1, k2⟩ := key r hp hb
  rw [← h.2] at k1 k2
  exact ⟨le_of_mul_le_mul_right k1 h.1, le_of_mul_le_mul_right k2 h.1⟩

theorem mapAngle_turn (a lo : ℝ) :
    ∃ om, mapAngle (some a) (some [lo, lo + 2 * Real.pi]) .radians = some om ∧ lo ≤ om ∧ om ≤ lo + 2 * Real.pi ∧
      Congr (2 * Real.pi) om a := by
  have hpi := Real.pi_pos
  have hp : period .radians = some (2 * Real.pi) := rfl
  have hint : Interval (some [lo, lo + 2 * Real.pi]) (2 * Real.pi) lo (lo + 2 * Real.pi) := by
    refine ⟨by simp, by simp, ?_⟩
    intro x hx
    rcases List.mem_pair.1 hx with rfl | rfl <;> constructor <;> linarith
  have hne : mapAngle (some a) (some [lo, lo + 2 * Real.pi]) .radians ≠ none := by
    intro h
    rcases (mapAngle_rejects _ _ _ _ hp).1 h with h | ⟨lo', hi', h1, h2⟩
    · simp at h
    · have a1 : lo' = lo := le_antisymm (h1.2.2 _ hint.1).1 (hint.2.2 _ h1.1).1
      have a2 : hi' = lo + 2 * Real.pi := le_antisymm (hint.2.2 _ h1.2.1).2 (h1.2.2 _ hint.2.1).2
      rw [a1, a2] at h2
      have : lo + 2 * Real.pi - lo - 2 * Real.pi = 0 := by ring
      rw [this, abs_zero] at h2
      have : (0 : ℝ) < 1 / 10 ^ 8 + 1 / 10 ^ 5 * (2 * Real.pi) := by positivity
      linarith
  obtain ⟨om, h⟩ := Option.ne_none_iff_exists'.1 hne
  exact ⟨om, h, mapAngle_spec _ _ _ _ _ _ _ hp hint (by ring) h⟩

theorem max?_some {l : List ℝ} (h : l ≠ []) : ∃ m, l.max? = some m := by
  cases hm : l.max? with
  | none => exact absurd (List.max?_eq_none_iff.1 hm) h
  | some m => exact ⟨m, rfl⟩

/-! ### C103 -/

theorem linked_symm {S : Voxel → Prop} {u v : Voxel} (h : Linked S u v) : Linked S v u := by
  induction h with
  | refl => exact Relation.ReflTransGen.refl
  | tail _ h ih =>
    exact Relation.ReflTransGen.head ⟨h.2.1, h.1, ⟨h.2.2.1.2, h.2.2.1.1⟩, ⟨h.2.2.2.1.2, h.2.2.2.1.1⟩, ⟨h.2.2.2.2.2, h.2.2.2.2.1⟩⟩ ih

open Classical in
/-- Non-vacuity: a labelling with the contract assumed below exists. -/
theorem labels_exist : ∃ label, Labels label := by
  refine ⟨fun S => S.dedup.map fun u => S.dedup.filter fun v => Linked (· ∈ S) u v, fun S => ⟨?_, ?_⟩⟩
  · intro r hr
    obtain ⟨u, hu, rfl⟩ := List.mem_map.1 hr
    rw [List.mem_dedup] at hu
    have mem : ∀ v, v ∈ (S.dedup.filter fun v => Linked (· ∈ S) u v) ↔ v ∈ S ∧ Linked (· ∈ S) u v := by
      intro v; rw [List.mem_filter, List.mem_dedup]; simp
    refine ⟨List.ne_nil_of_mem ((mem u).2 ⟨hu, Relation.ReflTransGen.refl⟩), (List.nodup_dedup S).filter _,
      fun v hv => ((mem v).1 hv).1, fun a ha b hb => (linked_symm ((mem a).1 ha).2).trans ((mem b).1 hb).2,
      fun a ha v hv ht => (mem v).2 ⟨hv, ((mem a).1 ha).2.tail ⟨((mem a).1 ha).1, hv, ht⟩⟩⟩
  · intro v hv
    refine ⟨_, List.mem_map_of_mem (List.mem_dedup.2 hv), ?_⟩
    rw [List.mem_filter, List.mem_dedup]
    simp [hv, Linked, Relation.ReflTransGen.refl]

/-- C103: a reflection whose omega window is not covered by the series is left out: nothing is reported for it. -/
theorem window_outside (label : List Voxel → List (List Voxel)) (t domega : ℝ) (period : ℝ × ℝ) (b : Bool) (s : State) (k : ℕ)
    (p : Patch) (h : none ∈ p.frames) : patchStep label t domega period b s k p = s := by
  unfold patchStep; rw [if_pos h]

/-- C103: if no value in the window is above the threshold, one entry without measured values is reported, with a negative
number that no later entry gets. -/
theorem not_found (label : List Voxel → List (List Voxel)) (t domega : ℝ) (period : ℝ × ℝ) (b : Bool) (s : State) (k : ℕ)
    (p : Patch) (h : none ∉ p.frames) (hn : ∀ v, ¬ Lit p p.raw t v) :
    patchStep label t domega period b s k p =
      ⟨s.next - 1, s.signal ++ [false], s.out ++ [⟨s.next, none, none, none⟩]⟩ := by
  have e : above p p.raw t = [] := by
    rw [List.eq_nil_iff_forall_not_mem]
    intro v hv
    exact hn v (mem_above.1 hv)
  unfold patchStep
  rw [if_neg h]
  simp [e]

/-- C103: if some value in the window is above the threshold (and the patch values are those of the nearest pixels), one
entry is reported, under the number of the reflection. It describes one whole spot: its intensities are the sum and the
largest of the values in the spot, all of which are above the threshold; its angles are the means, weighted with the values,
of the angles of the places in the spot, the last in the given turn. -/
theorem found_spec (label : List Voxel → List (List Voxel)) (hl : Labels label) (t domega lo : ℝ) (h0 : 0 ≤ t) (s : State)
    (k : ℕ) (p : Patch) (h : none ∉ p.frames) (hs : ∃ v, Lit p p.raw t v) :
    ∃ r sum mx tth eta om ome, IsSpot (Lit p p.raw t) r ∧
      patchStep label t domega (lo, lo + 2 * Real.pi) false s k p =
        ⟨s.next, s.signal ++ [true], s.out ++ [⟨k, some sum, some mx, some (tth, eta, ome)⟩]⟩ ∧
      sum = (r.map p.raw).sum ∧ mx ∈ r.map p.raw ∧ (∀ v ∈ r, p.raw v ≤ mx) ∧ t < mx ∧ mx ≤ sum ∧
      IsMean p.raw r (tthOf p) tth ∧ IsMean p.raw r (etaOf p) eta ∧ IsMean p.raw r (omeOf p domega) om ∧
      lo ≤ ome ∧ ome ≤ lo + 2 * Real.pi ∧ Congr (2 * Real.pi) ome om := by
  obtain ⟨v0, hv0⟩ := hs
  have hm0 : v0 ∈ above p p.raw t := mem_above.2 hv0
  have hne : above p p.raw t ≠ [] := List.ne_nil_of_mem hm0
  have hlab : label (above p p.raw t) ≠ [] := by
    obtain ⟨r, hr, -⟩ := (hl (above p p.raw t)).2 v0 hm0
    exact List.ne_nil_of_mem hr
  cases hc : closest (offCentre p p.raw) (label (above p p.raw t)) with
  | none => exact absurd (closest_none.1 hc) hlab
  | some r =>
    obtain ⟨hrm, -⟩ := closest_spec hc
    have hsp := (hl (above p p.raw t)).1 r hrm
    have hS : (fun v => v ∈ above p p.raw t) = Lit p p.raw t := by
      funext v; exact propext mem_above
    rw [hS] at hsp
    have hpos : ∀ v ∈ r, 0 < p.raw v := fun v hv => lt_of_le_of_lt h0 (hsp.lit v hv).2
    have hsum := sum_pos hsp.nonempty hpos
    obtain ⟨mx, hmx⟩ := max?_some (l := r.map p.raw) (by simpa using hsp.nonempty)
    obtain ⟨m1, m2⟩ := List.max?_eq_some_iff.1 hmx
    obtain ⟨om, ho, o1, o2, o3⟩ := mapAngle_turn ((p.ome0 + (1 / 2 + centroid p.raw r (·.1)) * domega) * (Real.pi / 180)) lo
    refine ⟨r, _, mx, _, _, (p.ome0 + (1 / 2 + centroid p.raw r (·.1)) * domega) * (Real.pi / 180), om, hsp, ?_, rfl, m1,
      fun v hv => m2 _ (List.mem_map_of_mem hv), ?_, ?_, isMean_centroid hsum (·.2.2) p.tth0 p.dtth,
      isMean_centroid hsum (·.2.1) p.eta0 p.deta, isMean_scale (isMean_centroid hsum (·.1) p.ome0 domega) _, o1, o2, o3⟩
    · unfold patchStep
      rw [if_neg h]
      simp only [hne, if_false, Bool.false_eq_true, hc, hmx, measure, ho]
      simp [hne]
    · obtain ⟨v, hv, rfl⟩ := List.mem_map.1 m1
      exact (hsp.lit v hv).2
    · obtain ⟨v, hv, rfl⟩ := List.mem_map.1 m1
      refine List.single_le_sum (fun x hx => ?_) _ (List.mem_map_of_mem hv)
      obtain ⟨w, hw, rfl⟩ := List.mem_map.1 hx
      exact (hpos w hw).le

/-- C103: the measured angles lie inside the window: at least half a step from its edges (for positive steps). -/
theorem found_inside {p : Patch} {t : ℝ} (h0 : 0 ≤ t) {r : List Voxel} (hr : IsSpot (Lit p p.raw t) r) {domega tth eta om : ℝ}
    (hd : 0 ≤ p.dtth ∧ 0 ≤ p.deta ∧ 0 ≤ domega) (h1 : IsMean p.raw r (tthOf p) tth) (h2 : IsMean p.raw r (etaOf p) eta)
    (h3 : IsMean p.raw r (omeOf p domega) om) :
    (p.tth0 + p.dtth / 2 ≤ tth ∧ tth ≤ p.tth0 + (p.cols - 1 / 2) * p.dtth) ∧
      (p.eta0 + p.deta / 2 ≤ eta ∧ eta ≤ p.eta0 + (p.rows - 1 / 2) * p.deta) ∧
      ((p.ome0 + domega / 2) * (Real.pi / 180) ≤ om ∧ om ≤ (p.ome0 + (p.frames.length - 1 / 2) * domega) * (Real.pi / 180)) := by
  have hpos : ∀ v ∈ r, 0 < p.raw v := fun v hv => lt_of_le_of_lt h0 (hr.lit v hv).2
  have hpi : (0 : ℝ) ≤ Real.pi / 180 := by positivity
  have gen : ∀ (n c : ℕ) (a d : ℝ), 0 ≤ d → c < n → a + d / 2 ≤ a + ((c : ℝ) + 1 / 2) * d ∧
      a + ((c : ℝ) + 1 / 2) * d ≤ a + ((n : ℝ) - 1 / 2) * d := by
    intro n c a d hd hc
    have c0 : (0 : ℝ) ≤ c := Nat.cast_nonneg c
    have c1 : (c : ℝ) + 1 ≤ n := by exact_mod_cast hc
    constructor
    · nlinarith [mul_nonneg c0 hd]
    · nlinarith [mul_le_mul_of_nonneg_right c1 hd]
  refine ⟨isMean_between h1 hpos fun v hv => gen _ _ _ _ hd.1 (hr.lit v hv).1.2.2,
    isMean_between h2 hpos fun v hv => gen _ _ _ _ hd.2.1 (hr.lit v hv).1.2.1,
    isMean_between h3 hpos fun v hv => ?_⟩
  obtain ⟨g1, g2⟩ := gen _ _ p.ome0 _ hd.2.2 (hr.lit v hv).1.1
  exact ⟨mul_le_mul_of_nonneg_right g1 hpi, mul_le_mul_of_nonneg_right g2 hpi⟩

/-- What is found does not depend on what was found before: a step adds at most one entry and keeps the others. -/
theorem step_cases (label : List Voxel → List (List Voxel)) (t domega : ℝ) (period : ℝ × ℝ) (b : Bool) (s : State) (k : ℕ)
    (p : Patch) : let s' := patchStep label t domega period b s k p
    (s' = s) ∨ (s'.next = s.next - 1 ∧ s'.signal = s.signal ++ [false] ∧ s'.out = s.out ++ [⟨s.next, none, none, none⟩]) ∨
      (s'.next = s.next ∧ s'.signal = s.signal ++ [true] ∧
        (s'.out = s.out ∨ ∃ sp : Spot, sp.peakId = k ∧ sp.sumInt.isSome ∧ s'.out = s.out ++ [sp])) := by
  simp only []
  unfold patchStep
  split
  · left; rfl
  · right
    split
    · rename_i he
      left
      simp [he]
    · rename_i he
      right
      simp only []
      split
      · simp [he]
      · refine ⟨rfl, by simp [he], Or.inr ⟨_, rfl, rfl, rfl⟩⟩

/-- A step with the values of the nearest pixels reports an entry whenever it notes a signal. -/
theorem step_nearest (label : List Voxel → List (List Voxel)) (hl : Labels label) (t domega : ℝ) (period : ℝ × ℝ) (s : State)
    (k : ℕ) (p : Patch) : let s' := patchStep label t domega period false s k p
    (s' = s) ∨ (s'.next = s.next - 1 ∧ s'.signal = s.signal ++ [false] ∧ s'.out = s.out ++ [⟨s.next, none, none, none⟩]) ∨
      (s'.next = s.next ∧ s'.signal = s.signal ++ [true] ∧ ∃ sp : Spot, sp.peakId = k ∧ s'.out = s.out ++ [sp]) := by
  simp only []
  unfold patchStep
  split
  · left; rfl
  · right
    split
    · rename_i he
      left
      simp [he]
    · rename_i he
      right
      simp only [Bool.false_eq_true, if_false]
      split
      · rename_i hc
        obtain ⟨v, hv⟩ := List.exists_mem_of_ne_nil _ he
        obtain ⟨r, hr, -⟩ := (hl (above p p.raw t)).2 v hv
        rw [closest_none.1 hc] at hr
        simp at hr
      · exact ⟨rfl, by simp [he], ⟨_, rfl, rfl⟩⟩

theorem loop_ids (label : List Voxel → List (List Voxel)) (t domega : ℝ) (period : ℝ × ℝ) (b : Bool) (ps : List Patch) :
    ∀ (s : State) (k : ℕ) (n0 : ℤ), n0 < 0 → s.next ≤ n0 →
      (∀ sp ∈ s.out, (s.next < sp.peakId ∧ sp.peakId ≤ n0 ∧ sp.sumInt = none) ∨ (0 ≤ sp.peakId ∧ sp.peakId < k ∧ sp.sumInt.isSome)) →
      (s.out.map Spot.peakId).Nodup →
      let s' := patchLoop label t domega period b s k ps
      s'.next ≤ n0 ∧ (∀ sp ∈ s'.out, (s'.next < sp.peakId ∧ sp.peakId ≤ n0 ∧ sp.sumInt = none) ∨
        (0 ≤ sp.peakId ∧ sp.peakId < (k + ps.length : ℕ) ∧ sp.sumInt.isSome)) ∧ (s'.out.map Spot.peakId).Nodup := by
  induction ps with
  | nil => intro s k n0 h0 h1 h2 h3; exact ⟨h1, h2, h3⟩
  | cons p ps ih =>
    intro s k n0 h0 h1 h2 h3
    simp only [patchLoop]
    have hlen : k + (p :: ps).length = k + 1 + ps.length := by simp; omega
    rw [hlen]
    refine ih _ (k + 1) n0 h0 ?_ ?_ ?_
    · rcases step_cases label t domega period b s k p with e | ⟨e, -, -⟩ | ⟨e, -, -⟩ <;> rw [e]
      · exact h1
      · omega
      · exact h1
    · intro sp hsp
      rcases step_cases label t domega period b s k p with e | ⟨e, -, eo⟩ | ⟨e, -, eo | ⟨sp', i1, i2, eo⟩⟩
      · rw [e] at hsp ⊢
        rcases h2 sp hsp with h | h
        · exact Or.inl h
        · exact Or.inr ⟨h.1, by omega, h.2.2⟩
      · rw [eo] at hsp
        rw [e]
        rcases List.mem_append.1 hsp with h | h
        · rcases h2 sp h with h | h
          · exact Or.inl ⟨by omega, h.2⟩
          · exact Or.inr ⟨h.1, by omega, h.2.2⟩
        · rw [List.mem_singleton.1 h]
          exact Or.inl ⟨by simp, h1, rfl⟩
      · rw [eo] at hsp
        rw [e]
        rcases h2 sp hsp with h | h
        · exact Or.inl h
        · exact Or.inr ⟨h.1, by omega, h.2.2⟩
      · rw [eo] at hsp
        rw [e]
        rcases List.mem_append.1 hsp with h | h
        · rcases h2 sp h with h | h
          · exact Or.inl h
          · exact Or.inr ⟨h.1, by omega, h.2.2⟩
        · rw [List.mem_singleton.1 h]
          exact Or.inr ⟨by omega, by omega, i2⟩
    · rcases step_cases label t domega period b s k p with e | ⟨e, -, eo⟩ | ⟨e, -, eo | ⟨sp', i1, i2, eo⟩⟩
      · rw [e]; exact h3
      · rw [eo, List.map_append, List.nodup_append]
        refine ⟨h3, by simp, ?_⟩
        intro x hx y hy
        obtain ⟨sp, hsp, rfl⟩ := List.mem_map.1 hx
        simp at hy
        rcases h2 sp hsp with h | h <;> omega
      · rw [eo]; exact h3
      · rw [eo, List.map_append, List.nodup_append]
        refine ⟨h3, by simp, ?_⟩
        intro x hx y hy
        obtain ⟨sp, hsp, rfl⟩ := List.mem_map.1 hx
        simp at hy
        rcases h2 sp hsp with h | h <;> omega

theorem panel_ids (label : List Voxel → List (List Voxel)) (t domega : ℝ) (period : ℝ × ℝ) (b : Bool) (panels : List (List Patch)) :
    ∀ (next : ℤ) (sig : List Bool), next < 0 →
      let out := (panelLoop label t domega period b next sig panels).2
      out.length = panels.length ∧ (∀ (i : ℕ) (o : List Spot) (ps : List Patch), out[i]? = some o → panels[i]? = some ps → (o.map Spot.peakId).Nodup ∧
        ∀ sp ∈ o, (sp.peakId ≤ next ∧ sp.sumInt = none) ∨ (0 ≤ sp.peakId ∧ sp.peakId < ps.length ∧ sp.sumInt.isSome)) ∧
      ((out.flatten.map Spot.peakId).filter (· < 0)).Nodup := by
  induction panels with
  | nil => intro next sig h; simp [panelLoop]
  | cons ps rest ih =>
    intro next sig h
    simp only [panelLoop]
    obtain ⟨l1, l2, l3⟩ := loop_ids label t domega period b ps ⟨next, sig, []⟩ 0 next h (le_refl _) (by simp) (by simp)
    generalize patchLoop label t domega period b ⟨next, sig, []⟩ 0 ps = s at l1 l2 l3 ⊢
    obtain ⟨i1, i2, i3⟩ := ih s.next s.signal (by omega)
    have hlow : ∀ o ∈ (panelLoop label t domega period b s.next s.signal rest).2, ∀ sp ∈ o, sp.peakId < 0 → sp.peakId ≤ s.next := by
      intro o ho sp hsp hneg
      obtain ⟨i, hi, rfl⟩ := List.mem_iff_getElem.1 ho
      have hi' : i < rest.length := i1 ▸ hi
      rcases (i2 i _ _ (List.getElem?_eq_getElem hi) (List.getElem?_eq_getElem hi')).2 sp hsp with h | h
      · exact h.1
      · omega
    refine ⟨by simp [i1], ?_, ?_⟩
    · intro i o ps' ho hps
      cases i with
      | zero =>
        simp only [List.getElem?_cons_zero, Option.some.injEq] at ho hps
        subst ho; subst hps
        refine ⟨l3, fun sp hsp => ?_⟩
        rcases l2 sp hsp with h | h
        · exact Or.inl ⟨h.2.1, h.2.2⟩
        · exact Or.inr ⟨h.1, by simpa using h.2.1, h.2.2⟩
      | succ i =>
        simp only [List.getElem?_cons_succ] at ho hps
        refine ⟨(i2 i o ps' ho hps).1, fun sp hsp => ?_⟩
        rcases (i2 i o ps' ho hps).2 sp hsp with h | h
        · exact Or.inl ⟨h.1.trans l1, h.2⟩
        · exact Or.inr h
    · rw [List.flatten_cons, List.map_append, List.filter_append, List.nodup_append]
      refine ⟨l3.filter _, i3, ?_⟩
      intro x hx y hy
      obtain ⟨hx1, hx2⟩ := List.mem_filter.1 hx
      obtain ⟨hy1, hy2⟩ := List.mem_filter.1 hy
      obtain ⟨sp, hsp, rfl⟩ := List.mem_map.1 hx1
      obtain ⟨sq, hsq, rfl⟩ := List.mem_map.1 hy1
      obtain ⟨o, ho, hsq⟩ := List.mem_flatten.1 hsq
      have := hlow o ho sq hsq (by simpa using hy2)
      rcases l2 sp hsp with h | h
      · omega
      · simp at hx2; omega

/-- C103: numbers of the entries. In the list of a panel no number occurs twice; an entry has measured values exactly if its
number is not negative, and then the number is that of the reflection in the panel; the negative numbers, from -100 down,
are distinct across all panels. -/
theorem pull_ids (label : List Voxel → List (List Voxel)) (t domega : ℝ) (period : ℝ × ℝ) (b : Bool) (panels : List (List Patch)) :
    let out := (pullSpots label t domega period b panels).2
    out.length = panels.length ∧ (∀ (i : ℕ) (o : List Spot) (ps : List Patch), out[i]? = some o → panels[i]? = some ps → (o.map Spot.peakId).Nodup ∧
      ∀ sp ∈ o, (sp.peakId ≤ -100 ∧ sp.sumInt = none) ∨ (0 ≤ sp.peakId ∧ sp.peakId < ps.length ∧ sp.sumInt.isSome)) ∧
    ((out.flatten.map Spot.peakId).filter (· < 0)).Nodup :=
  panel_ids label t domega period b panels (-100) [] (by norm_num)

theorem loop_signal (label : List Voxel → List (List Voxel)) (hl : Labels label) (t domega : ℝ) (period : ℝ × ℝ) (ps : List Patch) :
    ∀ (s : State) (k : ℕ), s.next < 0 → let s' := patchLoop label t domega period false s k ps
      s'.next < 0 ∧ ∃ l : List Spot, s'.out = s.out ++ l ∧ s'.signal = s.signal ++ l.map fun sp => decide (0 ≤ sp.peakId) := by
  induction ps with
  | nil => intro s k h; exact ⟨h, [], by simp [patchLoop], by simp [patchLoop]⟩
  | cons p ps ih =>
    intro s k h
    simp only [patchLoop]
    rcases step_nearest label hl t domega period s k p with e | ⟨e1, e2, e3⟩ | ⟨e1, e2, sp, i1, e3⟩
    · rw [e]; exact ih s (k + 1) h
    · obtain ⟨q1, l, q2, q3⟩ := ih (patchStep label t domega period false s k p) (k + 1) (by omega)
      refine ⟨q1, ⟨s.next, none, none, none⟩ :: l, by rw [q2, e3]; simp, ?_⟩
      rw [q3, e2]
      simp [h]
    · obtain ⟨q1, l, q2, q3⟩ := ih (patchStep label t domega period false s k p) (k + 1) (by omega)
      refine ⟨q1, sp :: l, by rw [q2, e3]; simp, ?_⟩
      rw [q3, e2]
      simp [i1]

/-- C103: with the values of the nearest pixels, the list of signals says for each entry, panel after panel, whether the
reflection was found. -/
theorem signal_spec (label : List Voxel → List (List Voxel)) (hl : Labels label) (t domega : ℝ) (period : ℝ × ℝ)
    (panels : List (List Patch)) :
    (pullSpots label t domega period false panels).1 =
      ((pullSpots label t domega period false panels).2.flatten).map fun sp => decide (0 ≤ sp.peakId) := by
  have key : ∀ (panels : List (List Patch)) (next : ℤ) (sig : List Bool), next < 0 →
      (panelLoop label t domega period false next sig panels).1 =
        sig ++ ((panelLoop label t domega period false next sig panels).2.flatten).map fun sp => decide (0 ≤ sp.peakId) := by
    intro panels
    induction panels with
    | nil => intro next sig h; simp [panelLoop]
    | cons ps rest ih =>
      intro next sig h
      simp only [panelLoop]
      obtain ⟨q1, l, q2, q3⟩ := loop_signal label hl t domega period ps ⟨next, sig, []⟩ 0 h
      simp only [List.nil_append] at q2 q3
      rw [ih _ _ q1, q3, q2]
      simp
  exact key panels (-100) [] (by norm_num)

/-- C103, disagreement: with bilinear values an entry can be missing although its signal is listed, if the threshold is
exceeded at the nearest pixels but not by the interpolated values; the list of signals is then longer than the output. -/
theorem signal_bilinear : ∃ p : Patch, ∀ label : List Voxel → List (List Voxel), label [] = [] →
    pullSpots label 10 1 (0, 2 * Real.pi) true [[p]] = ([true], [[]]) := by
  refine ⟨⟨[some 0], 1, 1, fun _ => 20, fun _ => 5, 0, 1, 0, 1, 0⟩, fun label h => ?_⟩
  have e1 : above ⟨[some 0], 1, 1, fun _ => 20, fun _ => 5, 0, 1, 0, 1, 0⟩ (fun _ => 20) 10 = [(0, 0, 0)] := by
    simp [above, places]
    norm_num
  have e2 : above ⟨[some 0], 1, 1, fun _ => 20, fun _ => 5, 0, 1, 0, 1, 0⟩ (fun _ => 5) 10 = [] := by
    simp [above, places]
    norm_num
  simp [pullSpots, panelLoop, patchLoop, patchStep, e1, e2, h, closest]

/-- C103: of several spots in the window the code takes the one whose centroid is nearest to the point half a step beyond
the middle of the window in each direction. Missing: nearest to the middle itself, where the reflection is predicted. -/
theorem nearest_partial (label : List Voxel → List (List Voxel)) (p : Patch) (data : Voxel → ℝ) (t : ℝ) (r : List Voxel)
    (h : closest (offCentre p data) (label (above p data t)) = some r) (s : List Voxel) (hs : s ∈ label (above p data t)) :
    (centroid data r (·.1) - (((p.frames.length : ℝ) - 1) / 2 + 1 / 2)) ^ 2 + (centroid data r (·.2.1) - (((p.rows : ℝ) - 1) / 2 + 1 / 2)) ^ 2 +
        (centroid data r (·.2.2) - (((p.cols : ℝ) - 1) / 2 + 1 / 2)) ^ 2 ≤
      (centroid data s (·.1) - (((p.frames.length : ℝ) - 1) / 2 + 1 / 2)) ^ 2 + (centroid data s (·.2.1) - (((p.rows : ℝ) - 1) / 2 + 1 / 2)) ^ 2 +
        (centroid data s (·.2.2) - (((p.cols : ℝ) - 1) / 2 + 1 / 2)) ^ 2 := by
  have h2 := (closest_spec h).2 s hs
  unfold offCentre at h2
  have e : ∀ x : ℝ, (x - 1) / 2 + 1 / 2 = x / 2 := fun x => by ring
  simp only [e]
  exact h2

/-- C103, disagreement: in a window of seven columns with a spot in column 1, two columns from the middle, and one in
columns 5 and 6, with centroid 2.4 columns from the middle, the farther one is taken. -/
theorem nearest_biased : ∃ (p : Patch) (t : ℝ) (a b : List Voxel), 0 ≤ t ∧
    (∀ v, Lit p p.raw t v ↔ v ∈ a ∨ v ∈ b) ∧ IsSpot (Lit p p.raw t) a ∧ IsSpot (Lit p p.raw t) b ∧
    |centroid p.raw a (·.2.2) - 3| < |centroid p.raw b (·.2.2) - 3| ∧ p.cols = 7 ∧ p.rows = 1 ∧ p.frames.length = 1 ∧
    closest (offCentre p p.raw) [a, b] = some b := by
  let raw : Voxel → ℝ := fun v => if v.2.2 = 1 then 50 else if v.2.2 = 5 then 60 else if v.2.2 = 6 then 40 else 0
  let p : Patch := ⟨[some 0], 1, 7, raw, raw, 0, 1, 0, 1, 0⟩
  have ca : ∀ f : Voxel → ℕ, centroid raw [(0, 0, 1)] f = f (0, 0, 1) := by
    intro f; simp [centroid, raw]
  have cb : ∀ f : Voxel → ℕ, centroid raw [(0, 0, 5), (0, 0, 6)] f = (60 * f (0, 0, 5) + 40 * f (0, 0, 6)) / 100 := by
    intro f; simp [centroid, raw]; norm_num
  have hlit : ∀ v, Lit p p.raw 10 v ↔ v = (0, 0, 1) ∨ v = (0, 0, 5) ∨ v = (0, 0, 6) := by
    rintro ⟨k, i, j⟩
    simp only [Lit, p, raw, List.length_singleton, Prod.mk.injEq]
    constructor
    · rintro ⟨⟨h1, h2, h3⟩, h4⟩
      have hk : k = 0 := by omega
      have hi : i = 0 := by omega
      subst hk; subst hi
      split at h4
      · left; exact ⟨rfl, rfl, by assumption⟩
      · split at h4
        · right; left; exact ⟨rfl, rfl, by assumption⟩
        · split at h4
          · right; right; exact ⟨rfl, rfl, by assumption⟩
          · norm_num at h4
    · rintro (⟨rfl, rfl, rfl⟩ | ⟨rfl, rfl, rfl⟩ | ⟨rfl, rfl, rfl⟩) <;> norm_num
  refine ⟨p, 10, [(0, 0, 1)], [(0, 0, 5), (0, 0, 6)], by norm_num, ?_, ⟨by simp, by simp, ?_, ?_, ?_⟩,
    ⟨by simp, by simp, ?_, ?_, ?_⟩, ?_, rfl, rfl, rfl, ?_⟩
  · intro v; rw [hlit]; simp
  · intro v hv; rw [hlit]; simp at hv; exact Or.inl hv
  · intro u hu v hv
    simp at hu hv; subst hu; subst hv
    exact Relation.ReflTransGen.refl
  · intro u hu v hv ht
    simp at hu; subst hu
    rw [hlit] at hv
    rcases hv with rfl | rfl | rfl
    · simp
    · simp [Touch] at ht
    · simp [Touch] at ht
  · intro v hv; rw [hlit]; simp at hv; exact Or.inr hv
  · have l5 : Lit p p.raw 10 (0, 0, 5) := (hlit _).2 (by simp)
    have l6 : Lit p p.raw 10 (0, 0, 6) := (hlit _).2 (by simp)
    intro u hu v hv
    simp at hu hv
    rcases hu with rfl | rfl <;> rcases hv with rfl | rfl
    · exact Relation.ReflTransGen.refl
    · exact Relation.ReflTransGen.single ⟨l5, l6, by simp [Touch]⟩
    · exact Relation.ReflTransGen.single ⟨l6, l5, by simp [Touch]⟩
    · exact Relation.ReflTransGen.refl
  · intro u hu v hv ht
    rw [hlit] at hv
    simp at hu
    rcases hv with rfl | rfl | rfl
    · rcases hu with rfl | rfl <;> simp [Touch] at ht
    · simp
    · simp
  · show |centroid raw _ _ - 3| < |centroid raw _ _ - 3|
    rw [ca, cb]
    norm_num
  · show closest (offCentre p raw) _ = _
    simp only [closest, offCentre, ca, cb, p]
    norm_num

/-- C103, disagreement: an omega tolerance of at most one frame makes the window one step wide, and the search then fails
on every reflection with signal, for the structure handed to the labelling has two dimensions and the data three. -/
theorem narrow_window (domega tol : ℝ) (hd : 0 < domega) (ht : 0 < tol) :
    labelAccepted (Hexrd.Grid.makeToleranceGrid domega tol 1 true false).1 = true ↔ domega < tol := by
  have hm := lt_min hd ht
  have hn := Hexrd.Grid.ndiv_two_sided hm (Hexrd.Grid.window_pos hd ht true) 1
  have e : ((Hexrd.Grid.makeToleranceGrid domega tol 1 true false).1 : ℝ) = (1 : ℕ) * (⌈Hexrd.Grid.window domega tol true / min domega tol⌉ : ℝ) := by
    rw [← hn]; rfl
  have e2 : Hexrd.Grid.window domega tol true / min domega tol = (⌈tol / min domega tol⌉ : ℝ) := by
    simp only [Hexrd.Grid.window, if_true]; field_simp
  rw [e2, Int.ceil_intCast] at e
  have hA : ∀ n : ℕ, labelAccepted n = true ↔ n ≠ 1 := by
    intro n; unfold labelAccepted; by_cases h : n = 1 <;> simp [h]
  rw [hA]
  constructor
  · intro h
    by_contra hc
    rw [min_eq_right (not_lt.1 hc), div_self ht.ne', Int.ceil_one] at e
    exact h (by exact_mod_cast (by simpa using e : ((Hexrd.Grid.makeToleranceGrid domega tol 1 true false).1 : ℝ) = 1))
  · intro h h1
    rw [h1, min_eq_left h.le] at e
    have : ⌈tol / domega⌉ = 1 := by exact_mod_cast (by simpa using e.symm : (⌈tol / domega⌉ : ℝ) = 1)
    rw [Int.ceil_eq_iff] at this
    have h3 := this.2
    rw [div_le_iff₀ hd] at h3
    push_cast at h3
    linarith

end Hexrd.PullSpots
