import Verif.Model.Pattern
import Verif.Spec.Pattern
import Mathlib.Tactic.Linarith
import Mathlib.Tactic.Ring
import Mathlib.Tactic.FieldSimp
import Mathlib.Tactic.NormNum
import Mathlib.Tactic.Positivity
import Mathlib.Tactic.Push
import Mathlib.Data.List.Forall2
import Mathlib.Algebra.BigOperators.Ring.List

/-!
# Theorems: operations on powder patterns
-/

namespace Hexrd.Pattern

open Spec

variable (smooth : ℝ → List ℝ → List ℝ)

/-! ### Interpolation -/

theorem linAt_cons (p : ℝ × ℝ) (b : Pts) (x v : ℝ) (h : LinAt b x v) : LinAt (p :: b) x v := by
  obtain ⟨l1, q, r, l2, e, h⟩ := h
  exact ⟨p :: l1, q, r, l2, by rw [e]; rfl, h⟩

/-- C120: the interpolation is that of the line through the two neighbouring points. -/
theorem interp_spec (b : Pts) (h : Increasing b) (h2 : 2 ≤ b.length) (x : ℝ) (hx : Covered b x) : LinAt b x (interp b x) := by
  induction b with
  | nil => simp at h2
  | cons p b ih =>
    cases b with
    | nil => simp at h2
    | cons q l =>
      have hp := List.pairwise_cons.1 h
      have hpx : p.1 ≤ x := by
        obtain ⟨⟨r, hr, hrx⟩, -⟩ := hx
        rcases List.mem_cons.1 hr with rfl | hr
        · exact hrx
        · exact (hp.1 r hr).le.trans hrx
      unfold interp
      split
      · rename_i hq
        exact ⟨[], p, q, l, rfl, hpx, hq, rfl⟩
      · rename_i hq
        push Not at hq
        obtain ⟨r, hr, hrx⟩ := hx.2
        cases l with
        | nil =>
          exfalso
          rcases List.mem_cons.1 hr with rfl | hr
          · have := hp.1 q (by simp)
            linarith
          · simp at hr
            subst hr
            linarith
        | cons s l =>
          refine linAt_cons _ _ _ _ (ih hp.2 (by simp) ⟨⟨q, by simp, hq.le⟩, ?_⟩)
          rcases List.mem_cons.1 hr with rfl | hr
          · have := hp.1 q (by simp)
            linarith
          · exact ⟨r, hr, hrx⟩

theorem linAt_knot (b : Pts) (h : Increasing b) (h2 : 2 ≤ b.length) (p : ℝ × ℝ) (hp : p ∈ b) : LinAt b p.1 p.2 := by
  induction b with
  | nil => simp at h2
  | cons q b ih =>
    cases b with
    | nil => simp at h2
    | cons r l =>
      have hq := List.pairwise_cons.1 h
      have hqr := hq.1 r (by simp)
      rcases List.mem_cons.1 hp with rfl | hp
      · exact ⟨[], p, r, l, rfl, le_refl _, hqr.le, by ring⟩
      · cases l with
        | nil =>
          simp at hp
          subst hp
          refine ⟨[], q, p, [], rfl, hqr.le, le_refl _, ?_⟩
          have : p.1 - q.1 ≠ 0 := by linarith
          field_simp
          ring
        | cons s l => exact linAt_cons _ _ _ _ (ih hq.2 (by simp) hp)

/-- C120: the value of the interpolation is determined. -/
theorem linAt_unique (b : Pts) (h : Increasing b) (x v w : ℝ) (hv : LinAt b x v) (hw : LinAt b x w) : v = w := by
  have key : ∀ (b : Pts) (v : ℝ), Increasing b → LinAt b x v → v = interp b x := by
    intro b
    induction b with
    | nil =>
      rintro v - ⟨l1, p, q, l2, e, -⟩
      simp at e
    | cons p b ih =>
      intro v h hv
      have hp := List.pairwise_cons.1 h
      obtain ⟨l1, r, s, l2, e, h1, h2, h3⟩ := hv
      cases l1 with
      | nil =>
        simp only [List.nil_append, List.cons.injEq] at e
        obtain ⟨rfl, rfl⟩ := e
        unfold interp
        rw [if_pos h2, h3]
      | cons t l1 =>
        simp only [List.cons_append, List.cons.injEq] at e
        obtain ⟨rfl, e⟩ := e
        have hb := ih v hp.2 ⟨l1, r, s, l2, e, h1, h2, h3⟩
        cases b with
        | nil => simp at e
        | cons q l =>
          unfold interp
          split
          · rename_i hq
            -- the position is that of the point `q`
            have hqr : q.1 ≤ r.1 := by
              cases l1 with
              | nil =>
                simp only [List.nil_append, List.cons.injEq] at e
                rw [e.1]
              | cons u l1 =>
                simp only [List.cons_append, List.cons.injEq] at e
                exact ((List.pairwise_cons.1 hp.2).1 r (by rw [e.2]; simp)).le
            have hx : x = q.1 := by linarith
            have hv : v = q.2 := by
              cases l1 with
              | nil =>
                simp only [List.nil_append, List.cons.injEq] at e
                rw [h3, hx, e.1]
                ring
              | cons u l1 =>
                exfalso
                simp only [List.cons_append, List.cons.injEq] at e
                have := (List.pairwise_cons.1 hp.2).1 r (by rw [e.2]; simp)
                linarith
            have hpq := hp.1 q (by simp)
            have : q.1 - p.1 ≠ 0 := by linarith
            rw [hv, hx]
            field_simp
            ring
          · exact hb
  rw [key b v h hv, key b w h hw]

theorem overlap_covered (p o : Pts) (a : ℝ × ℝ) (ha : a ∈ p) : Covered o a.1 ↔ a ∈ overlap p o := by
  unfold overlap
  rw [List.mem_filter, decide_eq_true_iff]
  exact ⟨fun h => ⟨ha, h.2, h.1⟩, fun h => ⟨h.2.2, h.2.1⟩⟩

theorem combined_map (op : ℝ → ℝ → ℝ) (p o : Pts) (h : Increasing o) (h2 : 2 ≤ o.length) :
    CombinedWith op p o ((overlap p o).map fun a => (a.1, op a.2 (interp o a.1))) := by
  refine ⟨overlap p o, List.filter_sublist, fun a ha => overlap_covered p o a ha, ?_⟩
  rw [List.forall₂_map_right_iff, List.forall₂_same]
  intro a ha
  exact ⟨rfl, _, interp_spec o h h2 a.1 ((overlap_covered p o a (List.mem_of_mem_filter ha)).2 ha), rfl⟩

theorem combined_zip (op : ℝ → ℝ → ℝ) (p o : Pts) (h : Increasing o) (h2 : 2 ≤ o.length)
    (he : p.map Prod.fst = o.map Prod.fst) :
    CombinedWith op p o (List.zipWith (fun a b => (a.1, op a.2 b.2)) p o) := by
  refine ⟨p, List.Sublist.refl _, ?_, ?_⟩
  · intro a ha
    refine ⟨fun _ => ha, fun _ => ?_⟩
    have : a.1 ∈ o.map Prod.fst := he ▸ List.mem_map_of_mem ha
    obtain ⟨b, hb, e⟩ := List.mem_map.1 this
    exact ⟨⟨b, hb, e.le⟩, b, hb, e.ge⟩
  · have key : ∀ (p o' : Pts), (∀ b ∈ o', b ∈ o) → p.map Prod.fst = o'.map Prod.fst →
        List.Forall₂ (fun (a c : ℝ × ℝ) => c.1 = a.1 ∧ ∃ v, LinAt o a.1 v ∧ c.2 = op a.2 v) p
          (List.zipWith (fun a b => (a.1, op a.2 b.2)) p o') := by
      intro p
      induction p with
      | nil => intro o' _ _; simp
      | cons a p ih =>
        intro o' hs e
        cases o' with
        | nil => simp at e
        | cons b o' =>
          simp only [List.map_cons, List.cons.injEq] at e
          refine List.Forall₂.cons ⟨rfl, b.2, ?_, rfl⟩ (ih o' (fun c hc => hs c (by simp [hc])) e.2)
          rw [e.1]
          exact linAt_knot o h h2 b (hs b (by simp))
    exact key p o (fun _ h => h) he

/-! ### Data -/

/-- C120: without a background the data are the values times the scale plus the offset. -/
theorem data_plain (s : Spec) (h : s.upper = none) (hs : s.smoothing = 0) :
    data smooth s = some (s.pts.map fun p => (p.1, p.2 * s.scaling + s.offset)) := by
  unfold data
  simp [h, hs, originalData]

/-- C120: with a background (kept in the attribute that is used) the data are the scaled values minus the interpolated background, at the
positions that the background covers; if there is none, an exception. -/
theorem data_background (s : Spec) (b : Pts) (hb : s.upper = some b) (hs : s.smoothing = 0) (h : Increasing b) (h2 : 2 ≤ b.length) :
    (data smooth s = none ↔ ∀ p ∈ s.pts, ¬ Covered b p.1) ∧
    ∀ d, data smooth s = some d → CombinedWith (fun y v => y * s.scaling + s.offset - v) s.pts b d := by
  have hov : overlap s.pts b = [] ↔ ∀ p ∈ s.pts, ¬ Covered b p.1 := by
    rw [List.eq_nil_iff_forall_not_mem]
    refine ⟨fun h p hp hc => h p ((overlap_covered _ _ p hp).1 hc), fun h p hp => ?_⟩
    exact h p (List.mem_of_mem_filter hp) ((overlap_covered _ _ p (List.mem_of_mem_filter hp)).2 hp)
  unfold data
  simp only [hb, hs, lt_irrefl, if_false]
  by_cases he : b.map Prod.fst = s.pts.map Prod.fst
  · rw [if_pos he]
    refine ⟨⟨fun hn => by simp at hn, fun hc => ?_⟩, ?_⟩
    · exfalso
      obtain ⟨p, l, e⟩ := List.exists_cons_of_ne_nil (l := s.pts) (by rintro e; rw [e] at he; simp at he; simp [he] at h2)
      have := (combined_zip (fun y v => y * s.scaling + s.offset - v) s.pts b h h2 he.symm)
      have hmem : p.1 ∈ b.map Prod.fst := by rw [he, e]; simp
      obtain ⟨q, hq, eq⟩ := List.mem_map.1 hmem
      exact hc p (by rw [e]; simp) ⟨⟨q, hq, eq.le⟩, q, hq, eq.ge⟩
    · intro d hd
      simp only [Option.bind_eq_bind, Option.bind_some, Option.some.injEq] at hd
      rw [← hd]
      exact combined_zip _ _ _ h h2 he.symm
  · rw [if_neg he]
    by_cases ho : overlap s.pts b = []
    · rw [if_pos ho]
      exact ⟨⟨fun _ => hov.1 ho, fun _ => rfl⟩, fun d hd => by simp at hd⟩
    · rw [if_neg ho]
      refine ⟨⟨fun hn => by simp at hn, fun hc => absurd (hov.2 hc) ho⟩, ?_⟩
      intro d hd
      simp only [Option.bind_eq_bind, Option.bind_some, Option.some.injEq] at hd
      rw [← hd]
      exact combined_map (fun y v => y * s.scaling + s.offset - v) _ _ h h2

/-- Disagreement: `set_background` sets an attribute that nothing reads, and the background is not taken off. -/
theorem setBackground_fails : ∃ (p b : Pts) (d : Pts), Increasing b ∧ 2 ≤ b.length ∧ p.map Prod.fst = b.map Prod.fst ∧
    data smooth (setBackground (mk p) b) = some d ∧ ¬ CombinedWith (fun y v => y - v) p b d := by
  refine ⟨[(0, 1), (1, 1)], [(0, 1), (1, 1)], [(0, 1), (1, 1)], ?_, by simp, rfl, ?_, ?_⟩
  · simp [Increasing]
  · simp [data, setBackground, mk, originalData]
  · rintro ⟨kept, hsub, hc, hf⟩
    have h0 : ((0 : ℝ), (1 : ℝ)) ∈ kept := (hc (0, 1) (by simp)).1 ⟨⟨(0, 1), by simp⟩, (0, 1), by simp⟩
    cases hf with
    | cons h1 h2 =>
      rename_i a l
      obtain ⟨e, v, hv, e2⟩ := h1
      obtain ⟨l1, p, q, l2, eb, -, -, ev⟩ := hv
      have hp2 : p.2 = 1 ∧ q.2 = 1 := by
        have hp : p ∈ ([(0, 1), (1, 1)] : Pts) := by rw [eb]; simp
        have hq : q ∈ ([(0, 1), (1, 1)] : Pts) := by rw [eb]; simp
        simp at hp hq
        rcases hp with rfl | rfl <;> rcases hq with rfl | rfl <;> simp
      rw [hp2.1, hp2.2] at ev
      have ha : a.2 = 1 := by
        have := hsub.subset (List.mem_cons_self (a := a) (l := l))
        simp at this
        rcases this with rfl | rfl <;> rfl
      rw [ha, ev] at e2
      norm_num at e2

/-- C120: new data are returned as they are, whatever scale and offset were before, and the scale is never negative. -/
theorem setData_data (s : Spec) (p : Pts) (h : s.upper = none) (hs : s.smoothing = 0) : data smooth (setData s p) = some p := by
  have := data_plain smooth (setData s p) (by simp [setData, setScaling, h]) (by simp [setData, setScaling, hs])
  rw [this]
  have h1 : (setData s p).scaling = 1 := if_neg (by norm_num)
  have h2 : (setData s p).offset = 0 := rfl
  have h3 : (setData s p).pts = p := rfl
  rw [h1, h2, h3]
  simp

theorem setScaling_nonneg (s : Spec) (v : ℝ) : 0 ≤ (setScaling s v).scaling ∧ (0 ≤ v → (setScaling s v).scaling = v) := by
  unfold setScaling
  dsimp only
  split
  · exact ⟨le_refl _, fun h => absurd h (by linarith)⟩
  · exact ⟨by linarith, fun _ => rfl⟩

/-! ### Sum and difference -/

/-- C120: for patterns with the same positions, or with different numbers of points, the sum (or difference) is that with the interpolated
values of the other pattern where it covers the first. -/
theorem combine_spec (op : ℝ → ℝ → ℝ) (p o : Pts) (h : Increasing o) (h2 : 2 ≤ o.length)
    (hx : p.length = o.length → p.map Prod.fst = o.map Prod.fst) :
    (combine op p o = none ↔ ∀ a ∈ p, ¬ Covered o a.1) ∧
    ∀ r, combine op p o = some r → ∃ d, data smooth r = some d ∧ CombinedWith op p o d := by
  have hd : ∀ q : Pts, data smooth (mk q) = some q := by
    intro q
    rw [data_plain smooth _ rfl rfl]
    simp [mk]
  unfold combine
  by_cases hl : p.length = o.length
  · rw [if_neg (by simpa using hl)]
    refine ⟨⟨fun hn => by (cases hn), fun hc => ?_⟩, ?_⟩
    · exfalso
      obtain ⟨a, l, e⟩ := List.exists_cons_of_ne_nil (l := p) (by rintro e; rw [e] at hl; simp at hl; rw [← hl] at h2; simp at h2)
      have hmem : a.1 ∈ o.map Prod.fst := by rw [← hx hl, e]; simp
      obtain ⟨q, hq, eq⟩ := List.mem_map.1 hmem
      exact hc a (by rw [e]; simp) ⟨⟨q, hq, eq.le⟩, q, hq, eq.ge⟩
    · intro r hr
      cases hr
      exact ⟨_, hd _, combined_zip _ _ _ h h2 (hx hl)⟩
  · rw [if_pos hl]
    by_cases ho : overlap p o = []
    · rw [if_pos ho]
      refine ⟨⟨fun _ a ha hc => ?_, fun _ => rfl⟩, fun r hr => by cases hr⟩
      have := (overlap_covered p o a ha).1 hc
      rw [ho] at this
      cases this
    · rw [if_neg ho]
      refine ⟨⟨fun hn => by (cases hn), fun hc => ?_⟩, fun r hr => ?_⟩
      · obtain ⟨a, l, e⟩ := List.exists_cons_of_ne_nil ho
        have ha : a ∈ overlap p o := by rw [e]; simp
        exact absurd ((overlap_covered p o a (List.mem_of_mem_filter ha)).2 ha) (hc a (List.mem_of_mem_filter ha))
      · cases hr
        exact ⟨_, hd _, combined_map _ _ _ h h2⟩

/-- Disagreement: with the same number of points the positions are not looked at, even if the patterns have no position in common. -/
theorem combine_fails : ∃ (p o d : Pts), Increasing o ∧ 2 ≤ o.length ∧ (∀ a ∈ p, ¬ Covered o a.1) ∧
    (combine (· - ·) p o).bind (data smooth) = some d ∧ d = [(10, 4), (11, 4)] := by
  refine ⟨[(10, 5), (11, 5)], [(0, 1), (1, 1)], _, by simp [Increasing], by simp, ?_, ?_, rfl⟩
  · intro a ha hc
    obtain ⟨-, q, hq, hle⟩ := hc
    simp at ha hq
    rcases ha with rfl | rfl <;> rcases hq with rfl | rfl <;> norm_num at hle
  · norm_num [combine, data, mk, originalData]

/-- C120: adding a pattern with the same positions and taking it off gives the pattern back. -/
theorem add_sub (p o : Pts) (he : p.map Prod.fst = o.map Prod.fst) :
    ((combine (· + ·) p o).bind (data smooth)).bind (fun q => (combine (· - ·) q o).bind (data smooth)) = some p := by
  have hl : p.length = o.length := by simpa using congrArg List.length he
  have hd : ∀ q : Pts, data smooth (mk q) = some q := by
    intro q
    rw [data_plain smooth _ rfl rfl]
    simp [mk]
  unfold combine
  rw [if_neg (by simpa using hl)]
  simp only [Option.bind_some, hd]
  rw [if_neg (by simp [hl])]
  simp only [Option.bind_some, hd, Option.some.injEq]
  clear he
  induction p generalizing o with
  | nil => simp
  | cons a p ih =>
    cases o with
    | nil => simp at hl
    | cons b o =>
      simp only [List.zipWith_cons_cons, add_sub_cancel_right]
      rw [ih o (by simpa using hl)]

/-- C120: limits and factors. -/
theorem limit_spec (lo hi : ℝ) (p : Pts) : ∃ d, data smooth (limit lo hi p) = some d ∧ d.Sublist p ∧
    ∀ a ∈ p, a ∈ d ↔ lo < a.1 ∧ a.1 < hi := by
  refine ⟨_, data_plain smooth _ rfl rfl, ?_, ?_⟩
  · simp [limit, mk]
  · intro a ha
    simp [limit, mk, ha]

theorem limit_limit (lo hi lo' hi' : ℝ) (p : Pts) :
    (data smooth (limit lo hi p)).map (limit lo' hi') = some (limit (max lo lo') (min hi hi') p) := by
  rw [data_plain smooth _ rfl rfl]
  simp only [limit, mk, mul_one, add_zero, Option.map_some, Option.some.injEq, Prod.mk.eta, List.map_id']
  congr 1
  rw [List.filter_filter]
  congr 1
  funext a
  rw [← Bool.decide_and]
  congr 1
  rw [max_lt_iff, lt_min_iff]
  exact propext ⟨fun h => ⟨⟨h.2.1, h.1.1⟩, h.2.2, h.1.2⟩, fun h => ⟨⟨h.1.2, h.2.2⟩, h.1.1, h.2.1⟩⟩

theorem rmul_rmul (a b : ℝ) (p : Pts) : (data smooth (rmul a p)).map (rmul b) = some (rmul (a * b) p) := by
  rw [data_plain smooth _ rfl rfl]
  simp [rmul, mk, Function.comp_def, mul_assoc]

/-! ### Extension -/

theorem meanStep_equidistant (x0 d : ℝ) (b : Pts) (h : Equidistant x0 d b) (h2 : 2 ≤ b.length) :
    meanStep (b.map Prod.fst) = d := by
  have hx : b.map Prod.fst = (List.range b.length).map fun (i : ℕ) => x0 + i * d := by
    apply List.ext_getElem?
    intro i
    rcases lt_or_ge i b.length with hi | hi
    · simp [hi, h i b[i] (by simp [hi])]
    · simp [hi]
  rw [hx]
  unfold meanStep
  have hz : List.zipWith (fun a b => b - a) ((List.range b.length).map fun (i : ℕ) => x0 + i * d)
      ((List.range b.length).map fun (i : ℕ) => x0 + i * d).tail = List.replicate (b.length - 1) d := by
    apply List.ext_getElem?
    intro i
    rcases lt_or_ge i (b.length - 1) with hi | hi
    · have h1 : i < b.length := by omega
      have h3 : i + 1 < b.length := by omega
      simp [hi]
      ring
    · have h3 : b.length ≤ i + 1 := by omega
      have : (List.range b.length)[i + 1]? = none := by simp [h3]
      simp [hi]
  rw [hz]
  simp only [List.sum_replicate, List.length_map, List.length_range, nsmul_eq_mul]
  have : ((b.length - 1 : ℕ) : ℝ) ≠ 0 := by
    have : 0 < b.length - 1 := by omega
    exact_mod_cast this.ne'
  field_simp

/-- C120: an equidistant pattern extended to a larger position keeps its points, stays equidistant, has the given value at the new points, and
ends within half a step of the position. -/
theorem extend_right (s : Spec) (x0 d xv yv : ℝ) (hd : 0 < d) (h2 : 2 ≤ s.pts.length) (he : Equidistant x0 d s.pts)
    (hv : x0 + (s.pts.length - 1 : ℕ) * d < xv) :
    ∃ new, (extendTo s x0 (x0 + (s.pts.length - 1 : ℕ) * d) xv yv).pts = s.pts ++ new ∧ (∀ a ∈ new, a.2 = yv) ∧
      Equidistant x0 d (s.pts ++ new) ∧ |x0 + (s.pts.length + new.length - 1 : ℕ) * d - xv| ≤ d / 2 := by
  have hlow : ¬ xv < x0 := by
    have : 0 ≤ ((s.pts.length - 1 : ℕ) : ℝ) * d := by positivity
    linarith
  unfold extendTo
  dsimp only
  rw [if_neg hlow, if_pos hv, meanStep_equidistant x0 d s.pts he h2]
  set xm := x0 + ((s.pts.length - 1 : ℕ) : ℝ) * d with hxm
  have hceil : (xv + d * 0.5 - (xm + d)) / d = (xv - xm) / d - 1 / 2 := by
    field_simp
    ring
  set t := (xv - xm) / d with ht
  have htpos : 0 < t := div_pos (by linarith) hd
  have hz : 0 ≤ ⌈t - 1 / 2⌉ := by
    have : (-1 : ℝ) < t - 1 / 2 := by linarith
    have := Int.lt_ceil.2 (by push_cast; exact this : ((-1 : ℤ) : ℝ) < t - 1 / 2)
    omega
  have hm : ((⌈t - 1 / 2⌉.toNat : ℕ) : ℝ) = ((⌈t - 1 / 2⌉ : ℤ) : ℝ) := by
    exact_mod_cast congrArg (fun z : ℤ => (z : ℝ)) (Int.toNat_of_nonneg hz)
  have hlen : (((s.pts.length - 1 : ℕ) : ℝ)) = s.pts.length - 1 := by
    rw [Nat.cast_sub (by omega)]
    simp
  refine ⟨_, rfl, ?_, ?_, ?_⟩
  · intro a ha
    obtain ⟨x, -, rfl⟩ := List.mem_map.1 ha
    rfl
  · intro i p hp
    rcases lt_or_ge i s.pts.length with hi | hi
    · rw [List.getElem?_append_left hi] at hp
      exact he i p hp
    · rw [List.getElem?_append_right hi] at hp
      unfold arange at hp
      rw [List.map_map, List.getElem?_map] at hp
      obtain ⟨k, hk, rfl⟩ := Option.map_eq_some_iff.1 hp
      obtain ⟨hk', rfl⟩ := List.getElem?_eq_some_iff.1 hk
      simp only [List.getElem_range, Function.comp]
      rw [hxm, hlen, Nat.cast_sub hi]
      ring
  · simp only [arange, List.length_map, List.length_range]
    rw [hceil, Nat.cast_sub (by omega), Nat.cast_add, hm]
    have h1 := Int.le_ceil (t - 1 / 2)
    have h3 := Int.ceil_lt_add_one (t - 1 / 2)
    have e : x0 + ((s.pts.length : ℝ) + (⌈t - 1 / 2⌉ : ℤ) - (1 : ℕ)) * d - xv = ((⌈t - 1 / 2⌉ : ℤ) - t) * d := by
      rw [ht]
      field_simp
      rw [hxm, hlen]
      push_cast
      ring
    rw [e, abs_mul, abs_of_pos hd]
    have : |((⌈t - 1 / 2⌉ : ℤ) : ℝ) - t| ≤ 1 / 2 := abs_le.2 ⟨by linarith, by linarith⟩
    nlinarith

/-- C120: the same to a smaller position; the new points come first. -/
theorem extend_left (s : Spec) (x0 d xv yv xmax : ℝ) (hd : 0 < d) (h2 : 2 ≤ s.pts.length) (he : Equidistant x0 d s.pts)
    (hv : xv < x0) :
    ∃ new, (extendTo s x0 xmax xv yv).pts = new ++ s.pts ∧ (∀ a ∈ new, a.2 = yv) ∧
      Equidistant (x0 - new.length * d) d (new ++ s.pts) ∧ |x0 - new.length * d - xv| ≤ d / 2 := by
  unfold extendTo
  dsimp only
  rw [if_pos hv, meanStep_equidistant x0 d s.pts he h2]
  have hceil : (xv - d * 0.5 - (x0 - d)) / -d = (x0 - xv) / d - 1 / 2 := by
    field_simp
    ring
  set t := (x0 - xv) / d with ht
  have htpos : 0 < t := div_pos (by linarith) hd
  have hz : 0 ≤ ⌈t - 1 / 2⌉ := by
    have : (-1 : ℝ) < t - 1 / 2 := by linarith
    have := Int.lt_ceil.2 (by push_cast; exact this : ((-1 : ℤ) : ℝ) < t - 1 / 2)
    omega
  have hm : ((⌈t - 1 / 2⌉.toNat : ℕ) : ℝ) = ((⌈t - 1 / 2⌉ : ℤ) : ℝ) := by
    exact_mod_cast congrArg (fun z : ℤ => (z : ℝ)) (Int.toNat_of_nonneg hz)
  have hlen : (List.map (fun x => (x, yv)) (arange (x0 - d) (xv - d * 0.5) (-d)).reverse).length = ⌈t - 1 / 2⌉.toNat := by
    simp [arange, hceil]
  refine ⟨_, rfl, ?_, ?_, ?_⟩
  · intro a ha
    obtain ⟨x, -, rfl⟩ := List.mem_map.1 ha
    rfl
  · intro i p hp
    rw [hlen]
    rcases lt_or_ge i ⌈t - 1 / 2⌉.toNat with hi | hi
    · rw [List.getElem?_append_left (by rw [hlen]; exact hi)] at hp
      unfold arange at hp
      rw [hceil, List.getElem?_map, List.getElem?_reverse (by simpa using hi)] at hp
      have hi' : ⌈t - 1 / 2⌉.toNat - 1 - i < ⌈t - 1 / 2⌉.toNat := by omega
      simp only [List.length_map, List.length_range, List.getElem?_map, List.getElem?_range hi', Option.map_some, Option.some.injEq] at hp
      rw [← hp]
      dsimp only
      rw [Nat.cast_sub (by omega), Nat.cast_sub (by omega)]
      push_cast
      ring
    · rw [List.getElem?_append_right (by rw [hlen]; exact hi), hlen] at hp
      have := he _ p hp
      rw [this, Nat.cast_sub hi]
      ring
  · rw [hlen, hm]
    have h1 := Int.le_ceil (t - 1 / 2)
    have h3 := Int.ceil_lt_add_one (t - 1 / 2)
    have e : x0 - ((⌈t - 1 / 2⌉ : ℤ) : ℝ) * d - xv = (t - (⌈t - 1 / 2⌉ : ℤ)) * d := by
      rw [ht]
      field_simp
      ring
    rw [e, abs_mul, abs_of_pos hd]
    have : |t - ((⌈t - 1 / 2⌉ : ℤ) : ℝ)| ≤ 1 / 2 := abs_le.2 ⟨by linarith, by linarith⟩
    nlinarith

/-- Disagreement: the extended pattern has the raw values of a scaled one. -/
theorem extend_fails : ∃ (s : Spec) (d d' : Pts), data smooth s = some d ∧
    data smooth (extendTo s 0 1 2 0) = some d' ∧ (0, 3) ∈ d ∧ ∀ y, (0, y) ∈ d' → y = 1 := by
  refine ⟨⟨[(0, 1), (1, 1)], 3, 0, 0, none, none⟩, _, _, data_plain smooth _ rfl rfl, data_plain smooth _ ?_ ?_, by simp, ?_⟩
  · norm_num [extendTo, mk]
  · norm_num [extendTo, mk]
  · have hs : meanStep [(0 : ℝ), 1] = 1 := by norm_num [meanStep]
    intro y hy
    norm_num [extendTo, mk, hs] at hy
    rcases hy with h | ⟨x, hx, e, -⟩
    · exact h
    · exfalso
      unfold arange at hx
      obtain ⟨k, -, rfl⟩ := List.mem_map.1 hx
      have : (0 : ℝ) ≤ k := Nat.cast_nonneg k
      linarith

/-! ### Bins -/

theorem roundEven_near (x : ℝ) : |x - roundEven x| ≤ 1 / 2 := by
  have h1 := Int.floor_le x
  have h2 := Int.lt_floor_add_one x
  unfold roundEven
  split
  · exact abs_le.2 ⟨by linarith, by linarith⟩
  · split
    · push_cast
      exact abs_le.2 ⟨by linarith, by linarith⟩
    · split
      · exact abs_le.2 ⟨by linarith, by linarith⟩
      · push_cast
        exact abs_le.2 ⟨by linarith, by linarith⟩

theorem roundEven_mono {x y : ℝ} (h : x ≤ y) : roundEven x ≤ roundEven y := by
  have hx := abs_le.1 (roundEven_near x)
  have hy := abs_le.1 (roundEven_near y)
  by_contra hlt
  push Not at hlt
  have h1 : roundEven y + 1 ≤ roundEven x := hlt
  have h1' : (roundEven y : ℝ) + 1 ≤ roundEven x := by exact_mod_cast h1
  -- both are at a distance of one half
  have : x = y := by linarith
  rw [this] at hlt
  exact lt_irrefl _ hlt

theorem newX_eq (xmin xmax bin : ℝ) (hb : 0 < bin) (h : xmin ≤ xmax) :
    newX xmin xmax bin = (List.range ((roundEven (xmax / bin) - roundEven (xmin / bin)).toNat + 1)).map
      fun (k : ℕ) => ((roundEven (xmin / bin) + k : ℤ) : ℝ) * bin := by
  have hm := roundEven_mono (div_le_div_of_nonneg_right h hb.le)
  unfold newX arange
  dsimp only
  set m0 := roundEven (xmin / bin)
  set m1 := roundEven (xmax / bin)
  have e : (((m1 : ℝ) * bin + 0.1 * bin) - m0 * bin) / bin = ((m1 - m0 : ℤ) : ℝ) + 1 / 10 := by
    push_cast
    field_simp
    ring
  have hc : ⌈((m1 - m0 : ℤ) : ℝ) + 1 / 10⌉ = m1 - m0 + 1 := by
    rw [Int.ceil_eq_iff]
    push_cast
    exact ⟨by linarith, by linarith⟩
  rw [e, hc]
  have : (m1 - m0 + 1).toNat = (m1 - m0).toNat + 1 := by omega
  rw [this]
  apply List.map_congr_left
  intro k _
  push_cast
  ring

/-- C120: the positions of the new bins are the multiples of the bin size from the rounded smallest to the rounded largest position. -/
theorem rebin_grid (p : Pts) (xmin xmax bin : ℝ) (hb : 0 < bin) (h : xmin ≤ xmax) :
    (rebin p xmin xmax bin).map Prod.fst = (List.range ((roundEven (xmax / bin) - roundEven (xmin / bin)).toNat + 1)).map
      fun (k : ℕ) => ((roundEven (xmin / bin) + k : ℤ) : ℝ) * bin := by
  rw [← newX_eq xmin xmax bin hb h]
  unfold rebin
  rw [List.map_map]
  apply List.ext_getElem?
  intro i
  rcases lt_or_ge i (newX xmin xmax bin).length with hi | hi
  · simp [hi]
  · simp [hi]

theorem edges_getD (xmin xmax bin : ℝ) (hb : 0 < bin) (h : xmin ≤ xmax) (k : ℕ)
    (hk : k < (roundEven (xmax / bin) - roundEven (xmin / bin)).toNat + 2) :
    (edges xmin xmax bin).getD k 0 = (roundEven (xmin / bin) + k - 1 / 2 : ℝ) * bin := by
  unfold edges
  rw [newX_eq xmin xmax bin hb h]
  cases k with
  | zero =>
    simp only [List.getD_cons_zero, Nat.cast_zero]
    ring
  | succ k =>
    have hk' : k < (roundEven (xmax / bin) - roundEven (xmin / bin)).toNat + 1 := by omega
    rw [List.getD_cons_succ]
    simp only [List.getD_eq_getElem?_getD, List.map_map, List.getElem?_map, List.getElem?_range hk', Option.map_some,
      Option.getD_some, Function.comp]
    push_cast
    ring

theorem edges_length (xmin xmax bin : ℝ) (hb : 0 < bin) (h : xmin ≤ xmax) :
    (edges xmin xmax bin).length = (roundEven (xmax / bin) - roundEven (xmin / bin)).toNat + 2 := by
  unfold edges
  rw [newX_eq xmin xmax bin hb h]
  simp

theorem mem_inBin (p : Pts) (xmin xmax bin : ℝ) (hb : 0 < bin) (h : xmin ≤ xmax) (a : ℝ × ℝ) (ha : a ∈ p) (k : ℕ)
    (hk : k < (roundEven (xmax / bin) - roundEven (xmin / bin)).toNat + 1) :
    a ∈ inBin (edges xmin xmax bin) k p ↔
      (roundEven (xmin / bin) + k - 1 / 2 : ℝ) * bin ≤ a.1 ∧ (a.1 < (roundEven (xmin / bin) + k + 1 / 2 : ℝ) * bin ∨
        k = (roundEven (xmax / bin) - roundEven (xmin / bin)).toNat ∧ a.1 = (roundEven (xmin / bin) + k + 1 / 2 : ℝ) * bin) := by
  unfold inBin
  rw [List.mem_filter, decide_eq_true_iff, edges_length xmin xmax bin hb h, edges_getD xmin xmax bin hb h k (by omega),
    edges_getD xmin xmax bin hb h (k + 1) (by omega)]
  have e : ((roundEven (xmin / bin) : ℝ) + ((k + 1 : ℕ) : ℝ) - 1 / 2) * bin = (roundEven (xmin / bin) + k + 1 / 2 : ℝ) * bin := by
    push_cast
    ring
  rw [e]
  have e2 : k + 2 = (roundEven (xmax / bin) - roundEven (xmin / bin)).toNat + 2 ↔ k = (roundEven (xmax / bin) - roundEven (xmin / bin)).toNat := by
    omega
  rw [e2]
  exact ⟨fun hh => hh.2, fun hh => ⟨ha, hh⟩⟩

/-- C120: every point falls into exactly one bin, at most half a bin from its position. -/
theorem rebin_one (p : Pts) (xmin xmax bin : ℝ) (hb : 0 < bin) (a : ℝ × ℝ) (ha : a ∈ p) (h1 : xmin ≤ a.1) (h2 : a.1 ≤ xmax) :
    ∃ k, k < (newX xmin xmax bin).length ∧ a ∈ inBin (edges xmin xmax bin) k p ∧ |a.1 - (newX xmin xmax bin).getD k 0| ≤ bin / 2 ∧
      ∀ j, j < (newX xmin xmax bin).length → a ∈ inBin (edges xmin xmax bin) j p → j = k := by
  have h : xmin ≤ xmax := h1.trans h2
  have hm := roundEven_mono (div_le_div_of_nonneg_right h hb.le)
  have hmin := abs_le.1 (roundEven_near (xmin / bin))
  have hmax := abs_le.1 (roundEven_near (xmax / bin))
  have hlen : (newX xmin xmax bin).length = (roundEven (xmax / bin) - roundEven (xmin / bin)).toNat + 1 := by
    rw [newX_eq xmin xmax bin hb h]; simp
  have key := mem_inBin p xmin xmax bin hb h a ha
  have hget : ∀ k, k < (roundEven (xmax / bin) - roundEven (xmin / bin)).toNat + 1 →
      (newX xmin xmax bin).getD k 0 = (roundEven (xmin / bin) + k : ℝ) * bin := by
    intro k hk
    rw [newX_eq xmin xmax bin hb h, List.getD_eq_getElem?_getD, List.getElem?_map, List.getElem?_range hk]
    simp
  rw [hlen]
  have hu1 : xmin / bin ≤ a.1 / bin := div_le_div_of_nonneg_right h1 hb.le
  have hu2 : a.1 / bin ≤ xmax / bin := div_le_div_of_nonneg_right h2 hb.le
  have hau : a.1 = a.1 / bin * bin := by field_simp
  generalize a.1 / bin = u at hu1 hu2 hau
  have hN : (((roundEven (xmax / bin) - roundEven (xmin / bin)).toNat : ℕ) : ℝ) = roundEven (xmax / bin) - roundEven (xmin / bin) := by
    have := Int.toNat_of_nonneg (sub_nonneg.2 hm)
    have := congrArg (fun z : ℤ => (z : ℝ)) this
    push_cast at this
    exact this
  generalize roundEven (xmin / bin) = m0 at *
  generalize roundEven (xmax / bin) = m1 at *
  generalize hNn : (m1 - m0).toNat = N at *
  have conv : ∀ k, k < N + 1 → (a ∈ inBin (edges xmin xmax bin) k p ↔ (m0 : ℝ) + k - 1 / 2 ≤ u ∧ (u < m0 + k + 1 / 2 ∨ k = N ∧ u = m0 + k + 1 / 2)) := by
    intro k hk
    rw [key k hk, hau, mul_le_mul_iff_left₀ hb, mul_lt_mul_iff_left₀ hb, mul_left_inj' hb.ne']
  by_cases hlast : u = m0 + N + 1 / 2
  · refine ⟨N, by omega, (conv N (by omega)).2 ⟨by linarith, Or.inr ⟨rfl, hlast⟩⟩, ?_, ?_⟩
    · rw [hget N (by omega), hau, ← sub_mul, abs_mul, abs_of_pos hb]
      have : |u - (m0 + N : ℝ)| ≤ 1 / 2 := abs_le.2 ⟨by linarith, by linarith⟩
      nlinarith
    · intro j hj hmem
      rcases ((conv j hj).1 hmem).2 with hlt | ⟨e, -⟩
      · exfalso
        have : (j : ℝ) ≤ N := by exact_mod_cast (by omega : j ≤ N)
        linarith
      · exact e
  · have hult : u < m0 + N + 1 / 2 := lt_of_le_of_ne (by linarith [hmax.2]) hlast
    have hul : (m0 : ℝ) - 1 / 2 ≤ u := by linarith [hmin.1]
    have hf0 : 0 ≤ ⌊u - m0 + 1 / 2⌋ := Int.floor_nonneg.2 (by linarith)
    have hfN : ⌊u - m0 + 1 / 2⌋ < N + 1 := by
      have : ⌊u - m0 + 1 / 2⌋ < ((N + 1 : ℕ) : ℤ) := Int.floor_lt.2 (by push_cast; linarith)
      exact_mod_cast this
    have hfl := Int.floor_le (u - m0 + 1 / 2)
    have hfu := Int.lt_floor_add_one (u - m0 + 1 / 2)
    have hcast : ((⌊u - m0 + 1 / 2⌋.toNat : ℕ) : ℝ) = (⌊u - m0 + 1 / 2⌋ : ℤ) := by
      exact_mod_cast congrArg (fun z : ℤ => (z : ℝ)) (Int.toNat_of_nonneg hf0)
    refine ⟨⌊u - m0 + 1 / 2⌋.toNat, by omega, (conv _ (by omega)).2 ⟨by rw [hcast]; linarith, Or.inl (by rw [hcast]; linarith)⟩, ?_, ?_⟩
    · rw [hget _ (by omega), hau, ← sub_mul, abs_mul, abs_of_pos hb, hcast]
      have : |u - (m0 + (⌊u - m0 + 1 / 2⌋ : ℤ) : ℝ)| ≤ 1 / 2 := abs_le.2 ⟨by linarith, by linarith⟩
      nlinarith
    · intro j hj hmem
      obtain ⟨hj1, hj2⟩ := (conv j hj).1 hmem
      rcases hj2 with hlt | ⟨e, e2⟩
      · have : ⌊u - m0 + 1 / 2⌋ = (j : ℤ) := Int.floor_eq_iff.2 ⟨by push_cast; linarith, by push_cast; linarith⟩
        rw [this]; simp
      · exfalso
        rw [e] at e2
        exact hlast e2

/-- C120: a new value is missing exactly where no point falls, and otherwise the values times the numbers of points add up to the sum of the
values of the pattern. -/
theorem rebin_total (p : Pts) (xmin xmax bin : ℝ) (hb : 0 < bin) (hp : ∀ a ∈ p, xmin ≤ a.1 ∧ a.1 ≤ xmax) :
    ((List.range (newX xmin xmax bin).length).map fun k =>
      ((inBin (edges xmin xmax bin) k p).length : ℝ) * (((rebin p xmin xmax bin).getD k (0, none)).2.getD 0)).sum = (p.map Prod.snd).sum := by
  have h1 : ((List.range (newX xmin xmax bin).length).map fun k =>
      ((inBin (edges xmin xmax bin) k p).length : ℝ) * (((rebin p xmin xmax bin).getD k (0, none)).2.getD 0)) =
      (List.range (newX xmin xmax bin).length).map fun k => ((inBin (edges xmin xmax bin) k p).map Prod.snd).sum := by
    apply List.map_congr_left
    intro k hk
    have hk' := List.mem_range.1 hk
    unfold rebin
    rw [List.getD_eq_getElem?_getD, List.getElem?_map, List.getElem?_range hk', Option.map_some, Option.getD_some]
    dsimp only
    split
    · rename_i h0
      rw [List.length_eq_zero_iff] at h0
      simp [h0]
    · rename_i h0
      rw [Option.getD_some]
      have : ((inBin (edges xmin xmax bin) k p).length : ℝ) ≠ 0 := by exact_mod_cast h0
      field_simp
  rw [h1]
  have hone := fun a ha => rebin_one p xmin xmax bin hb a ha (hp a ha).1 (hp a ha).2
  generalize (newX xmin xmax bin).length = N at *
  -- by induction over the points, with the bins as predicates
  have gen : ∀ (q : Pts) (P : ℕ → ℝ × ℝ → Bool), (∀ a ∈ q, ∃ k, k < N ∧ P k a = true ∧ ∀ j, j < N → P j a = true → j = k) →
      ((List.range N).map fun k => ((q.filter (P k)).map Prod.snd).sum).sum = (q.map Prod.snd).sum := by
    intro q P
    induction q with
    | nil => intro _; simp
    | cons a q ih =>
      intro hq
      have e : ((List.range N).map fun k => (((a :: q).filter (P k)).map Prod.snd).sum).sum =
          ((List.range N).map fun k => (if P k a = true then a.2 else 0) + ((q.filter (P k)).map Prod.snd).sum).sum := by
        congr 1
        apply List.map_congr_left
        intro k _
        by_cases hk : P k a = true
        · simp [hk]
        · simp [hk]
      rw [e, List.sum_map_add, ih (fun b hb => hq b (by simp [hb]))]
      obtain ⟨k, hk, hPk, huni⟩ := hq a (by simp)
      have : ((List.range N).map fun j => if P j a = true then a.2 else 0) = (List.range N).map fun j => if j = k then a.2 else 0 := by
        apply List.map_congr_left
        intro j hj
        by_cases hjk : j = k
        · rw [hjk, if_pos hPk, if_pos rfl]
        · rw [if_neg hjk, if_neg (fun hP => hjk (huni j (List.mem_range.1 hj) hP))]
      rw [this, List.map_cons, List.sum_cons]
      congr 1
      have hs : ∀ n, ((List.range n).map fun j => if j = k then a.2 else 0).sum = if k < n then a.2 else 0 := by
        intro n
        induction n with
        | zero => simp
        | succ n ihn =>
          rw [List.range_succ, List.map_append, List.sum_append, ihn]
          by_cases hkn : k < n
          · have : n ≠ k := by omega
            simp [hkn, this, show k < n + 1 by omega]
          · by_cases e : n = k
            · simp [e]
            · simp [hkn, e, show ¬ k < n + 1 by omega]
      rw [hs N, if_pos hk]
  classical
  have := gen p (fun k a => decide (a ∈ inBin (edges xmin xmax bin) k p)) (by
    intro a ha
    obtain ⟨k, hk, hm, -, hu⟩ := hone a ha
    exact ⟨k, hk, by simpa using hm, fun j hj hP => hu j hj (by simpa using hP)⟩)
  rw [← this]
  congr 1
  apply List.map_congr_left
  intro k _
  congr 2
  conv_lhs => unfold inBin
  apply List.filter_congr
  intro a ha
  unfold inBin
  rw [decide_eq_decide, List.mem_filter, decide_eq_true_iff]
  exact ⟨fun h => ⟨ha, h⟩, fun h => h.2⟩

theorem rebin_missing (p : Pts) (xmin xmax bin : ℝ) (k : ℕ) (hk : k < (newX xmin xmax bin).length) :
    ((rebin p xmin xmax bin).getD k (0, none)).2 = none ↔ ∀ a ∈ p, a ∉ inBin (edges xmin xmax bin) k p := by
  unfold rebin
  rw [List.getD_eq_getElem?_getD, List.getElem?_map, List.getElem?_range hk, Option.map_some, Option.getD_some]
  dsimp only
  split
  · rename_i h0
    rw [List.length_eq_zero_iff] at h0
    simp [h0]
  · rename_i h0
    refine ⟨fun h => (by cases h), fun h => absurd ?_ h0⟩
    rw [List.length_eq_zero_iff, List.eq_nil_iff_forall_not_mem]
    intro a ha
    exact h a (List.mem_of_mem_filter ha) ha

/-! ### Cases that meet the hypotheses -/

example : Increasing [(0, 1), (1, 2), (3, 1)] ∧ Covered [(0, 1), (1, 2), (3, 1)] 2 :=
  ⟨by norm_num [Increasing], ⟨(0, 1), by simp, by norm_num⟩, (3, 1), by simp, by norm_num⟩

example : Equidistant 1 2 [(1, 5), (3, 6), (5, 7)] := by
  intro i p h
  match i with
  | 0 => simp at h; subst h; norm_num
  | 1 => simp at h; subst h; norm_num
  | 2 => simp at h; subst h; norm_num
  | i + 3 => simp at h

end Hexrd.Pattern
