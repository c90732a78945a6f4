import Verif.Model.Simulate
import Verif.Spec.Simulate
import Verif.Props.Oscillation
import Verif.Props.AngleRanges
import Verif.Props.Detector
import Verif.Props.Angles

/-!
# Simulated rotation series (C83, C84, C85)
-/
namespace Hexrd.Simulate
open Matrix Hexrd.Transforms Hexrd.Transforms.Spec Hexrd.Angles Hexrd.Simulate.Spec
open Hexrd.Detector hiding Between

/-! ### The filter by angular ranges -/

theorem etaMask_iff (ang : Option ℝ) (rs : List (ℝ × ℝ)) (m : Bool) :
    etaMask ang rs m = true ↔ m = true ∨ ∃ r ∈ rs, inRangeNan true ang r = true := by
  induction rs generalizing m with
  | nil => simp [etaMask]
  | cons r rs ih => rw [etaMask, ih]; simp [or_assoc]

/-- Once a range that decreases was met, all ranges are taken clockwise. -/
theorem omeMask_false (ang : Option ℝ) (rs : List (ℝ × ℝ)) (m : Bool) :
    omeMask ang rs false m = true ↔ m = true ∨ ∃ r ∈ rs, inRangeNan false ang r = true := by
  induction rs generalizing m with
  | nil => simp [omeMask]
  | cons r rs ih =>
    rw [omeMask]
    simp only [ite_self]
    rw [ih]; simp [or_assoc]

/-- The ranges that increase come first. -/
def IncreasingFirst (rs : List (ℝ × ℝ)) : Prop := rs.Pairwise fun r s => r.2 < r.1 → s.2 < s.1

theorem omeMask_iff (ang : Option ℝ) {rs : List (ℝ × ℝ)} (h : IncreasingFirst rs) (m : Bool) :
    omeMask ang rs true m = true ↔ m = true ∨ ∃ r ∈ rs, inRangeNan (decide (r.1 ≤ r.2)) ang r = true := by
  induction rs generalizing m with
  | nil => simp [omeMask]
  | cons r rs ih =>
    obtain ⟨h1, h2⟩ := List.pairwise_cons.1 h
    rw [omeMask]
    by_cases hr : r.2 < r.1
    · rw [if_pos (by linarith), omeMask_false]
      have e : ∀ s ∈ rs, decide (s.1 ≤ s.2) = false := fun s hs => by simpa using h1 s hs hr
      have e' : decide (r.1 ≤ r.2) = false := by simpa using hr
      simp only [List.mem_cons, exists_eq_or_imp, e', Bool.or_eq_true, or_assoc]
      constructor
      · rintro (h | h | ⟨s, hs, h⟩)
        · exact Or.inl h
        · exact Or.inr (Or.inl h)
        · exact Or.inr (Or.inr ⟨s, hs, by rw [e s hs]; exact h⟩)
      · rintro (h | h | ⟨s, hs, h⟩)
        · exact Or.inl h
        · exact Or.inr (Or.inl h)
        · exact Or.inr (Or.inr ⟨s, hs, by rw [e s hs] at h; exact h⟩)
    · rw [if_neg (by linarith), ih h2]
      have e' : decide (r.1 ≤ r.2) = true := by simpa using hr
      simp [e', or_assoc]

/-- The range is a whole number of turns, or its two ends are apart. -/
def RangeOK (r : ℝ × ℝ) : Prop := EndsApart r ∨ ∃ n : ℤ, r.2 = r.1 + 2 * Real.pi * n

theorem between_whole {tol : ℝ} (ht : 0 ≤ tol) {ccw : Bool} {r : ℝ × ℝ} {n : ℤ} (h : r.2 = r.1 + 2 * Real.pi * n)
    (ang : ℝ) : Between tol ccw r.1 r.2 ang := by
  have key : ∀ a b : ℝ, SameAngle b a → ∃ len, ArcLength a b len ∧ OnArc tol a len ang := by
    rintro a b ⟨k, rfl⟩
    obtain ⟨m, hm⟩ := wrap_same (ang - a)
    refine ⟨2 * Real.pi, ⟨twoPi_pos.le, le_rfl, k - 1, by push_cast; ring⟩, wrap (ang - a), ?_, ?_, -m, ?_⟩
    · linarith [wrap_nonneg (ang - a)]
    · linarith [wrap_le (ang - a)]
    · rw [hm]; push_cast; ring
  cases ccw
  · simp only [Between, Bool.false_eq_true, if_false]
    exact key _ _ ⟨-n, by rw [h]; push_cast; ring⟩
  · simp only [Between, if_true]
    exact key _ _ ⟨n, h⟩

theorem inRange_sound {ccw : Bool} {r : ℝ × ℝ} (hr : RangeOK r) {ang : ℝ} (h : inRange ccw ang r.1 r.2 = true) :
    Between sqrtEpsf ccw r.1 r.2 ang := by
  rcases hr with hr | ⟨n, hn⟩
  · have := marked_lies_in_a_range (angs := [ang]) (ranges := [r]) (ccw := ccw) (by simpa using hr) (i := 0)
      (by simp [validateAngleRanges, inRanges, h])
    obtain ⟨a, ha, s, hs, hb⟩ := this
    simp only [List.getElem?_cons_zero, Option.some.injEq] at ha
    rw [List.mem_singleton.1 hs, ← ha] at hb
    exact hb
  · exact between_whole sqrtEpsf_pos.le hn ang

/-- Well inside: the range is a whole number of turns, or the angle is on its arc and is not, up to whole turns, the
end where the arc begins. -/
def Inside (ccw : Bool) (r : ℝ × ℝ) (ang : ℝ) : Prop :=
  (∃ n : ℤ, r.2 = r.1 + 2 * Real.pi * n) ∨
    (EndsApart r ∧ Between 0 ccw r.1 r.2 ang ∧ ¬ SameAngle ang (arcStart ccw r))

theorem inRange_complete {ccw : Bool} {r : ℝ × ℝ} {ang : ℝ} (h : Inside ccw r ang) :
    inRange ccw ang r.1 r.2 = true := by
  have key : (validateAngleRanges [ang] [r] ccw)[0]? = some true := by
    rcases h with ⟨n, hn⟩ | ⟨h1, h2, h3⟩
    · exact full_circle_marks_everything (List.mem_singleton.2 rfl) hn (by simp)
    · exact in_range_marked_partial (by simp) (List.mem_singleton.2 rfl) h1 h2
        (fun m _ e => h3 ⟨m, e⟩)
  simpa [validateAngleRanges, inRanges] using key

/-- The properties of the ranges that the code does not check. -/
structure RangesOK (etaR omeR : List (ℝ × ℝ)) : Prop where
  eta : ∀ r ∈ etaR, RangeOK r
  ome : ∀ r ∈ omeR, RangeOK r
  order : IncreasingFirst omeR

/-- C83: a row that passes the filter has its azimuth in one of the azimuth ranges and its omega in one of the omega
ranges, each taken in its own direction, up to the tolerance. -/
theorem rowMask_sound {etaR omeR : List (ℝ × ℝ)} (hr : RangesOK etaR omeR) {t e o : ℝ}
    (h : rowMask etaR omeR (some (t, e, o)) = true) : InCcw sqrtEpsf etaR e ∧ InDirected sqrtEpsf omeR o := by
  simp only [rowMask, Option.map_some, Bool.and_eq_true] at h
  rw [etaMask_iff, omeMask_iff _ hr.order] at h
  simp only [Bool.false_eq_true, false_or, inRangeNan] at h
  obtain ⟨⟨r, hrm, h1⟩, s, hs, h2⟩ := h
  exact ⟨⟨r, hrm, inRange_sound (hr.eta r hrm) h1⟩, s, hs, inRange_sound (hr.ome s hs) h2⟩

/-- C83: a row whose angles are inside one of the ranges passes the filter. -/
theorem rowMask_complete {etaR omeR : List (ℝ × ℝ)} (ho : IncreasingFirst omeR) {t e o : ℝ}
    (h1 : ∃ r ∈ etaR, Inside true r e) (h2 : ∃ r ∈ omeR, Inside (decide (r.1 ≤ r.2)) r o) :
    rowMask etaR omeR (some (t, e, o)) = true := by
  simp only [rowMask, Option.map_some, Bool.and_eq_true]
  rw [etaMask_iff, omeMask_iff _ ho]
  simp only [Bool.false_eq_true, false_or, inRangeNan]
  obtain ⟨r, hr, h1⟩ := h1
  obtain ⟨s, hs, h2⟩ := h2
  exact ⟨⟨r, hr, inRange_complete h1⟩, s, hs, inRange_complete h2⟩

/-! ### Lists that are filtered together -/

theorem select_map {α β : Type} (f : α → β) (b : α → Bool) (l : List α) :
    select (l.map f) (l.map b) = (l.filter b).map f := by
  induction l with
  | nil => rfl
  | cons a l ih =>
    rw [List.map_cons, List.map_cons, select, ih, List.filter_cons]
    cases b a <;> simp

theorem mapM_getD {α β : Type} {f : α → Option β} (d : β) {l : List α} {l' : List β} (h : l.mapM f = some l') :
    l' = l.map (fun x => (f x).getD d) ∧ ∀ x ∈ l, f x = some ((f x).getD d) := by
  induction l generalizing l' with
  | nil => simp at h; simp [h]
  | cons a l ih =>
    rw [List.mapM_cons] at h
    cases ha : f a with
    | none => rw [ha] at h; simp at h
    | some b =>
      rw [ha] at h
      cases hl : l.mapM f with
      | none => rw [hl] at h; simp at h
      | some bs =>
        rw [hl] at h
        simp at h
        obtain ⟨e1, e2⟩ := ih hl
        subst h
        refine ⟨by rw [List.map_cons, ha, ← e1]; rfl, ?_⟩
        intro x hx
        rcases List.mem_cons.1 hx with rfl | hx
        · rw [ha]; rfl
        · exact e2 x hx

theorem mapM_some_of {α β : Type} {f : α → Option β} {l : List α} (h : ∀ x ∈ l, ∃ y, f x = some y) :
    ∃ l', l.mapM f = some l' := by
  induction l with
  | nil => exact ⟨[], rfl⟩
  | cons a l ih =>
    obtain ⟨y, hy⟩ := h a (by simp)
    obtain ⟨ys, hys⟩ := ih fun x hx => h x (by simp [hx])
    exact ⟨y :: ys, by rw [List.mapM_cons, hy, hys]; rfl⟩

theorem zip_map_self {α β γ : Type} (f : α → β) (g : α → γ) (l : List α) :
    (l.map f).zip (l.map g) = l.map fun x => (f x, g x) := by
  induction l with
  | nil => rfl
  | cons a l ih => simp [ih]

theorem filterMap_id_map {α β : Type} (f : α → Option β) (d : β) (l : List α) :
    (l.map f).filterMap id = (l.filter fun x => (f x).isSome).map fun x => (f x).getD d := by
  induction l with
  | nil => rfl
  | cons a l ih =>
    rw [List.map_cons, List.filterMap_cons, ih, List.filter_cons]
    cases h : f a <;> simp [h]

theorem select_if {α β : Type} (f : α → β) (b : α → Bool) (l : List α) :
    (if (l.map b).any (!·) then select (l.map f) (l.map b) else l.map f) = (l.filter b).map f := by
  split
  · exact select_map f b l
  · rename_i h
    have : l.filter b = l := by
      rw [List.filter_eq_self]
      intro a ha
      by_contra hb
      apply h
      rw [List.any_eq_true]
      exact ⟨b a, List.mem_map.2 ⟨a, ha, rfl⟩, by simpa using hb⟩
    rw [this]

/-- A listed reflection: the row of a family, one of its two triplets that passes the filter, its omega brought into
the period, and its point on the panel. -/
structure Listed (s : Scene) (g : Grain) (r : Row) (t e o : ℝ) (xy : ℝ × ℝ) : Prop where
  row : r ∈ s.rows
  osc : ∃ p q, oscillAngles r.hkl s.chi g.rc s.bmat (wavelength s g) g.vInv s.b etaVec = some (some (p, q)) ∧
    ∃ u ∈ [p, q], u.tTh = some t ∧ u.eta = some e ∧ rowMask s.etaR s.omeR (some (t, e, u.ome)) = true ∧
      mapAngle (some u.ome) (some [s.period.1, s.period.2]) .radians = some o
  point : project s g (some (t, e, o)) = some xy
  panel : onPanel s.panel s.buf true xy = true

theorem oscRow_some {o : Option Osc} {a : Ang} (h : oscRow o = some (some a)) :
    ∃ u, o = some u ∧ u.tTh = some a.1 ∧ u.eta = some a.2.1 ∧ u.ome = a.2.2 := by
  unfold oscRow at h
  split at h
  · simp at h
  · simp only [Option.some.injEq] at h
    subst h
    exact ⟨_, rfl, rfl, rfl, rfl⟩
  · simp at h

/-- The four lists of a grain are read off one list of entries. -/
theorem simulate_entries {s : Scene} {g : Grain} {res : Result} (h : simulateGrain s g = some res) :
    ∃ L : List (Row × Ang × (ℝ × ℝ)),
      res = ⟨L.map (·.1.id), L.map (·.1.hkl), L.map (fun x => some x.2.1), L.map (·.2.2)⟩ ∧
      L.length ≤ 2 * s.rows.length ∧
      ∀ r t e o xy, (r, (t, e, o), xy) ∈ L ↔ Listed s g r t e o xy := by
  unfold simulateGrain at h
  simp only [Option.bind_eq_bind, Option.bind_eq_some_iff] at h
  obtain ⟨per, hper, a0, h0, a1, h1, h⟩ := h
  obtain ⟨eper, fper⟩ := mapM_getD none hper
  obtain ⟨e0, f0⟩ := mapM_getD none h0
  obtain ⟨e1, f1⟩ := mapM_getD none h1
  set F : Row → Option (Osc × Osc) := fun r => (oscillAngles r.hkl s.chi g.rc s.bmat (wavelength s g) g.vInv s.b etaVec).getD none with hF
  -- the list of candidates
  set C : List (Row × Option Ang) :=
    s.rows.map (fun r => (r, (oscRow ((F r).map (·.1))).getD none)) ++
    s.rows.map (fun r => (r, (oscRow ((F r).map (·.2))).getD none)) with hC
  have ea : a0 ++ a1 = C.map (·.2) := by
    rw [e0, e1, eper, hC, List.map_append, List.map_map, List.map_map, List.map_map, List.map_map]
    rfl
  have er : s.rows ++ s.rows = C.map (·.1) := by
    rw [hC, List.map_append, List.map_map, List.map_map]
    simp [Function.comp_def]
  simp only [filterHkls] at h
  rw [ea, er, List.map_map] at h
  have es1 : select (C.map (·.2)) (C.map (rowMask s.etaR s.omeR ∘ fun x => x.2)) =
      (C.filter fun x => rowMask s.etaR s.omeR x.2).map (·.2) := select_map _ _ _
  have es2 : select (C.map (·.1)) (C.map (rowMask s.etaR s.omeR ∘ fun x => x.2)) =
      (C.filter fun x => rowMask s.etaR s.omeR x.2).map (·.1) := select_map _ _ _
  rw [es1, es2] at h
  set D := C.filter fun x => rowMask s.etaR s.omeR x.2 with hD
  obtain ⟨angs, hm, h⟩ := h
  obtain ⟨em, fm⟩ := mapM_getD none hm
  set G : Option Ang → Option Ang := fun x => (mapOme s.period x).getD none with hG
  rw [List.map_map] at em
  have em' : angs = D.map (fun x => G x.2) := em
  rw [em'] at h
  simp only [List.map_map] at h
  have ep : (D.map (project s g ∘ fun x => G x.2)).filterMap id =
      (D.filter fun x => (project s g (G x.2)).isSome).map fun x => (project s g (G x.2)).getD (0, 0) :=
    filterMap_id_map _ _ _
  have ei1 := select_if (fun x : Row × Option Ang => G x.2) (fun x => (project s g (G x.2)).isSome) D
  have ei2 := select_if (fun x : Row × Option Ang => x.1) (fun x => (project s g (G x.2)).isSome) D
  have ec : (Option.isSome ∘ project s g ∘ fun x : Row × Option Ang => G x.2) =
    fun x => (project s g (G x.2)).isSome := rfl
  rw [ec, ei1, ei2, ep] at h
  set E := D.filter fun x => (project s g (G x.2)).isSome with hE
  simp only [clipToPanel, List.map_map] at h
  have ec2 : (onPanel s.panel s.buf true ∘ fun x : Row × Option Ang => (project s g (G x.2)).getD (0, 0)) =
    fun x => onPanel s.panel s.buf true ((project s g (G x.2)).getD (0, 0)) := rfl
  rw [ec2, select_map, select_map, select_map] at h
  set K := E.filter fun x => onPanel s.panel s.buf true ((project s g (G x.2)).getD (0, 0)) with hK
  -- entries
  have hmem : ∀ x ∈ K, ∃ a, G x.2 = some a := by
    intro x hx
    have hx' := (List.mem_filter.1 (List.mem_filter.1 hx).1).2
    cases hg : G x.2 with
    | none => rw [hg] at hx'; simp [project] at hx'
    | some a => exact ⟨a, rfl⟩
  refine ⟨K.map fun x => (x.1, (G x.2).getD (0, 0, 0), (project s g (G x.2)).getD (0, 0)), ?_, ?_, ?_⟩
  · simp only [Option.pure_def, Option.some.injEq] at h
    rw [← h, List.map_map, List.map_map, List.map_map, List.map_map, List.map_map, List.map_map]
    congr 1
    apply List.map_congr_left
    intro x hx
    obtain ⟨a, ha⟩ := hmem x hx
    simp [ha]
  · rw [List.length_map]
    calc K.length ≤ E.length := List.length_filter_le _ _
      _ ≤ D.length := List.length_filter_le _ _
      _ ≤ C.length := List.length_filter_le _ _
      _ = 2 * s.rows.length := by rw [hC]; simp; ring
  · intro r t e o xy
    have hosc : ∀ r ∈ s.rows, oscillAngles r.hkl s.chi g.rc s.bmat (wavelength s g) g.vInv s.b etaVec = some (F r) :=
      fper
    have hperm : ∀ r ∈ s.rows, F r ∈ per := fun r hr => by rw [eper]; exact List.mem_map.2 ⟨r, hr, rfl⟩
    have hGm : ∀ x : Row × Option Ang, x ∈ D → mapOme s.period x.2 = some (G x.2) := fun x hx =>
      fm x.2 (List.mem_map.2 ⟨x, hx, rfl⟩)
    have hGs : ∀ {x : Row × Option Ang} {t e w}, x ∈ D → x.2 = some (t, e, w) →
        ∃ o, mapAngle (some w) (some [s.period.1, s.period.2]) .radians = some o ∧ G x.2 = some (t, e, o) := by
      intro x t e w hx hx2
      have := hGm x hx
      rw [hx2] at this ⊢
      simp only [mapOme, Option.map_some, Option.bind_eq_bind, Option.bind_eq_some_iff, Option.pure_def,
        Option.some.injEq] at this
      obtain ⟨o, ho, h2⟩ := this
      exact ⟨o, ho, h2.symm⟩
    have hGn : ∀ {x : Row × Option Ang}, x ∈ D → x.2 = none → G x.2 = none := by
      intro x hx hx2
      have := hGm x hx
      rw [hx2] at this ⊢
      simp only [mapOme, Option.map_none, Option.bind_eq_bind, Option.bind_eq_some_iff, Option.pure_def,
        Option.some.injEq] at this
      obtain ⟨o, ho, h2⟩ := this
      exact h2.symm
    constructor
    · intro hx
      obtain ⟨x, hx, hxe⟩ := List.mem_map.1 hx
      obtain ⟨hxE, hxp⟩ := List.mem_filter.1 hx
      obtain ⟨hxD, hxs⟩ := List.mem_filter.1 hxE
      obtain ⟨hxC, hxm⟩ := List.mem_filter.1 hxD
      simp only [Prod.mk.injEq] at hxe
      obtain ⟨e1, e2, e3⟩ := hxe
      obtain ⟨a, ha⟩ := hmem x hx
      have hx2 : ∃ t e w, x.2 = some (t, e, w) := by
        cases hx2 : x.2 with
        | none => rw [hGn hxD hx2] at ha; simp at ha
        | some v => exact ⟨v.1, v.2.1, v.2.2, rfl⟩
      obtain ⟨t', e', w, hx2⟩ := hx2
      obtain ⟨o', ho', hG'⟩ := hGs hxD hx2
      rw [hG'] at e2 e3 hxs hxp
      simp only [Option.getD_some, Prod.mk.injEq] at e2
      obtain ⟨rfl, rfl, rfl⟩ := e2
      obtain ⟨xy', hxy⟩ := Option.isSome_iff_exists.1 hxs
      rw [hxy] at e3 hxp
      simp only [Option.getD_some] at e3 hxp
      subst e3
      have hrow : x.1 ∈ s.rows ∧ ∃ pq, F x.1 = some pq ∧ ∃ u ∈ [pq.1, pq.2], u.tTh = some t' ∧ u.eta = some e' ∧ u.ome = w := by
        rw [hC, List.mem_append, List.mem_map, List.mem_map] at hxC
        rcases hxC with ⟨r, hr, rfl⟩ | ⟨r, hr, rfl⟩
        · simp only at hx2 ⊢
          have := f0 (F r) (hperm r hr)
          rw [hx2] at this
          obtain ⟨u, hu, h1, h2, h3⟩ := oscRow_some this
          rw [Option.map_eq_some_iff] at hu
          obtain ⟨pq, hpq, rfl⟩ := hu
          exact ⟨hr, pq, hpq, _, by simp, h1, h2, h3⟩
        · simp only at hx2 ⊢
          have := f1 (F r) (hperm r hr)
          rw [hx2] at this
          obtain ⟨u, hu, h1, h2, h3⟩ := oscRow_some this
          rw [Option.map_eq_some_iff] at hu
          obtain ⟨pq, hpq, rfl⟩ := hu
          exact ⟨hr, pq, hpq, _, by simp, h1, h2, h3⟩
      obtain ⟨hr, pq, hpq, u, hu, h1, h2, h3⟩ := hrow
      subst e1
      rw [hx2] at hxm
      subst h3
      exact ⟨hr, ⟨pq.1, pq.2, by rw [hosc _ hr, hpq], u, hu, h1, h2, hxm, ho'⟩, hxy, hxp⟩
    · rintro ⟨hr, ⟨p, q, hpq, u, hu, h1, h2, hm, ho⟩, hp, hpan⟩
      have hFr : F r = some (p, q) := by
        have := hosc r hr
        rw [hpq] at this
        exact (Option.some.inj this).symm
      have hxC : (r, some (t, e, u.ome)) ∈ C := by
        have hrow : ∀ u : Osc, u.tTh = some t → u.eta = some e → oscRow (some u) = some (some (t, e, u.ome)) := by
          rintro ⟨a, b, c⟩ rfl rfl; rfl
        rw [hC, List.mem_append, List.mem_map, List.mem_map]
        rcases List.mem_cons.1 hu with rfl | hu
        · exact Or.inl ⟨r, hr, by rw [hFr, Option.map_some, hrow _ h1 h2]; rfl⟩
        · rw [List.mem_singleton.1 hu] at h1 h2 ⊢
          exact Or.inr ⟨r, hr, by rw [hFr, Option.map_some, hrow _ h1 h2]; rfl⟩
      have hxD : (r, some (t, e, u.ome)) ∈ D := List.mem_filter.2 ⟨hxC, hm⟩
      obtain ⟨o', ho', hG'⟩ := hGs hxD rfl
      rw [ho] at ho'
      obtain rfl := Option.some.inj ho'
      simp only at hG'
      have hxE : (r, some (t, e, u.ome)) ∈ E := List.mem_filter.2 ⟨hxD, by simp only; rw [hG', hp]; rfl⟩
      have hxK : (r, some (t, e, u.ome)) ∈ K := List.mem_filter.2 ⟨hxE, by simp only; rw [hG', hp]; exact hpan⟩
      refine List.mem_map.2 ⟨_, hxK, ?_⟩
      simp only
      rw [hG', hp]; rfl

theorem sameAngle_trans {a b c : ℝ} (h : SameAngle a b) (h' : SameAngle b c) : SameAngle a c := by
  obtain ⟨k, rfl⟩ := h; obtain ⟨j, rfl⟩ := h'
  exact ⟨k + j, by push_cast; ring⟩

theorem sameAngle_symm {a b : ℝ} (h : SameAngle a b) : SameAngle b a := by
  obtain ⟨k, rfl⟩ := h
  exact ⟨-k, by push_cast; ring⟩

theorem between_congr {tol : ℝ} {ccw : Bool} {a b x y : ℝ} (h : SameAngle x y) (hb : Between tol ccw a b x) :
    Between tol ccw a b y := by
  have key : ∀ st len, OnArc tol st len x → OnArc tol st len y := by
    rintro st len ⟨t, h1, h2, h3⟩
    exact ⟨t, h1, h2, sameAngle_trans (sameAngle_symm h) h3⟩
  cases ccw
  · simp only [Between, Bool.false_eq_true, if_false] at hb ⊢
    obtain ⟨len, h1, h2⟩ := hb
    exact ⟨len, h1, key _ _ h2⟩
  · simp only [Between, if_true] at hb ⊢
    obtain ⟨len, h1, h2⟩ := hb
    exact ⟨len, h1, key _ _ h2⟩

theorem inside_congr {ccw : Bool} {r : ℝ × ℝ} {x y : ℝ} (h : SameAngle x y) (hi : Inside ccw r x) :
    Inside ccw r y := by
  rcases hi with hi | ⟨h1, h2, h3⟩
  · exact Or.inl hi
  · exact Or.inr ⟨h1, between_congr h h2, fun h4 => h3 (sameAngle_trans h h4)⟩

/-! ### Physics of a listed reflection -/

/-- What the simulation takes for granted: a beam that is not along the azimuth reference (and not so close to `-z`
that the code replaces it), a rotation for the panel, a period of one turn, and reflections of non-zero length at a
positive wavelength. -/
structure Posed (s : Scene) (g : Grain) (bh : V) : Prop where
  beam : IsDirection bh s.b
  resolved : BeamResolved s.b
  across : |bh ⬝ᵥ etaVec| < 1 - sqrtEpsf
  det : IsRotation s.rd
  period : s.period.2 - s.period.1 = 2 * Real.pi
  wave : 0 < wavelength s g
  rows : ∀ r ∈ s.rows, epsf < √(scattering g.vInv g.rc s.bmat r.hkl ⬝ᵥ scattering g.vInv g.rc s.bmat r.hkl)

theorem sameAngle_sample {a b : ℝ} (h : SameAngle a b) (chi : ℝ) : sampleRmat chi a = sampleRmat chi b := by
  obtain ⟨k, rfl⟩ := h
  have e : b + 2 * Real.pi * k = b + k * (2 * Real.pi) := by ring
  rw [e]
  unfold sampleRmat
  rw [Real.cos_add_int_mul_two_pi, Real.sin_add_int_mul_two_pi]

theorem sameAngle_gvec {a b : ℝ} (h : SameAngle a b) (t e : ℝ) (bv ev : V) (chi : ℝ) (rc : M) :
    anglesToGvec t e a bv ev chi rc = anglesToGvec t e b bv ev chi rc := by
  simp only [anglesToGvec, toCrystal_eq, sameAngle_sample h]

theorem stage_eq (chi ome : ℝ) : stage chi ome = sampleRmat chi ome := (sampleRmat_eq chi ome).symm

/-- The wave scattered by a reflection that diffracts is the mirror image of the beam. -/
theorem scattered_reflected {R : M} (hR : IsRotation R) {bh S n : V} {lam : ℝ} (hb : IsUnit3 bh) (hl : 0 < lam)
    (hn : IsDirection n S) (hd : Diffracts R bh S lam) : bh + lam • (R *ᵥ S) = reflected bh (R *ᵥ n) := by
  obtain ⟨hu, c, hc, rfl⟩ := hn
  have hm : (R *ᵥ n) ⬝ᵥ (R *ᵥ n) = 1 := by
    rw [← mulV_eq, ← dot_eq, dot_mulV_mulV hR.1, dot_eq]; exact hu
  rw [Diffracts, IsUnit3, mulVec_smul, dotProduct_add, add_dotProduct, add_dotProduct] at hd
  simp only [smul_dotProduct, dotProduct_smul, smul_eq_mul, hm] at hd
  rw [IsUnit3] at hb
  rw [hb, dotProduct_comm (R *ᵥ n) bh] at hd
  have hk : 2 * (bh ⬝ᵥ (R *ᵥ n)) = -(lam * c) := by
    have h0 : lam * c * (2 * (bh ⬝ᵥ (R *ᵥ n)) + lam * c) = 0 := by linarith
    have := (mul_eq_zero.1 h0).resolve_left (mul_pos hl hc).ne'
    linarith
  rw [reflected, hk, mulVec_smul, smul_smul, neg_smul, sub_neg_eq_add]

theorem etaVec_unit : IsUnit3 etaVec := by rw [IsUnit3, ← dot_eq]; simp [dot, etaVec]

theorem etaVec_dir : IsDirection etaVec etaVec := ⟨etaVec_unit, 1, one_pos, by simp⟩

theorem etaVec_long : epsf < √(etaVec ⬝ᵥ etaVec) := by
  have := etaVec_unit
  rw [IsUnit3] at this
  rw [this]; simp [epsf]; norm_num

variable {s : Scene} {g : Grain} {bh : V}

theorem Posed.cross (h : Posed s g bh) : etaVec ⨯₃ s.b ≠ 0 := by
  obtain ⟨r, hr⟩ := frame_of_crc h.beam.1 etaVec_unit h.across
  have := cross_ne_zero_of_frame hr
  obtain ⟨-, c, hc, e⟩ := h.beam
  rw [e, map_smul]
  exact smul_ne_zero hc.ne' this

theorem Posed.proper (h : Posed s g bh) {r : Row} (hr : r ∈ s.rows) :
    Proper r.hkl g.rc s.bmat g.vInv s.b (wavelength s g) :=
  ⟨expmapRmat_isRotation _, h.rows r hr, by obtain ⟨_, _, h2, _⟩ := h.resolved; exact h2, h.wave⟩

theorem mapAngle_period {lo hi a o : ℝ} (hp : hi - lo = 2 * Real.pi)
    (h : mapAngle (some a) (some [lo, hi]) .radians = some o) : lo ≤ o ∧ o ≤ hi ∧ SameAngle o a := by
  have hlt : lo ≤ hi := by linarith [twoPi_pos]
  have := mapAngle_spec (some a) (some [lo, hi]) .radians (2 * Real.pi) lo hi o rfl
    ⟨by simp, by simp, by simp [hlt]⟩ hp h
  obtain ⟨h1, h2, k, hk⟩ := this
  exact ⟨h1, h2, k, by rw [hk]; simp; ring⟩

theorem mapAngle_runs {lo hi : ℝ} (hp : hi - lo = 2 * Real.pi) (a : Option ℝ) :
    ∃ o, mapAngle a (some [lo, hi]) .radians = some o := by
  have hlt : lo ≤ hi := by linarith [twoPi_pos]
  have e1 : [lo, hi].min? = some lo := List.min?_eq_some_iff.2 ⟨by simp, by simp [hlt]⟩
  have e2 : [lo, hi].max? = some hi := List.max?_eq_some_iff.2 ⟨by simp, by simp [hlt]⟩
  have hc : allclose (hi - lo) (2 * Real.pi) := by
    unfold allclose; rw [hp]; simp; positivity
  unfold mapAngle
  simp only [period, e1, e2, Option.bind_eq_bind, Option.bind_some, if_pos hc]
  exact ⟨_, rfl⟩

/-- The ray made from the angles of a triplet is the scattered wave, and has these angles in the beam frame. -/
theorem gvec_ray (h : Posed s g bh) {frame : M} (hf : IsBeamFrame s.b etaVec frame) {S : V} {t e o : ℝ}
    (hg : IsDirection (anglesToGvec t e o s.b etaVec s.chi g.rc) (g.rcᵀ *ᵥ S))
    (hd : Diffracts (stage s.chi o) bh S (wavelength s g)) :
    scattered bh S (wavelength s g) s.chi o =
      reflected bh (sampleRmat s.chi o *ᵥ (g.rc *ᵥ anglesToGvec t e o s.b etaVec s.chi g.rc)) ∧
    scattered bh S (wavelength s g) s.chi o =
      frame *ᵥ ![Real.sin t * Real.cos e, Real.sin t * Real.sin e, -Real.cos t] := by
  have hrc : IsRotation g.rc := expmapRmat_isRotation _
  have hn : IsDirection (g.rc *ᵥ anglesToGvec t e o s.b etaVec s.chi g.rc) S := by
    obtain ⟨hu, c, hc, e1⟩ := hg
    refine ⟨?_, c, hc, ?_⟩
    · rw [IsUnit3, ← mulV_eq, ← dot_eq, dot_mulV_mulV hrc.1, dot_eq]; exact hu
    · rw [← mulVec_smul, ← e1, mulVec_mulVec, mul_eq_one_comm.1 hrc.1, one_mulVec]
  have h1 : scattered bh S (wavelength s g) s.chi o =
      reflected bh (sampleRmat s.chi o *ᵥ (g.rc *ᵥ anglesToGvec t e o s.b etaVec s.chi g.rc)) := by
    rw [scattered, stage_eq]
    rw [stage_eq] at hd
    exact scattered_reflected (sampleRmat_isRotation _ _) h.beam.1 h.wave hn hd
  refine ⟨h1, ?_⟩
  rw [h1, ← dvec_is_reflection h.cross h.beam hrc]
  simp only [← mulV_eq, anglesToDvec]
  rw [lab_of_toCrystal hrc, isBeamFrame_unique (eigenBeamFrame_isBeamFrame h.cross) hf]

/-- C84: what is listed is a diffraction spot of one of the reflections, within the ranges, on the panel. -/
theorem listed_sound (h : Posed s g bh) (hR : RangesOK s.etaR s.omeR) {frame : M}
    (hf : IsBeamFrame s.b etaVec frame) {r : Row} {t e o : ℝ} {xy : ℝ × ℝ} (hl : Listed s g r t e o xy) :
    Spot s.rd s.td frame bh s.ts g.tc (scattering g.vInv g.rc s.bmat r.hkl) (wavelength s g) s.chi t e o xy ∧
      (0 ≤ t ∧ t ≤ Real.pi) ∧ (-Real.pi < e ∧ e ≤ Real.pi) ∧ (s.period.1 ≤ o ∧ o ≤ s.period.2) ∧
      InCcw sqrtEpsf s.etaR e ∧ InDirected sqrtEpsf s.omeR o := by
  obtain ⟨hr, ⟨p, q, hpq, u, hu, h1, h2, hm, ho⟩, hp, -⟩ := hl
  have hP := h.proper hr
  obtain ⟨t', e', k1, k2, k3, k4, k5⟩ :=
    oscill_angles_describe hP h.beam etaVec_dir etaVec_long h.across hpq u hu
  rw [h1] at k1; rw [h2] at k2
  obtain rfl := Option.some.inj k1
  obtain rfl := Option.some.inj k2
  obtain ⟨ho1, ho2, ho3⟩ := mapAngle_period h.period ho
  have hd : Diffracts (stage s.chi o) bh (scattering g.vInv g.rc s.bmat r.hkl) (wavelength s g) := by
    rw [stage_eq]
    refine (oscill_exact hP h.beam hpq o).2 ?_
    rcases List.mem_cons.1 hu with rfl | hu
    · exact Or.inl ho3
    · rw [List.mem_singleton.1 hu] at ho3; exact Or.inr ho3
  rw [← sameAngle_gvec ho3] at k5
  obtain ⟨d1, d2⟩ := gvec_ray h hf (S := scattering g.vInv g.rc s.bmat r.hkl) k5 hd
  refine ⟨⟨hd, d2, ?_⟩, k3, k4, ⟨ho1, ho2⟩, (rowMask_sound hR hm).1, ?_⟩
  swap
  · obtain ⟨c, hc, hb⟩ := (rowMask_sound hR hm).2
    exact ⟨c, hc, between_congr (sameAngle_symm ho3) hb⟩
  rw [d1, stage_eq]
  exact gvecToXY_hits h.resolved h.beam h.det hp

theorem polar_unique {t t' e e' : ℝ} (ht : 0 < t ∧ t < Real.pi) (ht' : 0 ≤ t' ∧ t' ≤ Real.pi)
    (he : -Real.pi < e ∧ e ≤ Real.pi) (he' : -Real.pi < e' ∧ e' ≤ Real.pi)
    (h0 : Real.sin t * Real.cos e = Real.sin t' * Real.cos e') (h1 : Real.sin t * Real.sin e = Real.sin t' * Real.sin e')
    (h2 : Real.cos t = Real.cos t') : t' = t ∧ e' = e := by
  have et : t' = t := (Real.injOn_cos ⟨ht.1.le, ht.2.le⟩ ⟨ht'.1, ht'.2⟩ h2).symm
  subst et
  have hs := Real.sin_pos_of_pos_of_lt_pi ht.1 ht.2
  have a1 := arg_polar hs he.1 he.2
  have a2 := arg_polar hs he'.1 he'.2
  rw [h0, h1, a2] at a1
  exact ⟨rfl, a1⟩

/-- The ray of a spot is not parallel to the detector. -/
def NotGrazing (rd : M) (d : V) : Prop := (fun i => rd i 2) ⬝ᵥ d ≠ 0

/-- C84: a diffraction spot of one of the reflections that is inside the ranges and on the panel is listed, provided
the simulation succeeds. -/
theorem listed_complete (h : Posed s g bh) (ho : IncreasingFirst s.omeR) {frame : M}
    (hf : IsBeamFrame s.b etaVec frame) {res : Result} (hs : simulateGrain s g = some res)
    {r : Row} (hr : r ∈ s.rows) {t e o : ℝ} {xy : ℝ × ℝ}
    (hsp : Spot s.rd s.td frame bh s.ts g.tc (scattering g.vInv g.rc s.bmat r.hkl) (wavelength s g) s.chi t e o xy)
    (ht : 0 < t ∧ t < Real.pi) (he : -Real.pi < e ∧ e ≤ Real.pi)
    (hng : NotGrazing s.rd (scattered bh (scattering g.vInv g.rc s.bmat r.hkl) (wavelength s g) s.chi o))
    (h1 : ∃ c ∈ s.etaR, Inside true c e) (h2 : ∃ c ∈ s.omeR, Inside (decide (c.1 ≤ c.2)) c o)
    (hpan : onPanel s.panel s.buf true xy = true) :
    ∃ o', SameAngle o' o ∧ Listed s g r t e o' xy := by
  have hP := h.proper hr
  -- the reflection has two triplets
  have hosc : ∃ w, oscillAngles r.hkl s.chi g.rc s.bmat (wavelength s g) g.vInv s.b etaVec = some w := by
    unfold simulateGrain at hs
    simp only [Option.bind_eq_bind, Option.bind_eq_some_iff] at hs
    obtain ⟨per, hper, -⟩ := hs
    exact ⟨_, (mapM_getD none hper).2 r hr⟩
  obtain ⟨w, hw⟩ := hosc
  have hd := hsp.diffracts
  cases w with
  | none =>
    rw [stage_eq] at hd
    exact absurd hd (oscill_nan hP h.beam hw o)
  | some pq =>
    obtain ⟨p, q⟩ := pq
    have hd' := hd
    rw [stage_eq] at hd'
    have hx := (oscill_exact hP h.beam hw o).1 hd'
    obtain ⟨u, hu, hu2⟩ : ∃ u ∈ [p, q], SameAngle o u.ome := by
      rcases hx with hx | hx
      · exact ⟨p, by simp, hx⟩
      · exact ⟨q, by simp, hx⟩
    obtain ⟨t', e', k1, k2, k3, k4, k5⟩ :=
      oscill_angles_describe hP h.beam etaVec_dir etaVec_long h.across hw u hu
    obtain ⟨o', ho'⟩ := mapAngle_runs h.period (some u.ome)
    obtain ⟨-, -, ho3⟩ := mapAngle_period h.period ho'
    have hoo : SameAngle u.ome o := by obtain ⟨k, hk⟩ := hu2; exact ⟨-k, by rw [hk]; push_cast; ring⟩
    have hoo' : SameAngle o' o := by
      obtain ⟨k, hk⟩ := hoo; obtain ⟨j, hj⟩ := ho3
      exact ⟨k + j, by rw [hj, hk]; push_cast; ring⟩
    rw [sameAngle_gvec hoo] at k5
    obtain ⟨d1, d2⟩ := gvec_ray h hf (S := scattering g.vInv g.rc s.bmat r.hkl) k5 hd
    have hdir := hsp.direction
    rw [d2] at hdir
    have hinj : (![Real.sin t' * Real.cos e', Real.sin t' * Real.sin e', -Real.cos t'] : V) =
        ![Real.sin t * Real.cos e, Real.sin t * Real.sin e, -Real.cos t] := by
      have := congrArg (fun v => frameᵀ *ᵥ v) hdir
      simpa [mulVec_mulVec, hf.1.1] using this
    obtain ⟨rfl, rfl⟩ := polar_unique ht k3 he k4 (by simpa using (congrFun hinj 0).symm)
      (by simpa using (congrFun hinj 1).symm) (by simpa using (congrFun hinj 2).symm)
    refine ⟨o', hoo', hr, ⟨p, q, hw, u, hu, k1, k2, rowMask_complete ho h1 ?_, ho'⟩, ?_, hpan⟩
    · obtain ⟨c, hc, hi⟩ := h2
      exact ⟨c, hc, inside_congr hu2 hi⟩
    have hh := hsp.hits
    rw [d1, stage_eq] at hh
    unfold NotGrazing at hng
    rw [d1] at hng
    simp only [project]
    rw [sameAngle_gvec hoo', sameAngle_sample hoo']
    exact gvecToXY_complete h.resolved h.beam h.det hh hng

/-- C85: the simulation stops at the assertion of the C code exactly for a reflection whose component along the beam
does not change when the stage is turned. -/
theorem oscill_none_iff {hkl : V} {chi lam : ℝ} {rc bmat : M} {vInv : Fin 6 → ℝ} {b e bh : V}
    (hp : Proper hkl rc bmat vInv b lam) (hb : IsDirection bh b) :
    oscillAngles hkl chi rc bmat lam vInv b e = none ↔
      ∀ ome ome', bh ⬝ᵥ (stage chi ome *ᵥ scattering vInv rc bmat hkl) =
        bh ⬝ᵥ (stage chi ome' *ᵥ scattering vInv rc bmat hkl) := by
  set S := scattering vInv rc bmat hkl with hS
  have hL : 0 < √(S ⬝ᵥ S) := epsf_pos.trans hp.long
  have hSg : S = √(S ⬝ᵥ S) • (fun i => S i / √(S ⬝ᵥ S) : V) := by
    ext i; simp only [Pi.smul_apply, smul_eq_mul]; field_simp
  have hval : ∀ ome, bh ⬝ᵥ (stage chi ome *ᵥ S) = √(S ⬝ᵥ S) *
      ((harmonic (fun i => S i / √(S ⬝ᵥ S)) bh chi (1 / 2 * lam * √(S ⬝ᵥ S))).1 * Real.sin ome +
        (harmonic (fun i => S i / √(S ⬝ᵥ S)) bh chi (1 / 2 * lam * √(S ⬝ᵥ S))).2.1 * Real.cos ome -
        (harmonic (fun i => S i / √(S ⬝ᵥ S)) bh chi (1 / 2 * lam * √(S ⬝ᵥ S))).2.2 -
        1 / 2 * lam * √(S ⬝ᵥ S)) := by
    intro ome
    conv_lhs => rw [hSg]
    rw [stage_eq, mulVec_smul, dotProduct_smul, smul_eq_mul]
    congr 1
    generalize (fun i => S i / √(S ⬝ᵥ S) : V) = n
    rw [← mulV_eq, ← dot_eq]
    simp [dot, mulV, sampleRmat, harmonic]
    ring
  rw [oscillAngles_unfold hp hb]
  have e0 : sampleVector hkl rc bmat vInv = S := rfl
  simp only [e0, hval]
  generalize harmonic (fun i => S i / √(S ⬝ᵥ S)) bh chi (1 / 2 * lam * √(S ⬝ᵥ S)) = k
  have hz : (¬ 0 < √(k.1 * k.1 + k.2.1 * k.2.1)) ↔ k.1 = 0 ∧ k.2.1 = 0 := by
    rw [Real.sqrt_pos, not_lt]
    constructor
    · intro h
      constructor <;> nlinarith [mul_self_nonneg k.1, mul_self_nonneg k.2.1]
    · rintro ⟨h1, h2⟩; rw [h1, h2]; simp
  constructor
  · intro h
    split at h
    · rename_i hk
      obtain ⟨h1, h2⟩ := hz.1 hk
      intro ome ome'; rw [h1, h2]; simp
    · split at h <;> simp at h
  · intro h
    rw [if_pos]
    rw [hz]
    have a1 := mul_left_cancel₀ hL.ne' (h (Real.pi / 2) (-(Real.pi / 2)))
    have a2 := mul_left_cancel₀ hL.ne' (h 0 Real.pi)
    simp at a1 a2
    constructor <;> linarith

/-- C85: under the standing conditions, the simulation of a grain succeeds exactly if no reflection keeps its
component along the beam for all stage angles. -/
theorem simulate_succeeds_iff (h : Posed s g bh) :
    (∃ res, simulateGrain s g = some res) ↔ ∀ r ∈ s.rows, ∃ ome ome',
      bh ⬝ᵥ (stage s.chi ome *ᵥ scattering g.vInv g.rc s.bmat r.hkl) ≠
        bh ⬝ᵥ (stage s.chi ome' *ᵥ scattering g.vInv g.rc s.bmat r.hkl) := by
  have hpt : ∀ r ∈ s.rows, (∃ w, oscillAngles r.hkl s.chi g.rc s.bmat (wavelength s g) g.vInv s.b etaVec = some w) ↔
      ∃ ome ome', bh ⬝ᵥ (stage s.chi ome *ᵥ scattering g.vInv g.rc s.bmat r.hkl) ≠
        bh ⬝ᵥ (stage s.chi ome' *ᵥ scattering g.vInv g.rc s.bmat r.hkl) := by
    intro r hr
    rw [← Option.ne_none_iff_exists', Ne, oscill_none_iff (h.proper hr) h.beam]
    push Not
    rfl
  constructor
  · rintro ⟨res, hs⟩ r hr
    unfold simulateGrain at hs
    simp only [Option.bind_eq_bind, Option.bind_eq_some_iff] at hs
    obtain ⟨per, hper, -⟩ := hs
    exact (hpt r hr).1 ⟨_, (mapM_getD none hper).2 r hr⟩
  · intro hall
    obtain ⟨per, hper⟩ := mapM_some_of fun r hr => (hpt r hr).2 (hall r hr)
    have hosc : oscAll s g = some per := hper
    obtain ⟨eper, fper⟩ := mapM_getD none hper
    -- every triplet is written
    have hrow : ∀ w ∈ per, (∃ y, oscRow (w.map (·.1)) = some y) ∧ ∃ y, oscRow (w.map (·.2)) = some y := by
      intro w hw
      rw [eper, List.mem_map] at hw
      obtain ⟨r, hr, hw⟩ := hw
      have hor := fper r hr
      rw [hw] at hor
      cases w with
      | none => exact ⟨⟨none, rfl⟩, none, rfl⟩
      | some pq =>
        have hd := oscill_angles_describe (h.proper hr) h.beam etaVec_dir etaVec_long h.across (p := pq.1) (q := pq.2) hor
        have key : ∀ u : Osc, (∃ t e, u.tTh = some t ∧ u.eta = some e) → ∃ y, oscRow (some u) = some y := by
          rintro ⟨a, b, c⟩ ⟨t, e, rfl, rfl⟩; exact ⟨_, rfl⟩
        obtain ⟨t1, e1, a1, b1, -⟩ := hd pq.1 (by simp)
        obtain ⟨t2, e2, a2, b2, -⟩ := hd pq.2 (by simp)
        exact ⟨key _ ⟨t1, e1, a1, b1⟩, key _ ⟨t2, e2, a2, b2⟩⟩
    obtain ⟨a0, h0⟩ := mapM_some_of fun w hw => (hrow w hw).1
    obtain ⟨a1, h1⟩ := mapM_some_of fun w hw => (hrow w hw).2
    have hm : ∀ x : Option Ang, ∃ y, mapOme s.period x = some y := by
      intro x
      obtain ⟨o, ho⟩ := mapAngle_runs h.period (x.map (·.2.2))
      exact ⟨_, by simp only [mapOme]; rw [ho]; rfl⟩
    obtain ⟨a2, h2⟩ := mapM_some_of (l := (filterHkls s.rows (a0 ++ a1) s.etaR s.omeR).1) fun x _ => hm x
    unfold simulateGrain
    rw [hosc]
    simp only [Option.bind_eq_bind, Option.bind_some]
    rw [h0]
    simp only [Option.bind_some]
    rw [h1]
    simp only [Option.bind_some]
    rw [h2]
    exact ⟨_, rfl⟩

/-! ### The lists that are returned -/

/-- C83: the four lists of a grain have the same length, at most two entries for each reflection. -/
theorem lists_aligned {res : Result} (hs : simulateGrain s g = some res) :
    res.ids.length = res.xys.length ∧ res.hkls.length = res.xys.length ∧ res.angs.length = res.xys.length ∧
      res.xys.length ≤ 2 * s.rows.length := by
  obtain ⟨L, rfl, hL, -⟩ := simulate_entries hs
  simp [hL]

/-- C84: entry `k` of the lists is a diffraction spot of one reflection: its id and indices are those of the
reflection, its angles are those of the scattered ray, with omega in the period and both angles in the ranges, and its
point is where the ray meets the detector, on the panel. -/
theorem entries_are_spots (h : Posed s g bh) (hR : RangesOK s.etaR s.omeR) {frame : M}
    (hf : IsBeamFrame s.b etaVec frame) {res : Result} (hs : simulateGrain s g = some res) {k : Nat} {xy : ℝ × ℝ}
    (hk : res.xys[k]? = some xy) :
    ∃ r ∈ s.rows, ∃ t e o, res.ids[k]? = some r.id ∧ res.hkls[k]? = some r.hkl ∧
      res.angs[k]? = some (some (t, e, o)) ∧
      Spot s.rd s.td frame bh s.ts g.tc (scattering g.vInv g.rc s.bmat r.hkl) (wavelength s g) s.chi t e o xy ∧
      (0 ≤ t ∧ t ≤ Real.pi) ∧ (-Real.pi < e ∧ e ≤ Real.pi) ∧ (s.period.1 ≤ o ∧ o ≤ s.period.2) ∧
      InCcw sqrtEpsf s.etaR e ∧ InDirected sqrtEpsf s.omeR o ∧ onPanel s.panel s.buf true xy = true := by
  obtain ⟨L, rfl, -, hL⟩ := simulate_entries hs
  simp only [List.getElem?_map, Option.map_eq_some_iff] at hk ⊢
  obtain ⟨⟨r, ⟨t, e, o⟩, xy'⟩, hx, rfl⟩ := hk
  have hl := (hL r t e o xy').1 (List.mem_of_getElem? hx)
  obtain ⟨a1, a2, a3, a4, a5, a6⟩ := listed_sound h hR hf hl
  exact ⟨r, hl.row, t, e, o, ⟨_, hx, rfl⟩, ⟨_, hx, rfl⟩, ⟨_, hx, rfl⟩, a1, a2, a3, a4, a5, a6, hl.panel⟩

/-- C84: every diffraction spot of a listed reflection that is inside the ranges and on the panel is an entry, with
its id, indices, angles (omega up to whole turns) and point. -/
theorem spots_are_entries (h : Posed s g bh) (ho : IncreasingFirst s.omeR) {frame : M}
    (hf : IsBeamFrame s.b etaVec frame) {res : Result} (hs : simulateGrain s g = some res)
    {r : Row} (hr : r ∈ s.rows) {t e o : ℝ} {xy : ℝ × ℝ}
    (hsp : Spot s.rd s.td frame bh s.ts g.tc (scattering g.vInv g.rc s.bmat r.hkl) (wavelength s g) s.chi t e o xy)
    (ht : 0 < t ∧ t < Real.pi) (he : -Real.pi < e ∧ e ≤ Real.pi)
    (hng : NotGrazing s.rd (scattered bh (scattering g.vInv g.rc s.bmat r.hkl) (wavelength s g) s.chi o))
    (h1 : ∃ c ∈ s.etaR, Inside true c e) (h2 : ∃ c ∈ s.omeR, Inside (decide (c.1 ≤ c.2)) c o)
    (hpan : onPanel s.panel s.buf true xy = true) :
    ∃ (k : Nat) (o' : ℝ), SameAngle o' o ∧ res.ids[k]? = some r.id ∧ res.hkls[k]? = some r.hkl ∧
      res.angs[k]? = some (some (t, e, o')) ∧ res.xys[k]? = some xy := by
  obtain ⟨o', hoo, hl⟩ := listed_complete h ho hf hs hr hsp ht he hng h1 h2 hpan
  obtain ⟨L, rfl, -, hL⟩ := simulate_entries hs
  obtain ⟨k, hk⟩ := List.mem_iff_getElem?.1 ((hL r t e o' xy).2 hl)
  exact ⟨k, o', hoo, by simp [hk], by simp [hk], by simp [hk], by simp [hk]⟩

/-- C83: the series has one result for each grain, which does not depend on the other grains. -/
theorem series_per_grain {gs : List Grain} {out : List Result} (h : simulateRotationSeries s gs = some out) :
    out.length = gs.length ∧ ∀ k (hk : k < gs.length), ∃ res, out[k]? = some res ∧ simulateGrain s gs[k] = some res := by
  obtain ⟨e, f⟩ := mapM_getD ⟨[], [], [], []⟩ h
  refine ⟨by rw [e]; simp, fun k hk => ?_⟩
  refine ⟨_, ?_, f gs[k] (List.getElem_mem hk)⟩
  rw [e]; simp [List.getElem?_eq_getElem hk]

/-! ### The energy correction -/

/-- C85: without a correction, with slope zero, or for a grain at the intercept, the wavelength is not changed. -/
theorem correct_trivial (lam : ℝ) (ts tc : V) :
    correctWavelength lam none ts tc = lam ∧
    ∀ k : Correction, (k.slope = 0 ∨ tc (if k.axisY then 1 else 0) + ts (if k.axisY then 1 else 0) = k.intercept) →
      correctWavelength lam (some k) ts tc = lam := by
  have hc : Units.keVToAngstrom 1 ≠ 0 := by unfold Units.keVToAngstrom; norm_num
  refine ⟨rfl, fun k hk => ?_⟩
  have h0 : (tc (if k.axisY then 1 else 0) + ts (if k.axisY then 1 else 0) - k.intercept) * k.slope / 1000 = 0 := by
    rcases hk with hk | hk
    · rw [hk]; simp
    · rw [hk]; simp
  simp only [correctWavelength, h0, add_zero]
  rw [div_div_cancel₀ hc]

/-- C85: a photon of energy `e` keV becomes one of energy `e` plus slope (in eV/mm) times the distance of the grain
from the intercept along the axis. -/
theorem correct_energy {lam e : ℝ} {k : Correction} {ts tc : V} (hl : 0 < lam)
    (he : SamePhoton (Units.keVToAngstrom 1) e lam)
    (hpos : e + k.slope * (ts (if k.axisY then 1 else 0) + tc (if k.axisY then 1 else 0) - k.intercept) / 1000 ≠ 0) :
    SamePhoton (Units.keVToAngstrom 1)
      (e + k.slope * (ts (if k.axisY then 1 else 0) + tc (if k.axisY then 1 else 0) - k.intercept) / 1000)
      (correctWavelength lam (some k) ts tc) := by
  unfold SamePhoton at *
  have h1 : Units.keVToAngstrom 1 / lam = e := by rw [← he]; field_simp
  simp only [correctWavelength, h1]
  rw [show e + (tc (if k.axisY then 1 else 0) + ts (if k.axisY then 1 else 0) - k.intercept) * k.slope / 1000 =
    e + k.slope * (ts (if k.axisY then 1 else 0) + tc (if k.axisY then 1 else 0) - k.intercept) / 1000 by ring]
  rw [mul_comm, div_mul_cancel₀ _ hpos]

/-- C85: the spots of a grain are those of photons with the corrected energy, at the place of that grain. -/
theorem scene_energy {s : Scene} {g : Grain} {k : Correction} {e : ℝ} (hk : s.corr = some k) (hl : 0 < s.lam)
    (he : SamePhoton (Units.keVToAngstrom 1) e s.lam)
    (hpos : e + k.slope * (s.ts (if k.axisY then 1 else 0) + g.tc (if k.axisY then 1 else 0) - k.intercept) / 1000 ≠ 0) :
    SamePhoton (Units.keVToAngstrom 1)
      (e + k.slope * (s.ts (if k.axisY then 1 else 0) + g.tc (if k.axisY then 1 else 0) - k.intercept) / 1000) (wavelength s g) := by
  unfold wavelength
  rw [hk]
  exact correct_energy hl he hpos

/-! ### Where the code departs from the ranges that were asked for -/

/-- C83, an order of ranges for which the filter is wrong: after the decreasing range from 0.2 to 0.1, the increasing
range from 1 to 2 is taken clockwise, so omega 3 is accepted although it is in neither. -/
theorem sticky_direction :
    rowMask [(-Real.pi, Real.pi)] [(1 / 5, 1 / 10), (1, 2)] (some (0, 0, 3)) = true ∧
      ¬ InDirected (1 / 100) [(1 / 5, 1 / 10), (1, 2)] 3 := by
  have hpi := Real.pi_gt_three
  have hpi4 := Real.pi_lt_d2
  have hse : 0 < sqrtEpsf := sqrtEpsf_pos
  constructor
  · have h1 : (1 / 10 : ℝ) - 1 / 5 < 0 := by norm_num
    have h2 : ¬ ((2 : ℝ) - 1 < 0) := by norm_num
    have heta : inRange true 0 (-Real.pi) Real.pi = true :=
      inRange_complete (r := (-Real.pi, Real.pi)) (Or.inl ⟨1, by push_cast; ring⟩)
    have home : inRange false 3 1 2 = true := by
      rw [inRange_eq]
      simp only [Bool.false_eq_true, if_false]
      right; right
      have w1 : wrap ((3 : ℝ) - 2) = 1 := wrap_eq_of_mem one_pos (by linarith) ⟨0, by norm_num⟩
      have w2 : wrap ((1 : ℝ) - 2) = 2 * Real.pi - 1 :=
        wrap_eq_of_mem (by linarith) (by linarith) ⟨-1, by push_cast; ring⟩
      rw [w1, w2]; linarith
    simp only [rowMask, Option.map_some, etaMask, omeMask, inRangeNan, h1, if_true, h2, if_false, heta, home]
    simp
  · rintro ⟨r, hr, hb⟩
    simp only [List.mem_cons, List.not_mem_nil, or_false] at hr
    -- an arc from `a` of length `hi - a` up to whole turns
    have key : ∀ a b : ℝ, a < b → b - a < 2 → 3 - a < 2 * Real.pi - 1 / 50 → 1 / 10 ≤ a → b + 1 / 50 < 3 →
        ∀ len, ArcLength a b len → OnArc (1 / 100) a len 3 → False := by
      rintro a b hab hb2 h3 ha h4 len ⟨l0, l1, k, hk⟩ ⟨t, t0, t1, m, hm⟩
      have hk0 : k = 0 := by
        rcases lt_trichotomy k 0 with hk' | hk' | hk'
        · have : (k : ℝ) ≤ -1 := by exact_mod_cast (by omega : k ≤ -1)
          nlinarith
        · exact hk'
        · have : (1 : ℝ) ≤ k := by exact_mod_cast (by omega : 1 ≤ k)
          nlinarith
      rw [hk0] at hk
      simp at hk
      rcases lt_trichotomy m 0 with hm' | hm' | hm'
      · have : (m : ℝ) ≤ -1 := by exact_mod_cast (by omega : m ≤ -1)
        nlinarith
      · rw [hm'] at hm; simp at hm; linarith
      · have : (1 : ℝ) ≤ m := by exact_mod_cast (by omega : 1 ≤ m)
        nlinarith
    rcases hr with rfl | rfl
    · have hd : decide ((1 / 5 : ℝ) ≤ 1 / 10) = false := by rw [decide_eq_false_iff_not]; norm_num
      simp only [hd, Between, Bool.false_eq_true, if_false] at hb
      obtain ⟨len, h1, h2⟩ := hb
      exact key (1 / 10) (1 / 5) (by norm_num) (by norm_num) (by linarith) (by norm_num) (by norm_num) len h1 h2
    · have hd : decide ((1 : ℝ) ≤ 2) = true := by rw [decide_eq_true_iff]; norm_num
      simp only [hd, Between, if_true] at hb
      obtain ⟨len, h1, h2⟩ := hb
      exact key 1 2 (by norm_num) (by norm_num) (by linarith) (by norm_num) (by norm_num) len h1 h2

/-! ### A case that meets the hypotheses -/

/-- A panel of 4 by 4 metres one metre downstream, all azimuths and all omegas, one reflection. -/
noncomputable def demoScene : Scene where
  panel := ⟨4000, 4000, 1, 1⟩
  buf := .none
  rd := 1
  td := ![0, 0, -1000]
  b := ![0, 0, -1]
  rows := [⟨7, ![0, 0, 1]⟩]
  bmat := 1
  etaR := [(-Real.pi, Real.pi)]
  omeR := [(-Real.pi, Real.pi)]
  period := (-Real.pi, Real.pi)
  chi := 0
  ts := 0
  lam := 1
  corr := none

/-- An unstrained grain at the origin, in the reference orientation. -/
def demoGrain : Grain := ⟨0, 0, ![1, 1, 1, 0, 0, 0]⟩

theorem demo_rc : demoGrain.rc = 1 := by
  have h : eigenUnit (0 : V) = 0 := by simp [eigenUnit, dot]
  ext i j
  fin_cases i <;> fin_cases j <;> simp [Grain.rc, demoGrain, expmapRmat, h, dot]

theorem demo_scattering : scattering demoGrain.vInv demoGrain.rc demoScene.bmat ![0, 0, 1] = ![0, 0, 1] := by
  rw [demo_rc]; exact demo_vec

theorem demo_posed : Posed demoScene demoGrain ![0, 0, -1] := by
  refine ⟨demo_direction, resolved_default, ?_, isRotation_one, ?_, one_pos, ?_⟩
  · rw [← dot_eq]; simp [dot, etaVec, sqrtEpsf]; norm_num
  · simp only [demoScene]; ring
  · intro r hr
    simp only [demoScene, List.mem_singleton] at hr
    subst hr
    rw [demo_scattering, ← dot_eq]; simp [dot, epsf]; norm_num

theorem demo_ranges : RangesOK demoScene.etaR demoScene.omeR := by
  have h : RangeOK (-Real.pi, Real.pi) := Or.inr ⟨1, by push_cast; ring⟩
  refine ⟨?_, ?_, by simp [demoScene, IncreasingFirst]⟩ <;> simpa [demoScene] using h

theorem demo_frame : IsBeamFrame demoScene.b etaVec 1 := beamRmat_isBeamFrame beamRmat_default

theorem demo_runs : ∃ res, simulateGrain demoScene demoGrain = some res := by
  rw [simulate_succeeds_iff demo_posed]
  intro r hr
  simp only [demoScene, List.mem_singleton] at hr
  subst hr
  refine ⟨0, Real.pi, ?_⟩
  rw [demo_scattering, stage_eq, stage_eq, ← mulV_eq, ← mulV_eq, ← dot_eq, ← dot_eq]
  simp [dot, mulV, sampleRmat, demoScene]
  norm_num

theorem demo_scattered : scattered ![0, 0, -1] (scattering demoGrain.vInv demoGrain.rc demoScene.bmat ![0, 0, 1])
    (wavelength demoScene demoGrain) demoScene.chi (Real.pi / 3) = ![√3 / 2, 0, -(1 / 2)] := by
  rw [demo_scattering, scattered, stage_eq, ← mulV_eq]
  have : wavelength demoScene demoGrain = 1 := rfl
  rw [this]
  ext i
  fin_cases i <;> simp [mulV, sampleRmat, demoScene]
  norm_num

theorem demo_spot : Spot demoScene.rd demoScene.td 1 ![0, 0, -1] demoScene.ts demoGrain.tc
    (scattering demoGrain.vInv demoGrain.rc demoScene.bmat ![0, 0, 1]) (wavelength demoScene demoGrain) demoScene.chi
    (Real.pi / 3) 0 (Real.pi / 3) (1000 * √3, 0) := by
  have h3 : √3 * √3 = 3 := Real.mul_self_sqrt (by norm_num)
  refine ⟨?_, ?_, ?_⟩
  · have := demo_scattered
    rw [Diffracts]
    rw [scattered] at this
    rw [this, IsUnit3, ← dot_eq]
    simp [dot]
    nlinarith
  · rw [demo_scattered, one_mulVec]
    simp
  · rw [demo_scattered]
    refine ⟨2000, by norm_num, ?_⟩
    ext i; fin_cases i <;> simp [demoScene, demoGrain, Matrix.one_apply] <;> ring

/-- The reflection with id 7 is listed at two-theta 60 degrees, azimuth 0 and, up to whole turns, omega 60 degrees, at
the place where its ray meets the panel. -/
example : ∃ (res : Result) (k : Nat) (o : ℝ), simulateGrain demoScene demoGrain = some res ∧
    SameAngle o (Real.pi / 3) ∧ res.ids[k]? = some 7 ∧ res.hkls[k]? = some ![0, 0, 1] ∧
      res.angs[k]? = some (some (Real.pi / 3, 0, o)) ∧ res.xys[k]? = some (1000 * √3, 0) := by
  have hpi := Real.pi_pos
  obtain ⟨res, hres⟩ := demo_runs
  obtain ⟨k, o, h⟩ := spots_are_entries (r := ⟨7, ![0, 0, 1]⟩) demo_posed demo_ranges.order demo_frame hres
    (by simp [demoScene]) demo_spot ⟨by linarith, by linarith⟩ ⟨by linarith, by linarith⟩
    (by rw [NotGrazing, demo_scattered, ← dot_eq]; simp [dot, demoScene])
    ⟨(-Real.pi, Real.pi), by simp [demoScene], Or.inl ⟨1, by push_cast; ring⟩⟩
    ⟨(-Real.pi, Real.pi), by simp [demoScene], Or.inl ⟨1, by push_cast; ring⟩⟩
    (by
      refine (clip_plain _ _ _ (Or.inr ?_) _ _).2 ?_
      · intro x y m; simp [demoScene]
      · have h3 : √3 * √3 = 3 := Real.mul_self_sqrt (by norm_num)
        have h0 : 0 ≤ √3 := Real.sqrt_nonneg 3
        have h2 : √3 < 2 := by nlinarith
        simp only [Detector.Spec.InRectangle, demoScene]
        push_cast
        refine ⟨?_, ?_, ?_, ?_⟩ <;> linarith)
  exact ⟨res, k, o, hres, h⟩

end Hexrd.Simulate
