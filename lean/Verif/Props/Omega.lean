import Verif.Lemmas.Omega
import Mathlib.Tactic.NormNum
import Mathlib.Tactic.IntervalCases
import Mathlib.Data.Rat.Floor

/-!
# Properties of omega wedges and of omega lookup (C10, C11)
-/
namespace Hexrd.Omega
variable {K : Type} [Field K] [LinearOrder K] [IsStrictOrderedRing K]

/-! ## C10 -/

/-- C10: every frame is in exactly one wedge; wedges follow one another from frame 0
to the last frame. -/
theorem wedges_partition (om : Nat → K × K) (tol : K) (htol : 0 ≤ tol) (nf : Nat) (ws : List (Wedge K))
    (h : makeWedges om tol nf = some ws) (f : Nat) :
    f < nf ↔ ∃ s, (∃ w, ws[s]? = some w ∧ wedgeStart ws s ≤ f ∧ f < wedgeStart ws s + w.nsteps) ∧
      ∀ s', (∃ w, ws[s']? = some w ∧ wedgeStart ws s' ≤ f ∧ f < wedgeStart ws s' + w.nsteps) → s' = s := by
  obtain ⟨h1, h2⟩ := makeWedges_seg om tol htol nf ws h
  constructor
  · intro hf
    obtain ⟨s, w, ha, hb, hc⟩ := cover ws f (by omega)
    refine ⟨s, ⟨w, ha, hb, hc⟩, ?_⟩
    rintro s' ⟨w', ha', hb', hc'⟩
    rcases Nat.lt_trichotomy s' s with hlt | he | hgt
    · have := wedgeStart_mono ws (s := s'+1) (t := s) (by omega)
      rw [wedgeStart_succ ha'] at this; omega
    · exact he
    · have := wedgeStart_mono ws (s := s+1) (t := s') (by omega)
      rw [wedgeStart_succ ha] at this; omega
  · rintro ⟨s, ⟨w, ha, hb, hc⟩, _⟩
    have h3 := wedgeStart_mono ws (s := s+1) (t := ws.length) (by
      have := (List.getElem?_eq_some_iff.1 ha).1; omega)
    rw [wedgeStart_succ ha] at h3
    have : wedgeStart ws ws.length = wframes ws := by simp [wedgeStart, wframes]
    omega

/-- C10: inside a wedge all steps agree with the wedge's first step and adjacent
ranges abut, both within the tolerance; the wedge's ends are those of its first and
last frame. -/
theorem wedge_uniform (om : Nat → K × K) (tol : K) (htol : 0 ≤ tol) (nf : Nat) (ws : List (Wedge K))
    (h : makeWedges om tol nf = some ws) (s : Nat) (w : Wedge K) (hw : ws[s]? = some w) :
    0 < w.nsteps ∧ w.ostart = (om (wedgeStart ws s)).1 ∧ w.ostop = (om (wedgeStart ws s + w.nsteps - 1)).2 ∧
    (∀ k, k < w.nsteps →
      |((om (wedgeStart ws s + k)).2 - (om (wedgeStart ws s + k)).1)
        - ((om (wedgeStart ws s)).2 - (om (wedgeStart ws s)).1)| ≤ tol) ∧
    (∀ k, k + 1 < w.nsteps → |(om (wedgeStart ws s + k + 1)).1 - (om (wedgeStart ws s + k)).2| ≤ tol) := by
  obtain ⟨hs, _, ha, hb⟩ := (makeWedges_seg om tol htol nf ws h).2 s w hw
  exact ⟨by have := hs.1; omega, ha, hb, fun k hk => hs.2.1 _ (by omega) (by omega),
    fun k hk => hs.2.2 _ (by omega) (by omega)⟩

/-- C10: the omega array rebuilt from the wedges is within `4 * nf * tol` of the
original, for every frame. -/
theorem rebuilt_close (om : Nat → K × K) (tol : K) (htol : 0 ≤ tol) (nf : Nat) (ws : List (Wedge K))
    (h : makeWedges om tol nf = some ws) (f : Nat) (hf : f < nf) :
    ∃ p, omegas ws f = some p ∧ |p.1 - (om f).1| ≤ 4 * nf * tol ∧ |p.2 - (om f).2| ≤ 4 * nf * tol := by
  obtain ⟨h1, h2⟩ := makeWedges_seg om tol htol nf ws h
  obtain ⟨s, w, ha, hb, hc⟩ := cover ws f (by omega)
  obtain ⟨hs, _, h3, h4⟩ := h2 s w ha
  obtain ⟨k, rfl⟩ := Nat.exists_eq_add_of_le hb
  have hk : k < w.nsteps := by omega
  refine ⟨_, omegas_at ws s w k ha hk, ?_⟩
  have := rebuilt_err om tol htol _ _ hs k hk
  rw [← h3, ← h4] at this
  have hle : 4 * ((k : K) + 1) * tol ≤ 4 * nf * tol := by
    have : ((k + 1 : Nat) : K) ≤ nf := by exact_mod_cast (show k + 1 ≤ nf by omega)
    push_cast at this
    have : 4 * ((k : K) + 1) ≤ 4 * nf := by linarith
    exact mul_le_mul_of_nonneg_right this htol
  exact ⟨le_trans this.1 hle, le_trans this.2 hle⟩

/-- C10: if omega steps and gaps that are within the tolerance of each other are
equal (a piecewise linear array), the rebuilt array is exactly the original. -/
theorem rebuilt_exact (om : Nat → K × K) (tol : K) (htol : 0 ≤ tol) (nf : Nat) (ws : List (Wedge K))
    (h : makeWedges om tol nf = some ws)
    (hstep : ∀ f g, |((om f).2 - (om f).1) - ((om g).2 - (om g).1)| ≤ tol → (om f).2 - (om f).1 = (om g).2 - (om g).1)
    (hgap : ∀ f, |(om (f+1)).1 - (om f).2| ≤ tol → (om (f+1)).1 = (om f).2) (f : Nat) (hf : f < nf) :
    omegas ws f = some (om f) := by
  obtain ⟨h1, h2⟩ := makeWedges_seg om tol htol nf ws h
  obtain ⟨s, w, ha, hb, hc⟩ := cover ws f (by omega)
  obtain ⟨hs, _, h3, h4⟩ := h2 s w ha
  obtain ⟨k, rfl⟩ := Nat.exists_eq_add_of_le hb
  have hk : k < w.nsteps := by omega
  have hs0 : Seg om 0 (wedgeStart ws s) (wedgeStart ws s + w.nsteps) := by
    refine ⟨hs.1, ?_, ?_⟩
    · intro f h5 h6; rw [hstep f _ (hs.2.1 f h5 h6)]; simp
    · intro f h5 h6; rw [hgap f (hs.2.2 f h5 h6)]; simp
  rw [omegas_at ws s w k ha hk]
  have := rebuilt_err om 0 le_rfl _ _ hs0 k hk
  rw [← h3, ← h4] at this
  simp only [mul_zero, abs_nonpos_iff, sub_eq_zero] at this
  rw [this.1, this.2]

/-- C10, rejection (partial: every frame but the last): in an accepted series the
first frame of each wedge has a positive step unless it is the last frame, and every
frame has a step above `-tol` unless it is the last frame. -/
theorem accepted_increasing_partial (om : Nat → K × K) (tol : K) (htol : 0 ≤ tol) (nf : Nat) (ws : List (Wedge K))
    (h : makeWedges om tol nf = some ws) (f : Nat) (hf : f + 1 < nf) :
    -tol < (om f).2 - (om f).1 ∧ (∀ s, wedgeStart ws s = f → s < ws.length → 0 < (om f).2 - (om f).1) := by
  obtain ⟨h1, h2⟩ := makeWedges_seg om tol htol nf ws h
  constructor
  · obtain ⟨s, w, ha, hb, hc⟩ := cover ws f (by omega)
    obtain ⟨hs, hpos, _, _⟩ := h2 s w ha
    have h5 := hs.2.1 f hb hc
    have h6 := hpos (by omega)
    rw [abs_le] at h5
    linarith [h5.1]
  · intro s hs hlt
    obtain ⟨_, hpos, _, _⟩ := h2 s ws[s] (List.getElem?_eq_getElem hlt)
    rw [hs] at hpos
    exact hpos hf

/-- C10, disagreement: a series whose last frame runs backwards is accepted (the check
is never made for a wedge that consists of the last frame). -/
theorem last_frame_not_checked :
    makeWedges (K := ℚ) (fun f => if f = 0 then (0, 1) else (5, 3)) (1/1000000) 2
      = some [⟨0, 1, 1⟩, ⟨5, 3, 1⟩] := by
  simp [makeWedges, findStarts]
  norm_num
  simp [wedgesOf]

-- a case that meets the hypotheses: 4 frames in two wedges
theorem example_wedges :
    makeWedges (K := ℚ) (fun f => if f < 3 then (f, f + 1) else (10, 12)) (1/1000000) 4
      = some [⟨0, 3, 3⟩, ⟨10, 12, 1⟩] := by
  simp [makeWedges, findStarts]
  norm_num [abs_of_pos]
  simp [wedgesOf]
  norm_num

/-! ## C11 -/
variable [FloorRing K]

/-- C11: `omega_to_frame` returns the first wedge that contains the angle modulo
360°, and in it the frame whose half-open range contains it. -/
theorem omega_to_frame_found (tau om : K) (ht : 0 < tau) (ws : List (Wedge K)) (hpos : ∀ w ∈ ws, 0 < w.nsteps)
    (f : Int) (s : Nat) (h : omegaToFrame tau om ws 0 0 = some (f, s)) :
    ∃ w j, ∃ m : Int, ws[s]? = some w ∧ j < w.nsteps ∧ f = ((wedgeStart ws s + j : Nat) : Int) ∧
      InStep w j (om - tau * m) ∧ Contains tau w om ∧
      ∀ t, t < s → ∀ w', ws[t]? = some w' → ¬ Contains tau w' om := by
  have := omegaToFrame_spec tau om ht ws 0 0 hpos
  rw [h] at this
  obtain ⟨s', w, j, h1, h2, h3, h4, h5, h6, h7⟩ := this
  have hs : s = s' := by omega
  subst hs
  have e : w.ostart + fmod (om - w.ostart) tau = om - tau * (⌊(om - w.ostart) / tau⌋ : K) := by
    unfold fmod; ring
  have hnn := fmod_nonneg (om - w.ostart) tau ht
  refine ⟨w, j, ⌊(om - w.ostart) / tau⌋, h2, h3, by rw [h4]; simp, by rw [← e]; exact h5,
    ⟨⌊(om - w.ostart) / tau⌋, by rw [← e]; linarith, by rw [← e]; exact h6⟩, ?_⟩
  rintro t ht' w' hw' ⟨m, hm⟩
  exact h7 t ht' w' hw' m hm

/-- C11: it reports absence exactly when no wedge contains the angle modulo 360°. -/
theorem omega_to_frame_absent (tau om : K) (ht : 0 < tau) (ws : List (Wedge K)) (hpos : ∀ w ∈ ws, 0 < w.nsteps) :
    omegaToFrame tau om ws 0 0 = none ↔ ∀ w ∈ ws, ¬ Contains tau w om := by
  constructor
  · intro h
    have := omegaToFrame_spec tau om ht ws 0 0 hpos
    rw [h] at this
    rintro w hw ⟨m, hm⟩
    exact this w hw m hm
  · intro h
    cases hr : omegaToFrame tau om ws 0 0 with
    | none => rfl
    | some p =>
      obtain ⟨f, s⟩ := p
      obtain ⟨w, j, m, h1, _, _, _, h5, _⟩ := omega_to_frame_found tau om ht ws hpos f s hr
      exact absurd h5 (h w (List.mem_of_getElem? h1))

/-- C11, ranges (partial: the two ends must fall in different frames): when both ends
lie in the same wedge, `omegarange_to_frames` returns exactly the frames of the wedge
that meet the closed range. -/
theorem range_in_wedge_partial (tau tol : K) (ht : 0 < tau) (ws : List (Wedge K)) (hpos : ∀ w ∈ ws, 0 < w.nsteps)
    (s : Nat) (w : Wedge K) (hw : ws[s]? = some w) (hspan : w.ostop - w.ostart ≤ tau)
    (omin omax lo hi : K) (m m' : Int) (hmin : omin = lo + tau * m) (hmax : omax = hi + tau * m')
    (h0 : w.ostart ≤ lo) (h1 : lo < hi) (h2 : hi < w.ostop)
    (i j : Nat) (hi' : InStep w i lo) (hj' : InStep w j hi) (hij : i ≠ j)
    (hfirst : ∀ t, t < s → ∀ w', ws[t]? = some w' → ¬ Contains tau w' omin ∧ ¬ Contains tau w' omax) (f : Int) :
    f ∈ rangeToFrames tau tol ws omin omax ↔
      ∃ k, k < w.nsteps ∧ f = ((wedgeStart ws s + k : Nat) : Int) ∧ ∃ x, InStep w k x ∧ lo ≤ x ∧ x ≤ hi := by
  have hn := hpos w (List.mem_of_getElem? hw)
  have hwlt : w.ostart < w.ostop := by linarith
  have e1 := omegaToFrame_first tau omin ht ws 0 0 s w lo m i hpos hw hspan hmin h0 (by linarith) hi'
    (fun t ht' w' hw' mm hm => (hfirst t ht' w' hw').1 ⟨mm, hm⟩)
  have e2 := omegaToFrame_first tau omax ht ws 0 0 s w hi m' j hpos hw hspan hmax (by linarith) h2 hj'
    (fun t ht' w' hw' mm hm => (hfirst t ht' w' hw').2 ⟨mm, hm⟩)
  have hle : i ≤ j := instep_mono w hwlt hn hi' hj' h1.le
  unfold rangeToFrames
  rw [e1, e2]
  simp only
  rw [if_pos ⟨trivial, by push_cast; omega⟩, mem_irange]
  constructor
  · rintro ⟨hf1, hf2⟩
    obtain ⟨k, hk⟩ : ∃ k : Nat, f = ((wedgeStart ws s + k : Nat) : Int) :=
      ⟨(f - wedgeStart ws s).toNat, by push_cast at hf1 ⊢; omega⟩
    subst hk
    push_cast at hf1 hf2
    have hik : i ≤ k := by omega
    have hkj : k ≤ j := by omega
    have hjn : j < w.nsteps := by
      obtain ⟨j', hj1, _, hj3⟩ := floor_step w hi (by linarith) h2 hn
      have := instep_mono w hwlt hn hj' hj3 le_rfl
      omega
    refine ⟨k, by omega, rfl, ?_⟩
    have hn' : (0 : K) < w.nsteps := by exact_mod_cast hn
    have hd : 0 < (w.ostop - w.ostart) / (w.nsteps : K) := div_pos (by linarith) hn'
    by_cases hki : k = i
    · subst hki; exact ⟨lo, hi', le_rfl, h1.le⟩
    · refine ⟨w.ostart + (k : K) * ((w.ostop - w.ostart) / (w.nsteps : K)), ⟨le_rfl, by linarith⟩, ?_, ?_⟩
      · have : (i : K) + 1 ≤ k := by exact_mod_cast (show i + 1 ≤ k by omega)
        have := hi'.2
        nlinarith
      · have : (k : K) ≤ j := by exact_mod_cast hkj
        have := hj'.1
        nlinarith
  · rintro ⟨k, hk, rfl, x, hx, hx1, hx2⟩
    have := instep_mono w hwlt hn hi' hx hx1
    have := instep_mono w hwlt hn hx hj' hx2
    push_cast
    constructor <;> omega

/-- C11, disagreement: a range whose two ends fall in the same frame of a wedge that
does not close the circle gets no frame at all, although that frame meets it. -/
theorem range_within_one_frame_empty (tau tol : K) (ht : 0 < tau) (ws : List (Wedge K)) (hpos : ∀ w ∈ ws, 0 < w.nsteps)
    (s : Nat) (w : Wedge K) (hw : ws[s]? = some w) (hspan : w.ostop - w.ostart ≤ tau)
    (hopen : tol ≤ fmod |w.ostart - w.ostop| tau)
    (omin omax lo hi : K) (m m' : Int) (hmin : omin = lo + tau * m) (hmax : omax = hi + tau * m')
    (h0 : w.ostart ≤ lo) (h1 : lo ≤ hi) (h2 : hi < w.ostop)
    (i : Nat) (hi' : InStep w i lo) (hj' : InStep w i hi)
    (hfirst : ∀ t, t < s → ∀ w', ws[t]? = some w' → ¬ Contains tau w' omin ∧ ¬ Contains tau w' omax) :
    rangeToFrames tau tol ws omin omax = [] := by
  have e1 := omegaToFrame_first tau omin ht ws 0 0 s w lo m i hpos hw hspan hmin h0 (by linarith) hi'
    (fun t ht' w' hw' mm hm => (hfirst t ht' w' hw').1 ⟨mm, hm⟩)
  have e2 := omegaToFrame_first tau omax ht ws 0 0 s w hi m' i hpos hw hspan hmax (by linarith) h2 hj'
    (fun t ht' w' hw' mm hm => (hfirst t ht' w' hw').2 ⟨mm, hm⟩)
  unfold rangeToFrames
  rw [e1, e2]
  simp only [Nat.zero_add, gt_iff_lt, lt_self_iff_false, and_false, if_false, hw]
  rw [if_neg (by linarith)]

/-- C11, ranges that leave the wedge (or wrap around within it): if the wedge of the upper
end starts where the wedge of the lower end stops, up to whole turns, exactly the frames of
the first wedge from the lower end on and those of the second up to the upper end are
returned; otherwise none is. -/
theorem range_across_wedges (tau tol : K) (ht : 0 < tau) (ws : List (Wedge K)) (hpos : ∀ w ∈ ws, 0 < w.nsteps)
    (s t : Nat) (a b : Wedge K) (ha : ws[s]? = some a) (hb : ws[t]? = some b)
    (hspana : a.ostop - a.ostart ≤ tau) (hspanb : b.ostop - b.ostart ≤ tau)
    (omin omax lo hi : K) (m m' : Int) (hmin : omin = lo + tau * m) (hmax : omax = hi + tau * m')
    (h0 : a.ostart ≤ lo) (h1 : lo < a.ostop) (h2 : b.ostart ≤ hi) (h3 : hi < b.ostop)
    (i j : Nat) (hi' : InStep a i lo) (hj' : InStep b j hi) (hne : s ≠ t ∨ j ≤ i)
    (hfirsta : ∀ u, u < s → ∀ w', ws[u]? = some w' → ¬ Contains tau w' omin)
    (hfirstb : ∀ u, u < t → ∀ w', ws[u]? = some w' → ¬ Contains tau w' omax) :
    (fmod |b.ostart - a.ostop| tau < tol → ∀ f : Int, f ∈ rangeToFrames tau tol ws omin omax ↔
      (∃ k, k < a.nsteps ∧ f = ((wedgeStart ws s + k : Nat) : Int) ∧ ∃ x, InStep a k x ∧ lo ≤ x) ∨
      (∃ k, k < b.nsteps ∧ f = ((wedgeStart ws t + k : Nat) : Int) ∧ ∃ x, InStep b k x ∧ x ≤ hi)) ∧
    (tol ≤ fmod |b.ostart - a.ostop| tau → rangeToFrames tau tol ws omin omax = []) := by
  have hna := hpos a (List.mem_of_getElem? ha)
  have hnb := hpos b (List.mem_of_getElem? hb)
  have hla : a.ostart < a.ostop := by linarith
  have hlb : b.ostart < b.ostop := by linarith
  have e1 := omegaToFrame_first tau omin ht ws 0 0 s a lo m i hpos ha hspana hmin h0 h1 hi'
    (fun u hu w' hw' mm hm => hfirsta u hu w' hw' ⟨mm, hm⟩)
  have e2 := omegaToFrame_first tau omax ht ws 0 0 t b hi m' j hpos hb hspanb hmax h2 h3 hj'
    (fun u hu w' hw' mm hm => hfirstb u hu w' hw' ⟨mm, hm⟩)
  have hc : ¬ (0 + s = 0 + t ∧ (((0 + wedgeStart ws t + j : Nat) : Int) > ((0 + wedgeStart ws s + i : Nat) : Int))) := by
    rintro ⟨hst, hgt⟩
    rcases hne with h | h
    · omega
    · have : s = t := by omega
      subst this
      push_cast at hgt
      omega
  have hdb : 0 < (b.ostop - b.ostart) / (b.nsteps : K) := div_pos (by linarith) (by exact_mod_cast hnb)
  have hda : 0 < (a.ostop - a.ostart) / (a.nsteps : K) := div_pos (by linarith) (by exact_mod_cast hna)
  have hjn : j < b.nsteps := by
    obtain ⟨j', hj1, _, hj3⟩ := floor_step b hi h2 h3 hnb
    have := instep_mono b hlb hnb hj' hj3 le_rfl
    omega
  have hin : i < a.nsteps := by
    obtain ⟨j', hj1, _, hj3⟩ := floor_step a lo h0 h1 hna
    have := instep_mono a hla hna hi' hj3 le_rfl
    omega
  constructor
  · intro hgap f
    have hval : rangeToFrames tau tol ws omin omax =
        irange ((wedgeStart ws s + i : Nat) : Int) ((wedgeStart ws s : Int) + a.nsteps) ++
        irange (wedgeStart ws t) (((wedgeStart ws t + j : Nat) : Int) + 1) := by
      unfold rangeToFrames
      rw [e1, e2]
      simp only [Nat.zero_add] at hc ⊢
      rw [if_neg hc, ha, hb]
      simp only
      rw [if_pos hgap]
    rw [hval, List.mem_append, mem_irange, mem_irange]
    constructor
    · rintro (⟨f1, f2⟩ | ⟨f1, f2⟩)
      · refine Or.inl ⟨(f - wedgeStart ws s).toNat, by push_cast at f1; omega, by push_cast at f1 ⊢; omega, ?_⟩
        obtain ⟨k, hk⟩ : ∃ k : Nat, k = (f - wedgeStart ws s).toNat := ⟨_, rfl⟩
        rw [← hk]
        have hik : i ≤ k := by push_cast at f1; omega
        rcases Nat.eq_or_lt_of_le hik with h | h
        · exact ⟨lo, h ▸ hi', le_rfl⟩
        · refine ⟨a.ostart + (k : K) * ((a.ostop - a.ostart) / (a.nsteps : K)), ⟨le_rfl, by linarith⟩, ?_⟩
          have : (i : K) + 1 ≤ k := by exact_mod_cast h
          have := hi'.2
          nlinarith
      · refine Or.inr ⟨(f - wedgeStart ws t).toNat, by push_cast at f2; omega, by push_cast at f2 ⊢; omega, ?_⟩
        obtain ⟨k, hk⟩ : ∃ k : Nat, k = (f - wedgeStart ws t).toNat := ⟨_, rfl⟩
        rw [← hk]
        refine ⟨b.ostart + (k : K) * ((b.ostop - b.ostart) / (b.nsteps : K)), ⟨le_rfl, by linarith⟩, ?_⟩
        have : (k : K) ≤ j := by exact_mod_cast (show k ≤ j by push_cast at f2; omega)
        have := hj'.1
        nlinarith
    · rintro (⟨k, hk, rfl, x, hx, hx1⟩ | ⟨k, hk, rfl, x, hx, hx1⟩)
      · have := instep_mono a hla hna hi' hx hx1
        refine Or.inl ?_
        push_cast
        constructor <;> omega
      · have := instep_mono b hlb hnb hx hj' hx1
        refine Or.inr ?_
        push_cast
        constructor <;> omega
  · intro hgap
    unfold rangeToFrames
    rw [e1, e2]
    simp only [Nat.zero_add] at hc ⊢
    rw [if_neg hc, ha, hb]
    simp only
    rw [if_neg (not_lt.2 hgap)]

-- The hypotheses are met by a wedge [0, 10) in 5 steps, range [1, 7] resp. [1, 1.5].
example : ∃ w : Wedge ℚ, InStep w 0 1 ∧ InStep w 3 7 ∧ InStep w 0 (3/2) ∧ w.ostop - w.ostart ≤ 360 ∧
    (1/1000000 : ℚ) ≤ fmod |w.ostart - w.ostop| 360 := by
  refine ⟨⟨0, 10, 5⟩, ?_, ?_, ?_, ?_, ?_⟩
  · norm_num [InStep]
  · norm_num [InStep]
  · norm_num [InStep]
  · norm_num
  · have : ⌊(10 / 360 : ℚ)⌋ = 0 := by rw [Int.floor_eq_iff]; norm_num
    norm_num [fmod] at this ⊢

-- Two wedges [0, 10) and [10, 30), range [7, 12]: the second starts where the first stops.
example : ∃ a b : Wedge ℚ, InStep a 3 7 ∧ InStep b 0 12 ∧ fmod |b.ostart - a.ostop| 360 < (1/1000000 : ℚ) := by
  refine ⟨⟨0, 10, 5⟩, ⟨10, 30, 4⟩, ?_, ?_, ?_⟩
  · norm_num [InStep]
  · norm_num [InStep]
  · norm_num [fmod]

end Hexrd.Omega
