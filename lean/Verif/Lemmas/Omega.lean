import Verif.Spec.Omega
import Mathlib.Tactic.Linarith
import Mathlib.Tactic.Ring
import Mathlib.Tactic.FieldSimp
import Mathlib.Tactic.Positivity
import Mathlib.Tactic.Push

namespace Hexrd.Omega
variable {K : Type} [Field K] [LinearOrder K]

/-- `a :: l` is a strictly increasing list whose consecutive segments are good. -/
def Chain (P : Nat → Nat → Prop) : List Nat → Prop
  | a :: b :: rest => P a b ∧ Chain P (b :: rest)
  | _ => True

theorem chain_snoc (P : Nat → Nat → Prop) : ∀ (l : List Nat) (a b : Nat),
    Chain P (l ++ [a]) → P a b → Chain P (l ++ [a, b])
  | [], _, _, _, h => ⟨h, trivial⟩
  | [_], _, _, h, hp => ⟨h.1, hp, trivial⟩
  | _ :: y :: l, a, b, h, hp => ⟨h.1, chain_snoc P (y :: l) a b h.2 hp⟩

theorem chain_mono {P Q : Nat → Nat → Prop} (h : ∀ a b, P a b → Q a b) : ∀ (l : List Nat), Chain P l → Chain Q l
  | [], _ => trivial
  | [_], _ => trivial
  | _ :: b :: l, hc => ⟨h _ _ hc.1, chain_mono h (b :: l) hc.2⟩

/-- The segment of frames `[a, b)`: steps agree with the first within `tol`, ranges
abut within `tol`. -/
def Seg (om : Nat → K × K) (tol : K) (a b : Nat) : Prop :=
  a < b ∧
  (∀ f, a ≤ f → f < b → |((om f).2 - (om f).1) - ((om a).2 - (om a).1)| ≤ tol) ∧
  (∀ f, a ≤ f → f + 1 < b → |(om (f+1)).1 - (om f).2| ≤ tol)

theorem findStarts_spec [IsStrictOrderedRing K] (om : Nat → K × K) (tol : K) (htol : 0 ≤ tol) (nf : Nat) :
    ∀ (m f : Nat) (delta omlast : K) (pre : List Nat) (a : Nat) (r : List Nat),
      f + m = nf →
      delta = (om a).2 - (om a).1 → omlast = (om (f-1)).2 → 1 ≤ f →
      Seg om tol a f → Chain (fun x y => Seg om tol x y ∧ 0 < (om x).2 - (om x).1) (pre ++ [a]) →
      findStarts om tol m f delta omlast (pre ++ [a]) = some r →
      ∃ pre' a', r = pre' ++ [a', nf] ∧ (pre' ++ [a']).head? = (pre ++ [a]).head? ∧
        Chain (fun x y => Seg om tol x y ∧ 0 < (om x).2 - (om x).1) (pre' ++ [a']) ∧
        Seg om tol a' nf ∧ (a' + 1 < nf → 0 < (om a').2 - (om a').1 ∨ m = 0) := by
  intro m
  induction m with
  | zero =>
    intro f delta omlast pre a r hf hd ho hf1 hseg hch h
    simp only [findStarts, Option.some.injEq] at h
    subst h
    have : f = nf := by omega
    subst this
    exact ⟨pre, a, by simp, rfl, hch, hseg, fun _ => Or.inr rfl⟩
  | succ m ih =>
    intro f delta omlast pre a r hf hd ho hf1 hseg hch h
    simp only [findStarts] at h
    split at h
    · cases h
    · rename_i hpos
      push Not at hpos
      rw [hd] at hpos
      split at h
      · rename_i hbr
        have hch' := chain_snoc _ pre a f hch ⟨hseg, hpos⟩
        have hseg' : Seg om tol f (f+1) := by
          refine ⟨by omega, ?_, ?_⟩
          · intro g hg1 hg2
            have : g = f := by omega
            subst this; simpa using htol
          · intro g hg1 hg2; omega
        have e : pre ++ [a] ++ [f] = (pre ++ [a]) ++ [f] := rfl
        obtain ⟨pre', a', hr, hh, hc, hs, hl⟩ := ih (f+1) _ _ (pre ++ [a]) f r (by omega) rfl (by simp) (by omega)
          hseg' (by simpa using hch') h
        refine ⟨pre', a', hr, ?_, hc, hs, ?_⟩
        · rw [hh]; cases pre <;> simp
        · intro hlt
          rcases hl hlt with hl | hl
          · exact Or.inl hl
          · -- m = 0: the final wedge starts at f = nf - 1
            exfalso
            subst hl
            simp only [findStarts, Option.some.injEq] at h
            rw [← h] at hr
            have : pre' ++ [a', nf] = (pre ++ [a]) ++ [f, f+1] := by rw [← hr]; simp
            have := (List.append_inj' this rfl).2
            simp at this; omega
      · rename_i hbr
        push Not at hbr
        have hseg' : Seg om tol a (f+1) := by
          refine ⟨by have := hseg.1; omega, ?_, ?_⟩
          · intro g hg1 hg2
            by_cases hgf : g = f
            · subst hgf; rw [← hd]; exact hbr.1
            · exact hseg.2.1 g hg1 (by omega)
          · intro g hg1 hg2
            by_cases hgf : g + 1 = f
            · subst hgf; simp at ho; rw [← ho]; exact hbr.2
            · exact hseg.2.2 g hg1 (by omega)
        obtain ⟨pre', a', hr, hh, hc, hs, hl⟩ := ih (f+1) _ _ pre a r (by omega) hd (by simp) (by omega)
          hseg' hch h
        refine ⟨pre', a', hr, hh, hc, hs, ?_⟩
        intro hlt
        rcases hl hlt with hl | hl
        · exact Or.inl hl
        · left
          subst hl
          simp only [findStarts, Option.some.injEq] at h
          have : pre' ++ [a', nf] = pre ++ [a, f+1] := by rw [← hr, ← h]; simp
          have := (List.append_inj' this rfl).2
          simp at this
          rw [this.1]; exact hpos

omit [Field K] [LinearOrder K] in
theorem wedgesOf_spec (om : Nat → K × K) (P : Nat → Nat → Prop) (hP : ∀ a b, P a b → a < b) :
    ∀ (l : List Nat) (a : Nat), Chain P (a :: l) →
      (∀ s w, (wedgesOf om (a :: l))[s]? = some w →
        let x := a + wedgeStart (wedgesOf om (a :: l)) s
        P x (x + w.nsteps) ∧ w.ostart = (om x).1 ∧ w.ostop = (om (x + w.nsteps - 1)).2) ∧
      a + wframes (wedgesOf om (a :: l)) = (a :: l).getLast (by simp) := by
  intro l
  induction l with
  | nil => intro a _; exact ⟨by simp [wedgesOf], by simp [wedgesOf, wframes]⟩
  | cons b rest ih =>
    intro a hc
    obtain ⟨h1, h2⟩ := ih b hc.2
    have hab := hP _ _ hc.1
    constructor
    · intro s w hw
      cases s with
      | zero =>
        simp only [wedgesOf, List.getElem?_cons_zero, Option.some.injEq] at hw
        subst hw
        simp only [wedgeStart, List.take_zero, List.map_nil, List.sum_nil, Nat.add_zero]
        rw [show a + (b - a) = b by omega]
        exact ⟨hc.1, trivial, rfl⟩
      | succ s =>
        simp only [wedgesOf, List.getElem?_cons_succ] at hw
        have := h1 s w hw
        simp only at this ⊢
        have e : a + wedgeStart (wedgesOf om (a :: b :: rest)) (s + 1) = b + wedgeStart (wedgesOf om (b :: rest)) s := by
          simp only [wedgesOf, wedgeStart, List.take_succ_cons, List.map_cons, List.sum_cons]
          omega
        rw [e]; exact this
    · rw [List.getLast_cons (by simp), ← h2]
      simp only [wedgesOf, wframes, List.map_cons, List.sum_cons]
      omega

/-- Main structural fact about `_make_wedges`. -/
theorem makeWedges_seg [IsStrictOrderedRing K] (om : Nat → K × K) (tol : K) (htol : 0 ≤ tol) (nf : Nat) (ws : List (Wedge K))
    (h : makeWedges om tol nf = some ws) :
    wframes ws = nf ∧ ∀ s w, ws[s]? = some w →
      Seg om tol (wedgeStart ws s) (wedgeStart ws s + w.nsteps) ∧
      (wedgeStart ws s + 1 < nf → 0 < (om (wedgeStart ws s)).2 - (om (wedgeStart ws s)).1) ∧
      w.ostart = (om (wedgeStart ws s)).1 ∧ w.ostop = (om (wedgeStart ws s + w.nsteps - 1)).2 := by
  unfold makeWedges at h
  split at h
  · cases h
  · rename_i hnf
    rw [Option.map_eq_some_iff] at h
    obtain ⟨r, hr, rfl⟩ := h
    have hseg : Seg om tol 0 1 := by
      refine ⟨by omega, ?_, ?_⟩
      · intro g _ hg
        have : g = 0 := by omega
        subst this; simpa using htol
      · intro g _ hg; omega
    obtain ⟨pre', a', rfl, hh, hc, hs, hl⟩ := findStarts_spec om tol htol nf (nf-1) 1 _ _ [] 0 r (by omega) rfl (by simp)
      (Nat.le_refl _) hseg trivial hr
    have hch : Chain (fun x y => Seg om tol x y ∧ (x + 1 < nf → 0 < (om x).2 - (om x).1)) (pre' ++ [a', nf]) := by
      refine chain_snoc _ pre' a' nf (chain_mono (fun a b hab => ⟨hab.1, fun _ => hab.2⟩) _ hc) ⟨hs, ?_⟩
      intro hlt
      rcases hl hlt with hl | hl
      · exact hl
      · omega
    have hhead : ∃ l, pre' ++ [a', nf] = 0 :: l := by
      cases pre' with
      | nil => simp at hh; subst hh; exact ⟨[nf], rfl⟩
      | cons x xs => simp at hh; subst hh; exact ⟨xs ++ [a', nf], rfl⟩
    obtain ⟨l, hl0⟩ := hhead
    have hlast : (0 :: l).getLast (by simp) = nf := by
      have : (pre' ++ [a', nf]).getLast? = some nf := by simp
      rw [hl0, List.getLast?_eq_getLast_of_ne_nil (by simp)] at this
      simpa using this
    rw [hl0] at hch ⊢
    obtain ⟨h1, h2⟩ := wedgesOf_spec om _ (fun a b h => h.1.1) l 0 hch
    refine ⟨by rw [← hlast, ← h2]; simp, ?_⟩
    intro s w hw
    have := h1 s w hw
    simp only [Nat.zero_add] at this
    exact ⟨this.1.1, this.1.2, this.2.1, this.2.2⟩

omit [Field K] [LinearOrder K] in
theorem wedgeStart_succ {ws : List (Wedge K)} {s : Nat} {w : Wedge K} (h : ws[s]? = some w) :
    wedgeStart ws (s + 1) = wedgeStart ws s + w.nsteps := by
  unfold wedgeStart
  obtain ⟨hlt, rfl⟩ := List.getElem?_eq_some_iff.1 h
  rw [List.take_succ_eq_append_getElem hlt]
  simp only [List.map_append, List.sum_append, List.map_cons, List.map_nil, List.sum_cons, List.sum_nil, Nat.add_zero]

omit [Field K] [LinearOrder K] in
theorem wedgeStart_mono (ws : List (Wedge K)) : ∀ {s t : Nat}, s ≤ t → wedgeStart ws s ≤ wedgeStart ws t := by
  intro s t hst
  induction t with
  | zero => simp at hst; subst hst; exact Nat.le_refl _
  | succ t ih =>
    by_cases h : s = t + 1
    · subst h; exact Nat.le_refl _
    · have h1 := ih (by omega)
      cases hw : ws[t]? with
      | none =>
        have : wedgeStart ws (t+1) = wedgeStart ws t := by
          unfold wedgeStart
          rw [List.getElem?_eq_none_iff] at hw
          rw [List.take_of_length_le hw, List.take_of_length_le (by omega)]
        omega
      | some w => rw [wedgeStart_succ hw]; omega

omit [Field K] [LinearOrder K] in
theorem cover (ws : List (Wedge K)) : ∀ f, f < wframes ws →
    ∃ s w, ws[s]? = some w ∧ wedgeStart ws s ≤ f ∧ f < wedgeStart ws s + w.nsteps := by
  induction ws with
  | nil => intro f hf; simp [wframes] at hf
  | cons w ws ih =>
    intro f hf
    by_cases h : f < w.nsteps
    · exact ⟨0, w, rfl, by simp [wedgeStart], by simpa [wedgeStart] using h⟩
    · obtain ⟨s, w', h1, h2, h3⟩ := ih (f - w.nsteps) (by simp [wframes] at hf ⊢; omega)
      refine ⟨s+1, w', by simpa using h1, ?_, ?_⟩
      · simp only [wedgeStart, List.take_succ_cons, List.map_cons, List.sum_cons] at h2 ⊢; omega
      · simp only [wedgeStart, List.take_succ_cons, List.map_cons, List.sum_cons] at h3 ⊢; omega

omit [LinearOrder K] in
theorem omegas_at (ws : List (Wedge K)) : ∀ (s : Nat) (w : Wedge K) (k : Nat), ws[s]? = some w → k < w.nsteps →
    omegas ws (wedgeStart ws s + k) =
      some (linspace w.ostart w.ostop w.nsteps k, linspace w.ostart w.ostop w.nsteps (k+1)) := by
  induction ws with
  | nil => intro s w k h; simp at h
  | cons w0 ws ih =>
    intro s w k h hk
    cases s with
    | zero =>
      simp at h; subst h
      simp [omegas, wedgeStart, hk]
    | succ s =>
      simp at h
      have := ih s w k h hk
      simp only [omegas]
      have e : wedgeStart (w0 :: ws) (s+1) = w0.nsteps + wedgeStart ws s := by
        simp [wedgeStart]
      rw [e, if_neg (by omega), show w0.nsteps + wedgeStart ws s + k - w0.nsteps = wedgeStart ws s + k by omega]
      exact this

section err
variable [IsStrictOrderedRing K]

theorem seg_lo (om : Nat → K × K) (tol : K) (a b : Nat) (hs : Seg om tol a b) : ∀ k, a + k < b →
    |(om (a+k)).1 - ((om a).1 + k * ((om a).2 - (om a).1))| ≤ 2 * k * tol := by
  intro k
  induction k with
  | zero => intro _; simp
  | succ k ih =>
    intro hk
    have h1 := ih (by omega)
    have h2 := hs.2.1 (a+k) (by omega) (by omega)
    have h3 := hs.2.2 (a+k) (by omega) (by omega)
    rw [abs_le] at h1 h2 h3 ⊢
    rw [show a + (k+1) = a + k + 1 by omega]
    push_cast
    constructor <;> nlinarith [h1.1, h1.2, h2.1, h2.2, h3.1, h3.2]

theorem seg_hi (om : Nat → K × K) (tol : K) (a b : Nat) (hs : Seg om tol a b) (k : Nat) (hk : a + k < b) :
    |(om (a+k)).2 - ((om a).1 + ((k+1 : Nat) : K) * ((om a).2 - (om a).1))| ≤ (2 * k + 1) * tol := by
  have h1 := seg_lo om tol a b hs k hk
  have h2 := hs.2.1 (a+k) (by omega) hk
  rw [abs_le] at h1 h2 ⊢
  push_cast
  constructor <;> nlinarith [h1.1, h1.2, h2.1, h2.2]

theorem linspace_err (lo d stop e : K) (n k : Nat) (hn : 0 < n)
    (h : |stop - (lo + n * d)| ≤ 2 * n * e) : |linspace lo stop n k - (lo + k * d)| ≤ 2 * k * e := by
  have hn' : (0 : K) < n := by exact_mod_cast hn
  have hk : (0 : K) ≤ k := by exact_mod_cast Nat.zero_le k
  unfold linspace
  have : lo + k * ((stop - lo) / n) - (lo + k * d) = (k / n) * (stop - (lo + n * d)) := by
    field_simp; ring
  rw [this, abs_mul, abs_of_nonneg (by positivity)]
  calc (k / n : K) * |stop - (lo + n * d)| ≤ (k / n) * (2 * n * e) := by gcongr
    _ = 2 * k * e := by field_simp

theorem rebuilt_err (om : Nat → K × K) (tol : K) (htol : 0 ≤ tol) (a n : Nat) (hs : Seg om tol a (a+n)) (k : Nat) (hk : k < n) :
    |linspace (om a).1 (om (a + n - 1)).2 n k - (om (a+k)).1| ≤ 4 * (k+1) * tol ∧
    |linspace (om a).1 (om (a + n - 1)).2 n (k+1) - (om (a+k)).2| ≤ 4 * (k+1) * tol := by
  have hend := seg_hi om tol a (a+n) hs (n-1) (by omega)
  rw [show a + (n-1) = a + n - 1 by omega, show n - 1 + 1 = n by omega] at hend
  have hend' : |(om (a + n - 1)).2 - ((om a).1 + n * ((om a).2 - (om a).1))| ≤ 2 * n * tol := by
    refine le_trans hend ?_
    have : ((n - 1 : Nat) : K) = n - 1 := by rw [Nat.cast_sub (by omega)]; simp
    rw [this]; nlinarith
  have h1 := linspace_err _ _ _ tol n k (by omega) hend'
  have h2 := linspace_err _ _ _ tol n (k+1) (by omega) hend'
  have h3 := seg_lo om tol a (a+n) hs k (by omega)
  have h4 := seg_hi om tol a (a+n) hs k (by omega)
  have hk0 : (0 : K) ≤ k := by exact_mod_cast Nat.zero_le k
  push_cast at h2 h4
  rw [abs_le] at h1 h2 h3 h4 ⊢
  constructor
  · constructor <;> nlinarith [h1.1, h1.2, h3.1, h3.2]
  · rw [abs_le]; constructor <;> nlinarith [h2.1, h2.2, h4.1, h4.2]

variable [FloorRing K]

theorem fmod_nonneg (x tau : K) (ht : 0 < tau) : 0 ≤ fmod x tau := by
  unfold fmod
  have := Int.floor_le (x / tau)
  rw [le_div_iff₀ ht] at this
  linarith

theorem fmod_lt (x tau : K) (ht : 0 < tau) : fmod x tau < tau := by
  unfold fmod
  have := Int.lt_floor_add_one (x / tau)
  rw [div_lt_iff₀ ht] at this
  linarith

/-- `fmod` is the least non-negative representative. -/
theorem fmod_least (x tau : K) (ht : 0 < tau) (m : Int) (h : 0 ≤ x - tau * m) : fmod x tau ≤ x - tau * m := by
  have : m ≤ ⌊x / tau⌋ := by rw [Int.le_floor, le_div_iff₀ ht]; linarith
  have : (m : K) ≤ (⌊x / tau⌋ : K) := by exact_mod_cast this
  unfold fmod
  nlinarith

theorem floor_step (w : Wedge K) (x : K) (h0 : w.ostart ≤ x) (h1 : x < w.ostop) (hn : 0 < w.nsteps) :
    ∃ j : Nat, j < w.nsteps ∧ ⌊(x - w.ostart) / ((w.ostop - w.ostart) / (w.nsteps : K))⌋ = (j : Int) ∧ InStep w j x := by
  have hn' : (0 : K) < w.nsteps := by exact_mod_cast hn
  have hd : 0 < (w.ostop - w.ostart) / (w.nsteps : K) := div_pos (by linarith) hn'
  set d := (w.ostop - w.ostart) / (w.nsteps : K) with hdd
  have hq0 : 0 ≤ (x - w.ostart) / d := div_nonneg (by linarith) hd.le
  have hfl : 0 ≤ ⌊(x - w.ostart) / d⌋ := Int.floor_nonneg.2 hq0
  obtain ⟨j, hj⟩ := Int.eq_ofNat_of_zero_le hfl
  have e1 := Int.floor_le ((x - w.ostart) / d)
  have e2 := Int.lt_floor_add_one ((x - w.ostart) / d)
  rw [hj] at e1 e2
  rw [le_div_iff₀ hd] at e1
  rw [div_lt_iff₀ hd] at e2
  push_cast at e1 e2
  refine ⟨j, ?_, hj, ?_, ?_⟩
  · by_contra hge
    push Not at hge
    have : (w.nsteps : K) ≤ j := by exact_mod_cast hge
    have h3 : (w.nsteps : K) * d = w.ostop - w.ostart := by rw [hdd]; field_simp
    nlinarith
  · rw [← hdd]; linarith
  · rw [← hdd]; linarith

theorem instep_floor (w : Wedge K) (x : K) (j : Nat) (hlt : w.ostart < w.ostop) (hn : 0 < w.nsteps) (h : InStep w j x) :
    ⌊(x - w.ostart) / ((w.ostop - w.ostart) / (w.nsteps : K))⌋ = (j : Int) := by
  have hn' : (0 : K) < w.nsteps := by exact_mod_cast hn
  have hd : 0 < (w.ostop - w.ostart) / (w.nsteps : K) := div_pos (by linarith) hn'
  unfold InStep at h
  set d := (w.ostop - w.ostart) / (w.nsteps : K) with hdd
  rw [Int.floor_eq_iff, le_div_iff₀ hd, div_lt_iff₀ hd]
  push_cast at h ⊢
  constructor <;> linarith [h.1, h.2]

/-- What `omega_to_frame` returns, for wedges from number `i`. -/
theorem omegaToFrame_spec (tau om : K) (ht : 0 < tau) : ∀ (ws : List (Wedge K)) (i f0 : Nat),
    (∀ w ∈ ws, 0 < w.nsteps) →
    match omegaToFrame tau om ws i f0 with
    | none => ∀ w ∈ ws, ∀ m : Int, ¬ (w.ostart ≤ om - tau * m ∧ om - tau * m < w.ostop)
    | some (f, n) => ∃ s w j, n = i + s ∧ ws[s]? = some w ∧ j < w.nsteps ∧
        f = ((f0 + wedgeStart ws s + j : Nat) : Int) ∧
        InStep w j (w.ostart + fmod (om - w.ostart) tau) ∧ w.ostart + fmod (om - w.ostart) tau < w.ostop ∧
        ∀ t, t < s → ∀ w', ws[t]? = some w' → ∀ m : Int, ¬ (w'.ostart ≤ om - tau * m ∧ om - tau * m < w'.ostop) := by
  intro ws
  induction ws with
  | nil => intro i f0 _; simp [omegaToFrame]
  | cons w ws ih =>
    intro i f0 hpos
    have hn := hpos w List.mem_cons_self
    have hnn := fmod_nonneg (om - w.ostart) tau ht
    simp only [omegaToFrame]
    by_cases hc : w.ostart + fmod (om - w.ostart) tau < w.ostop
    · rw [if_pos hc]
      simp only
      obtain ⟨j, hj, hfl, hin⟩ := floor_step w (w.ostart + fmod (om - w.ostart) tau) (by linarith) hc hn
      refine ⟨0, w, j, rfl, rfl, hj, ?_, hin, hc, ?_⟩
      · rw [hfl]; simp [wedgeStart]
      · intro t ht'; omega
    · rw [if_neg hc]
      have hno : ∀ m : Int, ¬ (w.ostart ≤ om - tau * m ∧ om - tau * m < w.ostop) := by
        rintro m ⟨h1, h2⟩
        have := fmod_least (om - w.ostart) tau ht m (by linarith)
        exact hc (by linarith)
      have := ih (i+1) (f0 + w.nsteps) (fun w' hw' => hpos w' (List.mem_cons_of_mem _ hw'))
      revert this
      cases omegaToFrame tau om ws (i + 1) (f0 + w.nsteps) with
      | none =>
        simp only
        intro h w' hw' m
        rcases List.mem_cons.1 hw' with rfl | hw'
        · exact hno m
        · exact h w' hw' m
      | some p =>
        obtain ⟨f, n⟩ := p
        simp only
        rintro ⟨s, w', j, h1, h2, h3, h4, h5, h6, h7⟩
        refine ⟨s+1, w', j, by omega, by simpa using h2, h3, ?_, h5, h6, ?_⟩
        · rw [h4]; simp only [wedgeStart, List.take_succ_cons, List.map_cons, List.sum_cons]
          push_cast; ring
        · intro t ht' w'' hw''
          cases t with
          | zero => simp at hw''; subst hw''; exact hno
          | succ t => exact h7 t (by omega) w'' (by simpa using hw'')

theorem fmod_unique (x tau y : K) (ht : 0 < tau) (m : Int) (h0 : 0 ≤ y) (h1 : y < tau) (h : x = y + tau * m) :
    fmod x tau = y := by
  have : ⌊x / tau⌋ = m := by
    rw [Int.floor_eq_iff, le_div_iff₀ ht, div_lt_iff₀ ht]
    constructor <;> linarith
  unfold fmod
  rw [this]; linarith

/-- The first wedge that contains the angle determines the result. -/
theorem omegaToFrame_first (tau om : K) (ht : 0 < tau) : ∀ (ws : List (Wedge K)) (i f0 s : Nat) (w : Wedge K) (lo : K) (m : Int) (j : Nat),
    (∀ w ∈ ws, 0 < w.nsteps) → ws[s]? = some w → w.ostop - w.ostart ≤ tau →
    om = lo + tau * m → w.ostart ≤ lo → lo < w.ostop → InStep w j lo →
    (∀ t, t < s → ∀ w', ws[t]? = some w' → ∀ m : Int, ¬ (w'.ostart ≤ om - tau * m ∧ om - tau * m < w'.ostop)) →
    omegaToFrame tau om ws i f0 = some (((f0 + wedgeStart ws s + j : Nat) : Int), i + s) := by
  intro ws
  induction ws with
  | nil => intro i f0 s w lo m j _ h; simp at h
  | cons w0 ws ih =>
    intro i f0 s w lo m j hpos hs hsp hom h0 h1 hin hfirst
    simp only [omegaToFrame]
    cases s with
    | zero =>
      simp at hs; subst hs
      have hf : fmod (om - w0.ostart) tau = lo - w0.ostart :=
        fmod_unique _ tau _ ht m (by linarith) (by linarith) (by rw [hom]; ring)
      have e : w0.ostart + fmod (om - w0.ostart) tau = lo := by rw [hf]; ring
      rw [e, if_pos h1, instep_floor w0 lo j (by linarith) (hpos w0 List.mem_cons_self) hin]
      simp [wedgeStart]
    | succ s =>
      have hn := hfirst 0 (by omega) w0 rfl
      have hnn := fmod_nonneg (om - w0.ostart) tau ht
      rw [if_neg, ih (i+1) (f0 + w0.nsteps) s w lo m j (fun w' hw' => hpos w' (List.mem_cons_of_mem _ hw')) (by simpa using hs) hsp hom h0 h1 hin]
      · simp only [wedgeStart, List.take_succ_cons, List.map_cons, List.sum_cons]
        congr 1
        refine Prod.ext ?_ ?_
        · push_cast; ring
        · simp only; omega
      · intro t ht' w' hw' m'
        exact hfirst (t+1) (by omega) w' (by simpa using hw') m'
      · intro hc
        apply hn ⌊(om - w0.ostart) / tau⌋
        unfold fmod at hc hnn
        constructor <;> linarith

theorem mem_irange (a b x : Int) : x ∈ irange a b ↔ a ≤ x ∧ x < b := by
  unfold irange
  simp only [List.mem_map, List.mem_range, Int.ofNat_eq_natCast]
  constructor
  · rintro ⟨k, hk, rfl⟩; omega
  · rintro ⟨h1, h2⟩; exact ⟨(x - a).toNat, by omega, by omega⟩

theorem instep_mono (w : Wedge K) (hlt : w.ostart < w.ostop) (hn : 0 < w.nsteps) {i j : Nat} {x y : K}
    (hi : InStep w i x) (hj : InStep w j y) (h : x ≤ y) : i ≤ j := by
  have hn' : (0 : K) < w.nsteps := by exact_mod_cast hn
  have hd : 0 < (w.ostop - w.ostart) / (w.nsteps : K) := div_pos (by linarith) hn'
  unfold InStep at hi hj
  by_contra hc
  push Not at hc
  have : (j : K) + 1 ≤ i := by exact_mod_cast hc
  nlinarith [hi.1, hj.2]

end err

end Hexrd.Omega
