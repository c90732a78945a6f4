import Verif.Spec.EtaOme
import Verif.Props.Omega
import Mathlib.Tactic.Linarith
import Mathlib.Tactic.Ring
import Mathlib.Tactic.FieldSimp
import Mathlib.Tactic.Positivity
import Mathlib.Tactic.NormNum

/-!
# The eta-omega maps: assembly (C99), cleaning and filtering (C100), choice of reflections (C101)
-/
namespace Hexrd.EtaOme

open Hexrd.Omega Spec

/-! ## C99 -/

/-- C99: a pixel of the assembled map is NaN exactly if no panel has a value there; otherwise it is the sum of the
values of the panels, whatever the order of the panels. -/
theorem combine_spec (vals : List (Option ℝ)) :
    (combinePanels vals = none ↔ ∀ v ∈ vals, v = none) ∧
    (∀ x, combinePanels vals = some x → x = (numbers vals).sum) ∧
    ∀ vals', vals.Perm vals' → combinePanels vals' = combinePanels vals := by
  have h1 : ∀ (l : List (Option ℝ)) (a : ℝ),
      l.foldl (fun acc v => if v.isSome then acc + v.getD 0 else acc) a = a + (numbers l).sum := by
    intro l
    induction l with
    | nil => intro a; simp [numbers]
    | cons v l ih =>
      intro a
      cases v with
      | none => simp only [List.foldl_cons]; rw [ih]; simp [numbers]
      | some x => simp only [List.foldl_cons]; rw [ih]; simp [numbers]; ring
  have h2 : ∀ (l : List (Option ℝ)) (n : ℕ), l.foldl (fun (n : ℕ) v => if v.isSome then n + 1 else n) n = n + (numbers l).length := by
    intro l
    induction l with
    | nil => intro a; simp [numbers]
    | cons v l ih =>
      intro a
      cases v with
      | none => simp only [List.foldl_cons]; rw [ih]; simp [numbers]
      | some x => simp only [List.foldl_cons]; rw [ih]; simp [numbers]; ring
  have h3 : ∀ l, combinePanels l = if (numbers l).length = 0 then none else some (numbers l).sum := by
    intro l; unfold combinePanels; simp only [h1, h2, zero_add]
  refine ⟨?_, ?_, ?_⟩
  · rw [h3]
    have : (numbers vals).length = 0 ↔ ∀ v ∈ vals, v = none := by
      rw [List.length_eq_zero_iff]; unfold numbers; rw [List.filterMap_eq_nil_iff]; simp
    rw [← this]
    split <;> simp_all
  · intro x hx
    rw [h3] at hx
    split at hx
    · cases hx
    · simpa using hx.symm
  · intro l' hp
    rw [h3, h3]
    have hp' : (numbers vals).Perm (numbers l') := hp.filterMap id
    rw [hp'.length_eq, hp'.sum_eq]

theorem mapInto_inside {x lo hi : ℝ} (h1 : lo ≤ x) (h2 : x ≤ hi) (hlt : lo < hi) : Angles.mapInto x lo hi = x := by
  unfold Angles.mapInto Angles.npMod
  have hp : 0 < hi - lo := by linarith
  rcases eq_or_lt_of_le h2 with h | h
  · subst h
    have : ⌊(x - lo) / (x - lo)⌋ = 1 := by rw [div_self hp.ne']; simp
    rw [this]
    simp only [Int.cast_one, mul_one]
    rw [if_pos ⟨by ring, hlt⟩]
  · have : ⌊(x - lo) / (hi - lo)⌋ = 0 := by
      rw [Int.floor_eq_zero_iff]
      exact ⟨div_nonneg (by linarith) hp.le, (div_lt_one hp).2 (by linarith)⟩
    rw [this]
    simp only [Int.cast_zero, mul_zero, sub_zero, sub_add_cancel]
    rw [if_neg]
    rintro ⟨a, b⟩
    linarith

section Grid

variable {o δ : ℝ} {k : ℕ → ℕ} {n : ℕ} {ws : List (Wedge ℝ)}

theorem grid_mono (h : OnGrid o δ k n ws) : ∀ d s w, ws[s]? = some w → s + 1 + d < ws.length → k s + w.nsteps ≤ k (s + 1 + d) := by
  intro d
  induction d with
  | zero => intro s w hw hl; exact h.next s w hw hl
  | succ d ih =>
    intro s w hw hl
    have h1 := ih s w hw (by omega)
    obtain ⟨w', hw'⟩ : ∃ w', ws[s + 1 + d]? = some w' := ⟨_, List.getElem?_eq_getElem (by omega)⟩
    have h2 := h.next (s + 1 + d) w' hw' (by omega)
    have : s + 1 + (d + 1) = s + 1 + d + 1 := by omega
    rw [this]; omega

theorem grid_before (h : OnGrid o δ k n ws) {s t : ℕ} {w : Wedge ℝ} (hs : ws[s]? = some w) (hst : s < t) (ht : t < ws.length) :
    k s + w.nsteps ≤ k t := by
  have := grid_mono h (t - (s + 1)) s w hs (by omega)
  rwa [show s + 1 + (t - (s + 1)) = t by omega] at this

theorem grid_le (h : OnGrid o δ k n ws) {s : ℕ} {w : Wedge ℝ} (hs : ws[s]? = some w) : k s + w.nsteps ≤ n := by
  obtain ⟨wl, hl, rfl⟩ := h.last
  have hlen : s < ws.length := (List.getElem?_eq_some_iff.1 hs).1
  rcases Nat.lt_or_ge s (ws.length - 1) with h1 | h1
  · have := grid_before h hs h1 (by omega); omega
  · have e : s = ws.length - 1 := by omega
    rw [List.getLast?_eq_getElem?] at hl
    rw [← e] at hl ⊢
    rw [hs] at hl; cases hl; exact le_rfl

/-- Bin `j` belongs to a wedge. -/
def InWedge (k : ℕ → ℕ) (ws : List (Wedge ℝ)) (j : ℕ) : Prop := ∃ s w, ws[s]? = some w ∧ k s ≤ j ∧ j < k s + w.nsteps

theorem contains_iff (h : OnGrid o δ k n ws) {j : ℕ} (hj : j < n) :
    (∃ w ∈ ws, Contains 360 w (o + (j + 1 / 2) * δ)) ↔ InWedge k ws j := by
  have hp := h.pos
  have ht := h.turn
  have hjn : ((j : ℝ) + 1) ≤ n := by exact_mod_cast hj
  constructor
  · rintro ⟨w, hw, m, h1, h2⟩
    obtain ⟨s, hs⟩ := List.mem_iff_getElem?.1 hw
    obtain ⟨hn, ha, hb⟩ := h.wedge s w hs
    have hle : ((k s + w.nsteps : ℕ) : ℝ) ≤ n := by exact_mod_cast grid_le h hs
    have hm : m = 0 := by
      have e1 : (k s + w.nsteps : ℕ) * δ ≤ 360 := le_trans (mul_le_mul_of_nonneg_right hle hp.le) ht
      have e2 : (j + 1 / 2 : ℝ) * δ < 360 := lt_of_lt_of_le (mul_lt_mul_of_pos_right (by linarith) hp) ht
      have e3 : 0 ≤ (k s : ℝ) * δ := by positivity
      have e4 : 0 < (j + 1 / 2 : ℝ) * δ := by positivity
      rw [ha] at h1; rw [hb] at h2
      have u1 : (m : ℝ) < 1 := by nlinarith
      have u2 : (-1 : ℝ) < m := by nlinarith
      have u1' : m < 1 := by exact_mod_cast u1
      have u2' : -1 < m := by exact_mod_cast u2
      omega
    subst hm
    simp only [Int.cast_zero, mul_zero, sub_zero] at h1 h2
    rw [ha] at h1; rw [hb] at h2
    have l1 : (k s : ℝ) * δ ≤ (j + 1 / 2) * δ := by linarith
    have l2 : (j + 1 / 2 : ℝ) * δ < (k s + w.nsteps : ℕ) * δ := by linarith
    have l1' := le_of_mul_le_mul_right l1 hp
    have l2' := lt_of_mul_lt_mul_right l2 hp.le
    refine ⟨s, w, hs, ?_, ?_⟩
    · have : (k s : ℝ) < j + 1 := by linarith
      have : k s < j + 1 := by exact_mod_cast this
      omega
    · have : (j : ℝ) < (k s + w.nsteps : ℕ) := by linarith
      exact_mod_cast this
  · rintro ⟨s, w, hs, h1, h2⟩
    obtain ⟨hn, ha, hb⟩ := h.wedge s w hs
    refine ⟨w, List.mem_of_getElem? hs, 0, ?_, ?_⟩
    · rw [ha]
      have : (k s : ℝ) ≤ j := by exact_mod_cast h1
      simp only [Int.cast_zero, mul_zero, sub_zero]
      nlinarith
    · rw [hb]
      have : (j : ℝ) + 1 ≤ (k s + w.nsteps : ℕ) := by exact_mod_cast h2
      simp only [Int.cast_zero, mul_zero, sub_zero]
      nlinarith

theorem linspace_grid (hn : 0 < n) (j : ℕ) : linspace o (o + n * δ) n j = o + j * δ := by
  unfold linspace
  have : (n : ℝ) ≠ 0 := by exact_mod_cast hn.ne'
  field_simp
  ring

theorem grid_pos (h : OnGrid o δ k n ws) : 0 < n := by
  obtain ⟨w, hl, rfl⟩ := h.last
  rw [List.getLast?_eq_getElem?] at hl
  have := (h.wedge _ w hl).1
  omega

theorem mask_get (h : OnGrid o δ k n ws) {j : ℕ} (hj : j < n) :
    ∃ b, (frameMask ws o (o + n * δ) n)[j]? = some b ∧ (b = true ↔ InWedge k ws j) := by
  unfold frameMask
  rw [List.getElem?_map, List.getElem?_range hj]
  refine ⟨_, rfl, ?_⟩
  simp only [binRange, linspace_grid (grid_pos h)]
  have e : (o + (j : ℝ) * δ + (o + ((j + 1 : ℕ) : ℝ) * δ)) / 2 = o + (j + 1 / 2) * δ := by push_cast; ring
  rw [e, ← contains_iff h hj, Option.isSome_iff_ne_none, ne_eq, omega_to_frame_absent 360 _ (by norm_num) ws]
  · push Not; rfl
  · intro w hw
    obtain ⟨s, hs⟩ := List.mem_iff_getElem?.1 hw
    exact (h.wedge s w hs).1

theorem mask_length : (frameMask ws o (o + n * δ) n).length = n := by simp [frameMask]

theorem count_succ (m : List Bool) (j : ℕ) (b : Bool) (hb : m[j]? = some b) :
    (m.take (j + 1)).count true = (m.take j).count true + if b then 1 else 0 := by
  obtain ⟨hl, e⟩ := List.getElem?_eq_some_iff.1 hb
  rw [← List.take_append_getElem hl, List.count_append, e]
  cases b <;> simp

theorem count_wedge (h : OnGrid o δ k n ws) : ∀ s w, ws[s]? = some w → ∀ i ≤ w.nsteps,
    ((frameMask ws o (o + n * δ) n).take (k s + i)).count true = wedgeStart ws s + i := by
  have key : ∀ s w, ws[s]? = some w → ((frameMask ws o (o + n * δ) n).take (k s)).count true = wedgeStart ws s →
      ∀ i ≤ w.nsteps, ((frameMask ws o (o + n * δ) n).take (k s + i)).count true = wedgeStart ws s + i := by
    intro s w hs h0 i
    induction i with
    | zero => intro _; simpa using h0
    | succ i ih =>
      intro hi
      have hle := grid_le h hs
      obtain ⟨b, hb, hbi⟩ := mask_get h (j := k s + i) (by omega)
      rw [← Nat.add_assoc, count_succ _ _ b hb, ih (by omega), hbi.2 ⟨s, w, hs, by omega, by omega⟩]
      simp; omega
  intro s
  induction s with
  | zero =>
    intro w hs
    refine key 0 w hs ?_
    rw [h.first]; simp [wedgeStart]
  | succ s ih =>
    intro w hs
    refine key (s + 1) w hs ?_
    have hlen : s + 1 < ws.length := (List.getElem?_eq_some_iff.1 hs).1
    obtain ⟨w', hw'⟩ : ∃ w', ws[s]? = some w' := ⟨_, List.getElem?_eq_getElem (by omega)⟩
    have hnext := h.next s w' hw' hlen
    have h1 := ih w' hw' w'.nsteps le_rfl
    have hgap : ∀ d, k s + w'.nsteps + d ≤ k (s + 1) →
        ((frameMask ws o (o + n * δ) n).take (k s + w'.nsteps + d)).count true = wedgeStart ws s + w'.nsteps := by
      intro d
      induction d with
      | zero => intro _; exact h1
      | succ d ihd =>
        intro hd
        have hle := grid_le h hs
        obtain ⟨b, hb, hbi⟩ := mask_get h (j := k s + w'.nsteps + d) (by omega)
        have hbf : b = false := by
          rw [Bool.eq_false_iff]
          intro hbt
          obtain ⟨t, v, ht, hv1, hv2⟩ := hbi.1 hbt
          rcases Nat.lt_or_ge s t with hlt | hge
          · have htl := (List.getElem?_eq_some_iff.1 ht).1
            rcases Nat.lt_or_ge (s + 1) t with h2 | h2
            · have := grid_before h hs h2 htl; omega
            · have : t = s + 1 := by omega
              subst this; omega
          · rcases Nat.lt_or_ge t s with h2 | h2
            · have := grid_before h ht h2 (by omega); omega
            · have : t = s := by omega
              subst this
              rw [hw'] at ht; cases ht; omega
        rw [← Nat.add_assoc, count_succ _ _ b hb, ihd (by omega), hbf]
        simp
    have h2 := hgap (k (s + 1) - (k s + w'.nsteps)) (by omega)
    rw [show k s + w'.nsteps + (k (s + 1) - (k s + w'.nsteps)) = k (s + 1) by omega] at h2
    rw [h2]
    unfold wedgeStart
    rw [List.take_add_one, hw']
    simp

end Grid

theorem fillRows_get {α : Type} (m : List Bool) : ∀ (rows : List α), m.count true ≤ rows.length → ∀ (j : ℕ) (b : Bool),
    m[j]? = some b → (fillRows m rows)[j]? = some (if b then rows[(m.take j).count true]? else none) := by
  induction m with
  | nil => intro rows _ j b hb; simp at hb
  | cons a m ih =>
    intro rows hc j b hb
    cases a with
    | false =>
      simp only [List.count_cons] at hc
      cases j with
      | zero => simp at hb; subst hb; simp [fillRows]
      | succ j =>
        have := ih rows (by simpa using hc) j b (by simpa using hb)
        simp only [fillRows, List.getElem?_cons_succ]
        rw [this]; simp
    | true =>
      cases rows with
      | nil => simp at hc
      | cons r rows =>
        cases j with
        | zero => simp at hb; subst hb; simp [fillRows]
        | succ j =>
          have := ih rows (by simpa using hc) j b (by simpa using hb)
          simp only [fillRows, List.getElem?_cons_succ]
          rw [this]
          simp

theorem fillRows_length {α : Type} (m : List Bool) : ∀ (rows : List α), m.count true ≤ rows.length →
    (fillRows m rows).length = m.length := by
  induction m with
  | nil => intro rows _; simp [fillRows]
  | cons a m ih =>
    intro rows hc
    cases a with
    | false => simp [fillRows, ih rows (by simpa using hc)]
    | true =>
      cases rows with
      | nil => simp at hc
      | cons r rows => simp [fillRows, ih rows (by simpa using hc)]

theorem wedgeStart_last (ws : List (Wedge ℝ)) (w : Wedge ℝ) (h : ws.getLast? = some w) :
    wedgeStart ws (ws.length - 1) + w.nsteps = wframes ws := by
  unfold wedgeStart wframes
  obtain ⟨l, rfl⟩ : ∃ l, ws = l ++ [w] := by
    rw [List.getLast?_eq_some_iff] at h; exact h
  simp

theorem wedgeGrid_eq {o δ : ℝ} {k : ℕ → ℕ} {n : ℕ} {ws : List (Wedge ℝ)} (h : OnGrid o δ k n ws) :
    wedgeGrid ws = some (o, δ, n) ∧ ∃ wl, ws.getLast? = some wl ∧ Angles.mapInto wl.ostop o (o + 360) = o + n * δ := by
  obtain ⟨wl, hl, hn⟩ := h.last
  have hl' := hl
  rw [List.getLast?_eq_getElem?] at hl'
  obtain ⟨w0, ws', rfl⟩ : ∃ w0 ws', ws = w0 :: ws' := by
    cases ws with
    | nil => simp at hl
    | cons a b => exact ⟨a, b, rfl⟩
  have hd : ∀ w ∈ w0 :: ws', (w.ostop - w.ostart) / (w.nsteps : ℝ) = δ := by
    intro w hw
    obtain ⟨s, hs⟩ := List.mem_iff_getElem?.1 hw
    obtain ⟨a, b, c⟩ := h.wedge s w hs
    have : (w.nsteps : ℝ) ≠ 0 := by exact_mod_cast a.ne'
    rw [b, c]; push_cast; field_simp; ring
  obtain ⟨-, hw0, -⟩ := h.wedge 0 w0 rfl
  rw [h.first] at hw0
  simp only [Nat.cast_zero, zero_mul, add_zero] at hw0
  obtain ⟨-, -, hstop⟩ := h.wedge _ wl hl'
  rw [← hn] at hstop
  have hmap : Angles.mapInto wl.ostop o (o + 360) = o + n * δ := by
    rw [hstop]
    have := h.turn
    have hp := h.pos
    exact mapInto_inside (by have : 0 ≤ (n : ℝ) * δ := by positivity
                             linarith) (by linarith) (by linarith)
  refine ⟨?_, wl, hl, hmap⟩
  unfold wedgeGrid
  simp only [List.head?_cons, hl, List.map_cons, hw0, Option.bind_eq_bind, Option.bind_some, hmap]
  have := hd w0 List.mem_cons_self
  rw [hw0] at this
  rw [this]
  rw [if_pos]
  · simp only [Option.pure_def, Option.some.injEq, Prod.mk.injEq, true_and]
    have : (o + n * δ - o) / δ = (n : ℝ) := by rw [add_sub_cancel_left, mul_div_assoc, div_self h.pos.ne', mul_one]
    rw [this]; simp
  · intro d hdm
    rw [List.mem_cons, List.mem_map] at hdm
    rcases hdm with rfl | ⟨w, hw, rfl⟩
    · simp
    · rw [hd w (List.mem_cons_of_mem _ hw)]; simp

/-- C99: the map of a series with several wedges on a common grid has one row for every bin of the full range; frame number
`i` of wedge `s` is in the bin with the omega range of that frame; the bins between the wedges are NaN; no frame is
lost or moved. -/
theorem expand_spec {α : Type} (o δ : ℝ) (k : ℕ → ℕ) (n : ℕ) (ws : List (Wedge ℝ)) (h : OnGrid o δ k n ws) (rows : List α)
    (hr : rows.length = wframes ws) :
    ∃ R, expandRows ws rows = some R ∧ R.length = n ∧
      (∀ s w i, ws[s]? = some w → i < w.nsteps →
        R[k s + i]? = some rows[wedgeStart ws s + i]? ∧
        omegas ws (wedgeStart ws s + i) = some (o + (k s + i : ℕ) * δ, o + (k s + i + 1 : ℕ) * δ)) ∧
      ∀ j < n, (∀ s w, ws[s]? = some w → ¬(k s ≤ j ∧ j < k s + w.nsteps)) → R[j]? = some none := by
  obtain ⟨hg, wl, hl, hmap⟩ := wedgeGrid_eq h
  have hcnt : (frameMask ws o (o + n * δ) n).count true = rows.length := by
    obtain ⟨w, hl2, hn⟩ := h.last
    have hl3 := hl2
    rw [List.getLast?_eq_getElem?] at hl3
    have := count_wedge h _ w hl3 w.nsteps le_rfl
    rw [wedgeStart_last ws w hl2, ← hn, List.take_of_length_le (by rw [mask_length])] at this
    rw [this, hr]
  refine ⟨fillRows (frameMask ws o (o + n * δ) n) rows, ?_, ?_, ?_, ?_⟩
  · unfold expandRows
    simp only [hg, hl, Option.bind_eq_bind, Option.bind_some, hmap]
    rw [if_pos hcnt]; rfl
  · rw [fillRows_length _ _ hcnt.le, mask_length]
  · intro s w i hs hi
    have hle := grid_le h hs
    refine ⟨?_, ?_⟩
    · obtain ⟨b, hb, hbi⟩ := mask_get h (j := k s + i) (by omega)
      rw [fillRows_get _ _ hcnt.le _ b hb, hbi.2 ⟨s, w, hs, by omega, by omega⟩, count_wedge h s w hs i hi.le]
      simp
    · obtain ⟨-, ha, hb⟩ := h.wedge s w hs
      have hw0 : (w.nsteps : ℝ) ≠ 0 := by exact_mod_cast (by omega : w.nsteps ≠ 0)
      have key : ∀ (l : List (Wedge ℝ)) (s : ℕ), l[s]? = some w → omegas l (wedgeStart l s + i) =
          some (linspace w.ostart w.ostop w.nsteps i, linspace w.ostart w.ostop w.nsteps (i + 1)) := by
        intro l
        induction l with
        | nil => intro s hs; simp at hs
        | cons a l ih =>
          intro s hs
          cases s with
          | zero => simp at hs; subst hs; simp [omegas, wedgeStart, hi]
          | succ s =>
            have hne : ¬ (a.nsteps + (List.map Wedge.nsteps (List.take s l)).sum + i < a.nsteps) := by omega
            have := ih s (by simpa using hs)
            unfold wedgeStart at this
            simp only [omegas, wedgeStart, List.take_succ_cons, List.map_cons, List.sum_cons, if_neg hne]
            rw [← this]; congr 1; omega
      rw [key ws s hs]
      unfold linspace
      rw [ha, hb]
      simp only [Option.some.injEq, Prod.mk.injEq]
      push_cast
      constructor <;> field_simp <;> ring
  · intro j hj hno
    obtain ⟨b, hb, hbi⟩ := mask_get h hj
    have hbf : b = false := by
      rw [Bool.eq_false_iff]
      intro hbt
      obtain ⟨s, w, hs, h1, h2⟩ := hbi.1 hbt
      exact hno s w hs ⟨h1, h2⟩
    rw [fillRows_get _ _ hcnt.le _ b hb, hbf]
    simp

/-- The hypotheses are met: wedges 0-90 and 270-360 in steps of one degree. -/
example : OnGrid 0 1 (fun s => if s = 0 then 0 else 270) 360 [⟨0, 90, 90⟩, ⟨270, 360, 90⟩] where
  pos := one_pos
  first := rfl
  wedge := by
    intro s w hs
    match s, hs with
    | 0, hs => simp at hs; subst hs; norm_num
    | 1, hs => simp at hs; subst hs; norm_num
    | s + 2, hs => simp at hs
  next := by
    intro s w hs hl
    match s, hs with
    | 0, hs => simp at hs; subst hs; simp
    | s + 1, hs => simp at hl
  last := ⟨⟨270, 360, 90⟩, rfl, rfl⟩
  turn := by norm_num

/-- C99: the position of a spot is converted to the angle of its place in the map: if the bins are contiguous, of equal
size and within one turn, then the row number `i` is converted to the omega of that row, and a position within half a pixel of row
`i` is converted to an angle in the omega range of that row. -/
theorem spot_omega (a δ : ℝ) (n : ℕ) (hδ : 0 < δ) (hn : 2 ≤ n) (ht : n * δ ≤ 360) (ome : ℕ → ℝ × ℝ)
    (hb : ∀ j < n, ome j = (a + j * δ, a + (j + 1) * δ)) (i : ℕ) (hi : i < n) :
    spotAngle (omegaEdge0 ome) (omegaCentre ome 0) (omegaCentre ome 1) i = omegaCentre ome i ∧
    omegaCentre ome i = radians (a + (i + 1 / 2) * δ) ∧
    ∀ com : ℝ, i - 1 / 2 ≤ com → com < i + 1 / 2 →
      radians (ome i).1 ≤ spotAngle (omegaEdge0 ome) (omegaCentre ome 0) (omegaCentre ome 1) com ∧
      spotAngle (omegaEdge0 ome) (omegaCentre ome 0) (omegaCentre ome 1) com < radians (ome i).2 := by
  have hc : 0 < Real.pi / 180 := by have := Real.pi_pos; positivity
  have h0 : (ome 0).1 = a := by rw [hb 0 (by omega)]; simp
  have hcen : ∀ j < n, omegaCentre ome j = radians (a + (j + 1 / 2) * δ) := by
    intro j hj
    unfold omegaCentre
    rw [h0, hb j hj]
    have e : (a + (j : ℝ) * δ + (a + (j + 1) * δ)) / 2 = a + (j + 1 / 2) * δ := by ring
    rw [e]
    have hj' : (j : ℝ) + 1 ≤ n := by exact_mod_cast hj
    have h1 : 0 ≤ ((j : ℝ) + 1 / 2) * δ := by positivity
    have h2 : ((j : ℝ) + 1 / 2) * δ ≤ 360 := le_trans (mul_le_mul_of_nonneg_right (by linarith) hδ.le) ht
    unfold radians
    exact mapInto_inside (mul_le_mul_of_nonneg_right (by linarith) hc.le) (mul_le_mul_of_nonneg_right (by linarith) hc.le)
      (mul_lt_mul_of_pos_right (by linarith) hc)
  have hedge : omegaEdge0 ome = radians a := by
    unfold omegaEdge0
    rw [h0]
    unfold radians
    exact mapInto_inside le_rfl (mul_le_mul_of_nonneg_right (by linarith) hc.le) (mul_lt_mul_of_pos_right (by linarith) hc)
  have hs : ∀ com : ℝ, spotAngle (omegaEdge0 ome) (omegaCentre ome 0) (omegaCentre ome 1) com = radians (a + (com + 1 / 2) * δ) := by
    intro com
    unfold spotAngle
    rw [hedge, hcen 0 (by omega), hcen 1 (by omega)]
    unfold radians
    push_cast; ring
  refine ⟨by rw [hs, hcen i hi], hcen i hi, ?_⟩
  intro com h1 h2
  rw [hs, hb i hi]
  unfold radians
  exact ⟨mul_le_mul_of_nonneg_right (by nlinarith) hc.le, mul_lt_mul_of_pos_right (by nlinarith) hc⟩

/-- C99: the same for eta, for edges in steps of `eta_step`. -/
theorem spot_eta (e0 step : ℝ) (edge : ℕ → ℝ) (he : ∀ j, edge j = e0 + j * radians step) (hstep : 0 < step) (i : ℕ) :
    spotAngle (edge 0) (etaCentre edge step 0) (etaCentre edge step 1) i = etaCentre edge step i ∧
    ∀ com : ℝ, i - 1 / 2 ≤ com → com < i + 1 / 2 →
      edge i ≤ spotAngle (edge 0) (etaCentre edge step 0) (etaCentre edge step 1) com ∧
      spotAngle (edge 0) (etaCentre edge step 0) (etaCentre edge step 1) com < edge (i + 1) := by
  have hr : 0 < radians step := by unfold radians; have := Real.pi_pos; positivity
  have hs : ∀ com : ℝ, spotAngle (edge 0) (etaCentre edge step 0) (etaCentre edge step 1) com = e0 + (com + 1 / 2) * radians step := by
    intro com
    unfold spotAngle etaCentre
    rw [he, he]; push_cast; ring
  refine ⟨?_, fun com h1 h2 => ?_⟩
  · rw [hs]; unfold etaCentre; rw [he]; ring
  · rw [hs, he, he]
    push_cast
    constructor <;> nlinarith

/-! ## C100 -/

theorem median_some {l : List ℝ} (h : l ≠ []) : ∃ m, median l = some m ∧ IsMedian m l ∧ ∃ x ∈ l, x ≤ m := by
  have hlen : 0 < l.length := List.length_pos_of_ne_nil h
  have hs : (l.insertionSort (· ≤ ·)).Pairwise (· ≤ ·) := List.pairwise_insertionSort _ l
  have hp := List.perm_insertionSort (· ≤ ·) l
  have hl : (l.insertionSort (· ≤ ·)).length = l.length := List.length_insertionSort ..
  have hle : ∀ (s : List ℝ), s.Pairwise (· ≤ ·) → ∀ (i : ℕ) (hi : i < s.length) (m : ℝ), s[i] ≤ m → i + 1 ≤ s.countP (fun x => x ≤ m) := by
    intro s hs i hi m hm
    have hsub := (List.take_sublist (i + 1) s).countP_le (p := fun x => decide (x ≤ m))
    have : (s.take (i + 1)).countP (fun x => decide (x ≤ m)) = (s.take (i + 1)).length := by
      rw [List.countP_eq_length]
      intro x hx
      obtain ⟨j, hj, rfl⟩ := List.mem_take_iff_getElem.1 hx
      have hj' : j ≤ i := by omega
      simp only [decide_eq_true_eq]
      rcases eq_or_lt_of_le hj' with rfl | hlt
      · exact hm
      · exact le_trans (List.pairwise_iff_getElem.1 hs j i (by omega) hi hlt) hm
    rw [this, List.length_take, Nat.min_eq_left (by omega)] at hsub
    exact hsub
  have hge : ∀ (s : List ℝ), s.Pairwise (· ≤ ·) → ∀ (i : ℕ) (hi : i < s.length) (m : ℝ), m ≤ s[i] → s.length - i ≤ s.countP (fun x => m ≤ x) := by
    intro s hs i hi m hm
    have hsub := (List.drop_sublist i s).countP_le (p := fun x => decide (m ≤ x))
    have : (s.drop i).countP (fun x => decide (m ≤ x)) = (s.drop i).length := by
      rw [List.countP_eq_length]
      intro x hx
      obtain ⟨j, hj, rfl⟩ := List.mem_iff_getElem.1 hx
      rw [List.getElem_drop]
      simp only [decide_eq_true_eq]
      rcases Nat.eq_zero_or_pos j with rfl | hlt
      · simpa using hm
      · exact le_trans hm (List.pairwise_iff_getElem.1 hs i (i + j) hi _ (by omega))
    rw [this, List.length_drop] at hsub
    exact hsub
  have cl : ∀ m : ℝ, (l.insertionSort (· ≤ ·)).countP (fun x => decide (x ≤ m)) = l.countP (fun x => decide (x ≤ m)) := fun m => hp.countP_eq _
  have cg : ∀ m : ℝ, (l.insertionSort (· ≤ ·)).countP (fun x => decide (m ≤ x)) = l.countP (fun x => decide (m ≤ x)) := fun m => hp.countP_eq _
  unfold median
  simp only
  rw [if_neg (by omega)]
  generalize hS : l.insertionSort (· ≤ ·) = s at *
  by_cases hodd : l.length % 2 = 1
  · rw [if_pos hodd]
    have hi : l.length / 2 < s.length := by omega
    refine ⟨s[l.length / 2], List.getElem?_eq_getElem hi, ⟨?_, ?_⟩, s[l.length / 2], hp.mem_iff.1 (List.getElem_mem hi), le_rfl⟩
    · have := hle s hs _ hi _ le_rfl; rw [cl] at this; omega
    · have := hge s hs _ hi _ le_rfl; rw [cg] at this; omega
  · rw [if_neg hodd]
    have hi : l.length / 2 < s.length := by omega
    have hi' : l.length / 2 - 1 < s.length := by omega
    rw [List.getElem?_eq_getElem hi, List.getElem?_eq_getElem hi']
    have hord : s[l.length / 2 - 1] ≤ s[l.length / 2] :=
      List.pairwise_iff_getElem.1 hs _ _ hi' hi (by omega)
    refine ⟨_, rfl, ⟨?_, ?_⟩, s[l.length / 2 - 1], hp.mem_iff.1 (List.getElem_mem hi'), by linarith⟩
    · have := hle s hs _ hi' ((s[l.length / 2 - 1] + s[l.length / 2]) / 2) (by linarith); rw [cl] at this; omega
    · have := hge s hs _ hi ((s[l.length / 2 - 1] + s[l.length / 2]) / 2) (by linarith); rw [cg] at this; omega

theorem median_none {l : List ℝ} : median l = none ↔ l = [] := by
  constructor
  · intro h
    by_contra hne
    obtain ⟨m, hm, -⟩ := median_some hne
    rw [h] at hm; cases hm
  · rintro rfl; simp [median]

/-- C100: cleaning a map that has at least one number: there is a median `m` of its numbers such that a pixel above `m` becomes its
excess over `m`, and every other pixel, NaN included, becomes 0. -/
theorem clean_spec (map : List (Option ℝ)) (h : numbers map ≠ []) :
    ∃ m, IsMedian m (numbers map) ∧
      cleanMap map = map.map fun v => match v with | none => some 0 | some x => some (max 0 (x - m)) := by
  obtain ⟨m, hm, hmed, x, hx, hxm⟩ := median_some h
  refine ⟨m, hmed, ?_⟩
  unfold cleanMap
  unfold numbers at hm hx
  rw [hm]
  simp only [List.map_map]
  have hmin : (List.map ((fun v => if v ≤ m then m else v) ∘ fun v => Option.getD v m) map).min? = some m := by
    rw [List.min?_eq_some_iff]
    constructor
    · rw [List.mem_map]
      obtain ⟨v, hv, rfl⟩ := List.mem_filterMap.1 hx
      refine ⟨some x, hv, ?_⟩
      simp only [Function.comp, Option.getD_some, if_pos hxm]
    · intro b hb
      obtain ⟨v, -, rfl⟩ := List.mem_map.1 hb
      simp only [Function.comp]
      split
      · exact le_rfl
      · next hlt => exact (not_le.1 hlt).le
  rw [hmin]
  simp only []
  refine List.map_congr_left fun v _ => ?_
  cases v with
  | none => simp
  | some x =>
    simp only [Function.comp, Option.getD_some]
    split
    · next hle => rw [max_eq_left (by linarith)]; simp
    · next hlt => rw [max_eq_right (by linarith [not_le.1 hlt])]

/-- C100: the result has no NaN and no negative pixel, and at least half of the pixels that were numbers
become 0. -/
theorem clean_background (map : List (Option ℝ)) (h : numbers map ≠ []) :
    (∀ v ∈ cleanMap map, ∃ x, v = some x ∧ 0 ≤ x) ∧ (cleanMap map).length = map.length ∧
    (numbers map).length ≤ 2 * (cleanMap map).countP (fun v => v = some 0) := by
  obtain ⟨m, hmed, e⟩ := clean_spec map h
  rw [e]
  refine ⟨?_, by simp, ?_⟩
  · intro v hv
    obtain ⟨u, -, rfl⟩ := List.mem_map.1 hv
    cases u with
    | none => exact ⟨0, rfl, le_rfl⟩
    | some x => exact ⟨_, rfl, le_max_left _ _⟩
  · refine le_trans hmed.1 (Nat.mul_le_mul_left 2 ?_)
    clear e hmed h
    induction map with
    | nil => simp [numbers]
    | cons v l ih =>
      cases v with
      | none =>
        simp only [numbers, List.filterMap_cons, id, List.map_cons, List.countP_cons] at ih ⊢
        omega
      | some x =>
        simp only [numbers, List.filterMap_cons, id, List.map_cons, List.countP_cons] at ih ⊢
        by_cases hx : x ≤ m
        · have : max 0 (x - m) = 0 := max_eq_left (by linarith)
          simp only [hx, this, decide_true, if_true]; omega
        · simp only [hx, decide_false]
          exact le_trans (by simpa using ih) (Nat.le_add_right _ _)

/-- C100: a map without any number is left as it is. -/
theorem clean_empty (map : List (Option ℝ)) (h : numbers map = []) : cleanMap map = map := by
  unfold cleanMap
  unfold numbers at h
  rw [h, median_none.2 rfl]

theorem median_shift (l : List ℝ) (c : ℝ) : median (l.map (· + c)) = (median l).map (· + c) := by
  have e : (l.map (· + c)).insertionSort (· ≤ ·) = (l.insertionSort (· ≤ ·)).map (· + c) :=
    (List.map_insertionSort (· ≤ ·) (· ≤ ·) (· + c) l (fun a _ b _ => by constructor <;> intro h <;> linarith)).symm
  unfold median
  simp only [e, List.length_map, List.getElem?_map]
  split
  · rfl
  · split
    · rfl
    · cases (l.insertionSort (· ≤ ·))[l.length / 2 - 1]? with
      | none => rfl
      | some a =>
        cases (l.insertionSort (· ≤ ·))[l.length / 2]? with
        | none => rfl
        | some b => simp only [Option.map_some, Option.bind_eq_bind, Option.bind_some, Option.pure_def]; congr 1; ring

theorem numbers_map (col : List (Option ℝ)) (f : ℝ → ℝ) : numbers (col.map fun v => v.map f) = (numbers col).map f := by
  unfold numbers
  induction col with
  | nil => rfl
  | cons v l ih => cases v <;> simp_all

/-- C100: filtering a column subtracts a median of its numbers from each: NaN stays NaN, differences within the column are kept,
and 0 is a median of the result. -/
theorem filter_spec (col : List (Option ℝ)) (h : numbers col ≠ []) :
    ∃ m, IsMedian m (numbers col) ∧ filterColumn col = col.map (fun v => v.map fun x => x - m) ∧
      IsMedian 0 (numbers (filterColumn col)) := by
  obtain ⟨m, hm, hmed, -⟩ := median_some h
  have e : filterColumn col = col.map (fun v => v.map fun x => x - m) := by
    unfold filterColumn; unfold numbers at hm; rw [hm]
  refine ⟨m, hmed, e, ?_⟩
  rw [e, numbers_map]
  unfold IsMedian at *
  simp only [List.length_map, List.countP_map, Function.comp_def, sub_nonpos, sub_nonneg]
  exact hmed

/-- C100: the filter removes streaks: a constant added to all numbers of a column has no effect, and
filtering twice is the same as filtering once. -/
theorem filter_streak (col : List (Option ℝ)) (c : ℝ) :
    filterColumn (col.map fun v => v.map (· + c)) = filterColumn col ∧ filterColumn (filterColumn col) = filterColumn col := by
  have key : ∀ c : ℝ, filterColumn (col.map fun v => v.map (· + c)) = filterColumn col := by
    intro c
    have h1 : (col.map fun v => v.map (· + c)).filterMap id = (col.filterMap id).map (· + c) := numbers_map col (· + c)
    unfold filterColumn
    rw [h1, median_shift]
    cases hm : median (List.filterMap id col) with
    | none =>
      have : numbers col = [] := median_none.1 hm
      simp only [Option.map_none]
      conv_rhs => rw [← List.map_id col]
      refine List.map_congr_left fun v hv => ?_
      cases v with
      | none => rfl
      | some x =>
        have : x ∈ numbers col := List.mem_filterMap.2 ⟨some x, hv, rfl⟩
        simp_all
    | some m =>
      simp only [Option.map_some, List.map_map]
      refine List.map_congr_left fun v _ => ?_
      cases v with
      | none => rfl
      | some x => simp
  refine ⟨key c, ?_⟩
  cases hm : median (List.filterMap id col) with
  | none => unfold filterColumn; rw [hm]; simp only [hm]
  | some m =>
    have e : filterColumn col = col.map (fun v => v.map (· + (-m))) := by
      unfold filterColumn; rw [hm]; simp only [sub_eq_add_neg]
    conv_lhs => rw [e]
    exact key (-m)

/-- C100: what is done for each setting. -/
theorem filter_requested (logf : ℝ → List (List (Option ℝ)) → List (List (Option ℝ))) (cols : List (List (Option ℝ))) :
    filterIfRequested logf .null cols = cols ∧ filterIfRequested logf (.bool false) cols = cols ∧
    filterIfRequested logf (.num 0) cols = cols ∧
    filterIfRequested logf (.bool true) cols = cols.map filterColumn ∧
    ∀ x, x ≠ 0 → ∃ s, s * (2 * √(2 * Real.log 2)) = x ∧
      filterIfRequested logf (.num x) cols = logf s (cols.map filterColumn) := by
  refine ⟨rfl, rfl, by simp [filterIfRequested], rfl, ?_⟩
  intro x hx
  refine ⟨fwhmToSigma * x, ?_, by simp [filterIfRequested, hx]⟩
  have h1 : 0 < √(2 * Real.log 2) := Real.sqrt_pos.2 (mul_pos two_pos (Real.log_pos (by norm_num)))
  unfold fwhmToSigma
  field_simp

/-- C100 (not fully provable): loaded maps are filtered as requested, provided that the option `clean` is not set. -/
theorem load_filtered_partial {M : Type} (filt : M → M) (file : Option M) (gen : M) :
    (∀ m, file = some m → loadMaps filt false file gen = filt m) ∧ (file = none → loadMaps filt false file gen = filt gen) := by
  refine ⟨?_, ?_⟩
  · rintro m rfl; rfl
  · rintro rfl; rfl

/-- C100: the full claim is false: with `clean` the maps are computed and returned without the filter, so that the same data and the
same configuration give different maps with and without the option, whenever the filter changes the maps. -/
theorem load_clean_unfiltered :
    ∃ (filt : List (List (Option ℝ)) → List (List (Option ℝ))) (gen : List (List (Option ℝ))),
      (filt = filterIfRequested (fun _ m => m) (.bool true)) ∧
      loadMaps filt true none gen ≠ loadMaps filt false none gen ∧ loadMaps filt true none gen = gen := by
  refine ⟨_, [[some 1]], rfl, ?_, rfl⟩
  simp [loadMaps, filterIfRequested, filterColumn, median]

/-! ## C101 -/

/-- C101: if neither the caller nor the configuration names reflections, the maps are those of all reflections that are not
excluded. An empty list from the caller counts as no list. -/
theorem select_all (lookup : ℤ × ℤ × ℤ → Option ℤ) (active : List ℤ) :
    selectHkls lookup active none none = some active ∧ selectHkls lookup active (some (.ids [])) none = some active ∧
    selectHkls lookup active (some (.vecs [])) none = some active := ⟨rfl, rfl, rfl⟩

/-- C101: a list from the caller that is not empty takes precedence over the configuration. -/
theorem select_override (lookup : ℤ × ℤ × ℤ → Option ℤ) (active : List ℤ) (h : HklArg) (hne : h ≠ .ids [] ∧ h ≠ .vecs [])
    (setting : Option HklArg) : selectHkls lookup active (some h) setting = selectHkls lookup active none (some h) := by
  have : h.nonempty = true := by
    cases h with
    | ids l => cases l with
      | nil => simp at hne
      | cons => rfl
    | vecs l => cases l with
      | nil => simp at hne
      | cons => rfl
  simp [selectHkls, this]

/-- C101: named reflections are used exactly as given and in the given order, provided that the material has them, none is excluded and none is
named twice; otherwise there is an error. -/
theorem select_spec (lookup : ℤ × ℤ × ℤ → Option ℤ) (active : List ℤ) (h : HklArg) (l : List ℤ) :
    selectHkls lookup active none (some h) = some l ↔
      (match h with | .ids i => i = l | .vecs v => v.map lookup = l.map some) ∧ l.Nodup ∧ ∀ i ∈ l, i ∈ active := by
  have hd : ∀ l : List ℤ, l.dedup.length = l.length ↔ l.Nodup := by
    intro l
    constructor
    · intro h
      have := (List.dedup_sublist l).eq_of_length h
      rw [← this]; exact List.nodup_dedup l
    · intro h; rw [h.dedup]
  have hm : ∀ v : List (ℤ × ℤ × ℤ), ∀ l, v.mapM lookup = some l ↔ v.map lookup = l.map some := by
    intro v
    induction v with
    | nil => intro l; cases l <;> simp
    | cons a v ih =>
      intro l
      rw [List.mapM_cons]
      cases ha : lookup a with
      | none => cases l <;> simp [ha]
      | some b =>
        cases hv : v.mapM lookup with
        | none =>
          cases l with
          | nil => simp
          | cons c l =>
            have := ih l
            rw [hv] at this
            simp [ha]
            intro _ h2
            simpa using this.2 h2
        | some l' =>
          have h1 := (ih l').1 hv
          cases l with
          | nil => simp
          | cons c l =>
            simp [ha, h1]
            intro _
            constructor
            · rintro rfl; rfl
            · intro h
              exact List.map_injective_iff.2 (Option.some_injective _) h
  have step : ∀ l' : List ℤ, (if l'.dedup.length = l'.length then
      (if l'.all (fun i => decide (i ∈ active)) then some l' else none) else none) = some l ↔
      l' = l ∧ l.Nodup ∧ ∀ i ∈ l, i ∈ active := by
    intro l'
    by_cases h1 : l'.Nodup
    · rw [if_pos ((hd l').2 h1)]
      by_cases h2 : l'.all (fun i => decide (i ∈ active))
      · rw [if_pos h2]
        constructor
        · intro h; cases h; exact ⟨rfl, h1, by simpa using h2⟩
        · rintro ⟨rfl, -⟩; rfl
      · rw [if_neg h2]
        constructor
        · intro h; cases h
        · rintro ⟨rfl, -, h⟩; exact absurd (by simpa using h) h2
    · rw [if_neg (fun h => h1 ((hd l').1 h))]
      constructor
      · intro h; cases h
      · rintro ⟨rfl, h, -⟩; exact absurd h h1
  cases h with
  | ids i =>
    simp only [selectHkls, toIds, Option.bind_eq_bind, Option.bind_some]
    exact step i
  | vecs v =>
    simp only [selectHkls, toIds, Option.bind_eq_bind]
    cases hv : v.mapM lookup with
    | none =>
      simp only [Option.bind_none]
      constructor
      · intro h; cases h
      · rintro ⟨h, -⟩; rw [(hm v l).2 h] at hv; cases hv
    | some l' =>
      simp only [Option.bind_some]
      refine (step l').trans ?_
      have h1 := (hm v l').1 hv
      rw [h1]
      constructor
      · rintro ⟨rfl, h⟩; exact ⟨rfl, h⟩
      · rintro ⟨h, h'⟩; exact ⟨List.map_injective_iff.2 (Option.some_injective _) h, h'⟩

/-- A choice that is accepted, and one that is not. -/
example : selectHkls (fun _ => none) [0, 1, 2, 4] none (some (.ids [4, 0])) = some [4, 0] ∧
    selectHkls (fun _ => none) [0, 1, 2, 4] none (some (.ids [3])) = none ∧
    selectHkls (fun _ => none) [0, 1, 2, 4] none (some (.ids [1, 1])) = none := by
  refine ⟨by rw [select_spec]; simp, ?_, ?_⟩ <;> simp [selectHkls, toIds]

end Hexrd.EtaOme
