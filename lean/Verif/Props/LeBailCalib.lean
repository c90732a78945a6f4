import Verif.Model.LeBailCalib
import Verif.Spec.LeBailCalib
import Mathlib.Tactic.Linarith
import Mathlib.Tactic.Ring
import Mathlib.Tactic.FieldSimp
import Mathlib.Tactic.NormNum

/-!
# C165: calibration by azimuthal line-outs
-/
namespace Hexrd.LeBailCalib

theorem ceil_mul (shp npix : ℕ) (h : 0 < npix) : shp ≤ (shp + npix - 1) / npix * npix := by
  have h1 := Nat.div_add_mod (shp + npix - 1) npix
  have h2 := Nat.mod_lt (shp + npix - 1) h
  rw [Nat.mul_comm] at h1
  omega

theorem lt_ceil (shp npix k : ℕ) (h : 0 < npix) : k < (shp + npix - 1) / npix ↔ k * npix < shp := by
  rw [Nat.lt_iff_add_one_le, Nat.le_div_iff_mul_le h, Nat.add_mul, Nat.one_mul]
  omega

theorem cut_getElem {α : Type} (rows : List α) (bs : List ℕ) (k : ℕ) :
    (cut rows bs)[k]? = match bs[k]?, bs[k + 1]? with
      | some a, some b => some ((rows.take b).drop a)
      | _, _ => none := by
  unfold cut
  rw [List.getElem?_map, List.zip, List.getElem?_zipWith, List.getElem?_tail]
  cases bs[k]? <;> cases bs[k + 1]? <;> rfl

/-- **C165**: line-out number `k` is made of the rows `k * npix … (k + 1) * npix - 1` that there are, and there are as many
line-outs as are needed: row `r` belongs to line-out `r / npix` and to no other. -/
theorem cut_rows {α : Type} (rows : List α) (npix : ℕ) (bs : List ℕ) (h : bounds rows.length npix = some bs) (k : ℕ) :
    (cut rows bs)[k]? = if k * npix < rows.length then some ((rows.take ((k + 1) * npix)).drop (k * npix)) else none := by
  unfold bounds at h
  split at h
  · simp at h
  rename_i hn
  have hpos : 0 < npix := Nat.pos_of_ne_zero hn
  obtain rfl := Option.some.inj h
  rw [cut_getElem]
  set n := (rows.length + npix - 1) / npix with hn'
  have hk : ∀ j, ((List.range n).map (fun k => k * npix) ++ [rows.length])[j]?
      = if j < n then some (j * npix) else if j = n then some rows.length else none := by
    intro j
    rw [List.getElem?_append]
    simp only [List.length_map, List.length_range]
    by_cases hj : j < n
    · simp [hj]
    · by_cases hj2 : j = n
      · simp [hj2]
      · simp [hj, hj2]; omega
  rw [hk, hk]
  have hlt := lt_ceil rows.length npix k hpos
  rw [← hn'] at hlt
  by_cases hkn : k < n
  · rw [if_pos hkn, if_pos (hlt.mp hkn)]
    by_cases hk1 : k + 1 < n
    · simp [hk1]
    · have : k + 1 = n := by omega
      have hc := ceil_mul rows.length npix hpos
      rw [← hn', ← this] at hc
      simp only [this, lt_irrefl, if_false, if_true]
      rw [← this, List.take_of_length_le (le_refl _), List.take_of_length_le hc]
  · rw [if_neg (fun h => hkn (hlt.mpr h)), if_neg hkn]
    have h1 : ¬ k + 1 < n := by omega
    have h2 : ¬ k + 1 = n := by omega
    by_cases hkn2 : k = n <;> simp [hkn2]

/-- The step must be a pixel at least. -/
theorem bounds_none (shp npix : ℕ) : bounds shp npix = none ↔ npix = 0 := by
  unfold bounds; split <;> simp_all

theorem cut_flatten_aux {α : Type} (rows : List α) : ∀ (bs : List ℕ) (b : ℕ), (b :: bs).Pairwise (· ≤ ·) →
    rows.length ≤ (b :: bs).getLast (by simp) → (cut rows (b :: bs)).flatten = rows.drop b := by
  intro bs
  induction bs with
  | nil =>
    intro b _ hl
    simp only [List.getLast_singleton] at hl
    simp [cut, List.drop_of_length_le hl]
  | cons c bs ih =>
    intro b hs hl
    rw [List.pairwise_cons] at hs
    have hbc : b ≤ c := hs.1 c (by simp)
    have he : cut rows (b :: c :: bs) = (rows.take c).drop b :: cut rows (c :: bs) := by simp [cut]
    rw [he, List.flatten_cons, ih c hs.2 (by simpa [List.getLast_cons] using hl), List.drop_take]
    have : rows.drop c = (rows.drop b).drop (c - b) := by rw [List.drop_drop]; congr 1; omega
    rw [this, List.take_append_drop]

/-- **C165**: the line-outs together have every row once, in order. -/
theorem cut_flatten {α : Type} (rows : List α) (npix : ℕ) (bs : List ℕ) (h : bounds rows.length npix = some bs) :
    (cut rows bs).flatten = rows := by
  unfold bounds at h
  split at h
  · simp at h
  rename_i hn
  have hpos : 0 < npix := Nat.pos_of_ne_zero hn
  obtain rfl := Option.some.inj h
  set n := (rows.length + npix - 1) / npix with hn'
  have hsorted : ((List.range n).map (fun k => k * npix) ++ [rows.length]).Pairwise (· ≤ ·) := by
    rw [List.pairwise_append]
    refine ⟨?_, by simp, ?_⟩
    · rw [List.pairwise_map]
      exact List.pairwise_lt_range.imp fun h => Nat.mul_le_mul_right npix h.le
    · intro a ha b hb
      obtain ⟨k, hk, rfl⟩ := List.mem_map.mp ha
      rw [List.mem_singleton.mp hb]
      exact ((lt_ceil rows.length npix k hpos).mp (by simpa using List.mem_range.mp hk)).le
  rcases n with _ | n
  · have h0 : rows.length = 0 := by have := ceil_mul rows.length npix hpos; rw [← hn'] at this; omega
    rw [List.length_eq_zero_iff] at h0
    subst h0
    simp [cut]
  · have he : (List.range (n + 1)).map (fun k => k * npix) ++ [rows.length]
        = 0 :: ((List.range n).map (fun k => (k + 1) * npix) ++ [rows.length]) := by
      rw [List.range_succ_eq_map]; simp [Function.comp_def]
    rw [he] at hsorted ⊢
    rw [cut_flatten_aux rows _ 0 hsorted (by rw [List.getLast_cons (by simp)]; simp)]
    simp

theorem colSum_flatten (cs : List (List (List (Option ℝ)))) (c : ℕ) : colSum cs.flatten c = (cs.map fun ch => colSum ch c).sum := by
  induction cs with
  | nil => simp [colSum]
  | cons a cs ih =>
    rw [List.flatten_cons, List.map_cons, List.sum_cons, ← ih]
    simp [colSum]

theorem colCount_flatten (cs : List (List (List (Option ℝ)))) (c : ℕ) : colCount cs.flatten c = (cs.map fun ch => colCount ch c).sum := by
  induction cs with
  | nil => simp [colCount]
  | cons a cs ih =>
    rw [List.flatten_cons, List.map_cons, List.sum_cons, ← ih]
    simp [colCount]

/-- A column in which all is masked adds up to zero. -/
theorem colSum_zero (rows : List (List (Option ℝ))) (c : ℕ) (h : colCount rows c = 0) : colSum rows c = 0 := by
  induction rows with
  | nil => simp [colSum]
  | cons r rows ih =>
    unfold colCount at h
    rw [List.countP_cons] at h
    have h1 : rows.countP (fun r => ((r[c]?).join).isSome) = 0 := by omega
    have h2 : ((r[c]?).join) = none := by
      by_contra hne
      have : ((r[c]?).join).isSome = true := Option.isSome_iff_ne_none.mpr hne
      simp [this] at h
    have := ih h1
    unfold colSum at this ⊢
    simp [h2, this]

/-- The number of pixels times the mean is the sum. -/
theorem mean_mul (rows : List (List (Option ℝ))) (c : ℕ) : colCount rows c * (mean rows c).getD 0 = colSum rows c := by
  unfold mean
  by_cases h : colCount rows c = 0
  · simp [h, colSum_zero rows c h]
  · have : (colCount rows c : ℝ) ≠ 0 := Nat.cast_ne_zero.mpr h
    simp only [h, if_false, Option.getD_some]
    field_simp

/-- **C165**: nothing is lost: the line-out of the whole image is the mean of the line-outs, each counted with its pixels that are not
masked. -/
theorem full_lineout (rows : List (List (Option ℝ))) (npix : ℕ) (bs : List ℕ) (h : bounds rows.length npix = some bs) (c : ℕ) :
    colCount rows c * (mean rows c).getD 0 = ((cut rows bs).map fun ch => colCount ch c * (mean ch c).getD 0).sum ∧
      colCount rows c = ((cut rows bs).map fun ch => colCount ch c).sum := by
  have hf := cut_flatten rows npix bs h
  constructor
  · rw [mean_mul]
    conv_lhs => rw [← hf, colSum_flatten]
    congr 1
    apply List.map_congr_left
    intro ch _
    rw [mean_mul]
  · conv_lhs => rw [← hf, colCount_flatten]

/-- A case: five rows in steps of two give three line-outs. -/
example : bounds 5 2 = some [0, 2, 4, 5] ∧ cut [10, 11, 12, 13, 14] [0, 2, 4, 5] = [[10, 11], [12, 13], [14]] := by decide

theorem fold3 (f : (PName → Bool) → Fin 3 → PName → Bool) (v : PName → Bool) :
    (List.finRange 3).foldl f v = f (f (f v 0) 1) 2 := rfl

theorem fin3 (i : Fin 3) : i = 0 ∨ i = 1 ∨ i = 2 := by
  match i with
  | 0 => simp
  | 1 => simp
  | 2 => simp

open Classical in
/-- **C165**: refining the positions sets exactly the parameters of the positions of the detectors. -/
theorem refineTranslation_spec (dets : List String) (val : Bool) (vary : PName → Bool) (p : PName) :
    refineTranslation dets val vary p = if Spec.IsTvec dets p then val else vary p := by
  unfold refineTranslation
  induction dets generalizing vary with
  | nil => cases p <;> simp [Spec.IsTvec]
  | cons d ds ih =>
    rw [List.foldl_cons, ih, fold3]
    cases p with
    | tvec e i =>
      by_cases h : e = d
      · subst h
        rcases fin3 i with rfl | rfl | rfl <;> simp [Spec.IsTvec, setVary]
      · simp [Spec.IsTvec, setVary, h]
    | tilt e i => simp [Spec.IsTvec, setVary]
    | other s => simp [Spec.IsTvec, setVary]

open Classical in
/-- **C165**: so do the tilts. -/
theorem refineTilt_spec (dets : List String) (val : Bool) (vary : PName → Bool) (p : PName) :
    refineTilt dets val vary p = if Spec.IsTilt dets p then val else vary p := by
  unfold refineTilt
  induction dets generalizing vary with
  | nil => cases p <;> simp [Spec.IsTilt]
  | cons d ds ih =>
    rw [List.foldl_cons, ih, fold3]
    cases p with
    | tilt e i =>
      by_cases h : e = d
      · subst h
        rcases fin3 i with rfl | rfl | rfl <;> simp [Spec.IsTilt, setVary]
      · simp [Spec.IsTilt, setVary, h]
    | tvec e i => simp [Spec.IsTilt, setVary]
    | other s => simp [Spec.IsTilt, setVary]

open Classical in
/-- **C165**: refining the instrument sets both. -/
theorem refineInstrument_spec (dets : List String) (val : Bool) (vary : PName → Bool) (p : PName) :
    refineInstrument dets val vary p = if Spec.IsTvec dets p ∨ Spec.IsTilt dets p then val else vary p := by
  unfold refineInstrument
  induction dets generalizing vary with
  | nil => cases p <;> simp [Spec.IsTilt, Spec.IsTvec]
  | cons d ds ih =>
    rw [List.foldl_cons, ih, fold3]
    cases p with
    | tilt e i =>
      by_cases h : e = d
      · subst h
        rcases fin3 i with rfl | rfl | rfl <;> simp [Spec.IsTilt, Spec.IsTvec, setVary]
      · simp [Spec.IsTilt, Spec.IsTvec, setVary, h]
    | tvec e i =>
      by_cases h : e = d
      · subst h
        rcases fin3 i with rfl | rfl | rfl <;> simp [Spec.IsTilt, Spec.IsTvec, setVary]
      · simp [Spec.IsTilt, Spec.IsTvec, setVary, h]
    | other s => simp [Spec.IsTilt, Spec.IsTvec, setVary]

/-- **C165**, against the claim that `refine_translation` tells what was set: it tells the flag of the tilts. -/
theorem getTranslation_fails : ∃ f : Flags, f.translation = some true ∧ getTranslation f = none := ⟨⟨some true, none⟩, rfl, rfl⟩

theorem detStep_spec (params : PName → Option (ℝ × Bool)) (name : String) (s : Det × Bool) (a : Fin 3) :
    detStep params name s a =
      (⟨s.1.name, fun j => if j = a then (Spec.varied params (.tvec name j)).getD (s.1.tvec j) else s.1.tvec j,
        fun j => if j = a then (Spec.varied params (.tilt name j)).getD (s.1.tilt j) else s.1.tilt j⟩,
       s.2 || (Spec.varied params (.tvec name a)).isSome || (Spec.varied params (.tilt name a)).isSome) := by
  have hv : ∀ p, Spec.varied params p = match params p with | some (x, true) => some x | _ => none := fun _ => rfl
  have hu : ∀ (f : Fin 3 → ℝ) (x : ℝ), Function.update f a x = fun j => if j = a then x else f j := by
    intro f x; funext j; by_cases h : j = a <;> simp [h, Function.update_of_ne]
  have hsame : ∀ (f : Fin 3 → ℝ) (g : Fin 3 → Option ℝ), g a = none → (fun j => if j = a then (g j).getD (f j) else f j) = f := by
    intro f g hg; funext j; by_cases h : j = a
    · subst h; simp [hg]
    · simp [h]
  have hset : ∀ (f : Fin 3 → ℝ) (g : Fin 3 → Option ℝ) (x : ℝ), g a = some x →
      (fun j => if j = a then (g j).getD (f j) else f j) = Function.update f a x := by
    intro f g x hg; rw [hu]; funext j; by_cases h : j = a
    · subst h; simp [hg]
    · simp [h]
  have hT := hv (.tvec name a)
  have hL := hv (.tilt name a)
  unfold detStep
  rcases h1 : params (.tvec name a) with _ | ⟨x, _ | _⟩ <;> rcases h2 : params (.tilt name a) with _ | ⟨y, _ | _⟩ <;>
    rw [h1] at hT <;> rw [h2] at hL <;> simp only at hT hL <;>
    first
    | rw [hsame s.1.tvec (fun j => Spec.varied params (.tvec name j)) hT, hsame s.1.tilt (fun j => Spec.varied params (.tilt name j)) hL, hT, hL]; simp
    | rw [hsame s.1.tvec (fun j => Spec.varied params (.tvec name j)) hT, hset s.1.tilt (fun j => Spec.varied params (.tilt name j)) y hL, hT, hL]; simp
    | rw [hset s.1.tvec (fun j => Spec.varied params (.tvec name j)) x hT, hsame s.1.tilt (fun j => Spec.varied params (.tilt name j)) hL, hT, hL]; simp
    | rw [hset s.1.tvec (fun j => Spec.varied params (.tvec name j)) x hT, hset s.1.tilt (fun j => Spec.varied params (.tilt name j)) y hL, hT, hL]; simp

theorem updateDet_fold (params : PName → Option (ℝ × Bool)) (name : String) (l : List (Fin 3)) : ∀ s : Det × Bool,
    (∀ j, (l.foldl (detStep params name) s).1.tvec j = (if j ∈ l then (Spec.varied params (.tvec name j)).getD (s.1.tvec j) else s.1.tvec j) ∧
      (l.foldl (detStep params name) s).1.tilt j = if j ∈ l then (Spec.varied params (.tilt name j)).getD (s.1.tilt j) else s.1.tilt j) ∧
    (l.foldl (detStep params name) s).1.name = s.1.name ∧
    ((l.foldl (detStep params name) s).2 = true ↔
      s.2 = true ∨ ∃ i ∈ l, (Spec.varied params (.tvec name i)).isSome ∨ (Spec.varied params (.tilt name i)).isSome) := by
  induction l with
  | nil => intro s; simp
  | cons a l ih =>
    intro s
    rw [List.foldl_cons]
    obtain ⟨h1, h2, h3⟩ := ih (detStep params name s a)
    have hd := detStep_spec params name s a
    refine ⟨fun j => ⟨?_, ?_⟩, by rw [h2, hd], ?_⟩
    · rw [(h1 j).1, hd]
      by_cases hj : j = a
      · subst hj
        by_cases hl : j ∈ l <;> cases hx : Spec.varied params (.tvec name j) <;> simp [hl, hx]
      · by_cases hl : j ∈ l <;> simp [hj, hl]
    · rw [(h1 j).2, hd]
      by_cases hj : j = a
      · subst hj
        by_cases hl : j ∈ l <;> cases hx : Spec.varied params (.tilt name j) <;> simp [hl, hx]
      · by_cases hl : j ∈ l <;> simp [hj, hl]
    · rw [h3, hd]
      simp only [List.mem_cons, exists_eq_or_imp, Bool.or_eq_true, or_assoc]

/-- **C165**: the detectors get exactly the parameters that vary; all else stays, and so does their order. -/
theorem updateInstrument_dets (params : PName → Option (ℝ × Bool)) (ds : List Det) :
    (updateInstrument params ds).1 = ds.map fun d =>
      { name := d.name, tvec := fun i => (Spec.varied params (.tvec d.name i)).getD (d.tvec i),
        tilt := fun i => (Spec.varied params (.tilt d.name i)).getD (d.tilt i) } := by
  unfold updateInstrument
  apply List.map_congr_left
  intro d _
  obtain ⟨h1, h2, -⟩ := updateDet_fold params d.name (List.finRange 3) (d, false)
  have e : (updateDet params d).1 = ⟨(updateDet params d).1.name, (updateDet params d).1.tvec, (updateDet params d).1.tilt⟩ := rfl
  rw [e]
  congr 1
  · funext j; exact (h1 j).1.trans (if_pos (List.mem_finRange j))
  · funext j; exact (h1 j).2.trans (if_pos (List.mem_finRange j))

/-- **C165**: the polar view is made anew exactly if a parameter of a detector varies. -/
theorem updateInstrument_flag (params : PName → Option (ℝ × Bool)) (ds : List Det) :
    (updateInstrument params ds).2 = true ↔
      ∃ d ∈ ds, ∃ i, (Spec.varied params (.tvec d.name i)).isSome ∨ (Spec.varied params (.tilt d.name i)).isSome := by
  unfold updateInstrument
  simp only [List.any_eq_true]
  constructor
  · rintro ⟨d, hd, h⟩
    obtain ⟨-, -, h3⟩ := updateDet_fold params d.name (List.finRange 3) (d, false)
    rcases h3.mp h with h | ⟨i, -, hi⟩
    · simp at h
    · exact ⟨d, hd, i, hi⟩
  · rintro ⟨d, hd, i, hi⟩
    obtain ⟨-, -, h3⟩ := updateDet_fold params d.name (List.finRange 3) (d, false)
    exact ⟨d, hd, h3.mpr (Or.inr ⟨i, List.mem_finRange i, hi⟩)⟩

theorem fold_dict (value : String → String → ℝ) (p : String) (valid : List String) : ∀ (dict : String → Option ℝ) (t : String),
    valid.foldl (fun d s => fun t => if t = s then some (value p s) else d t) dict t
      = if t ∈ valid then some (value p t) else dict t := by
  induction valid with
  | nil => simp
  | cons s valid ih =>
    intro dict t
    rw [List.foldl_cons, ih]
    by_cases h1 : t ∈ valid <;> by_cases h2 : t = s <;> simp [h1, h2]

/-- **C165**: every phase gets its own values for its valid names. -/
theorem updateShkl_valid (value : String → String → ℝ) (ps : List (String × List String)) : ∀ (dict : String → Option ℝ) (k : ℕ)
    (p : String) (valid : List String), ps[k]? = some (p, valid) → ∀ f, (updateShkl value ps dict)[k]? = some f →
      ∀ s ∈ valid, f s = value p s := by
  induction ps with
  | nil => intro dict k p valid h; simp at h
  | cons q ps ih =>
    intro dict k p valid h f hf s hs
    obtain ⟨q1, q2⟩ := q
    cases k with
    | zero =>
      simp only [List.getElem?_cons_zero, Option.some.injEq, Prod.mk.injEq] at h
      obtain ⟨rfl, rfl⟩ := h
      simp only [updateShkl, List.getElem?_cons_zero, Option.some.injEq] at hf
      subst hf
      simp only
      rw [fold_dict, if_pos hs]; rfl
    | succ k =>
      simp only [List.getElem?_cons_succ] at h
      simp only [updateShkl, List.getElem?_cons_succ] at hf
      exact ih _ k p valid h f hf s hs

/-- **C165**: a name that is not valid for a phase is zero there if it is not valid for any phase before it either. Missing: names that
are valid for a phase before it. -/
theorem updateShkl_zero_partial (value : String → String → ℝ) (ps : List (String × List String)) : ∀ (dict : String → Option ℝ) (k : ℕ)
    (s : String), dict s = none → (∀ j ≤ k, ∀ q, ps[j]? = some q → s ∉ q.2) → ∀ f, (updateShkl value ps dict)[k]? = some f → f s = 0 := by
  induction ps with
  | nil => intro dict k s _ _ f hf; simp [updateShkl] at hf
  | cons q ps ih =>
    intro dict k s hd hv f hf
    obtain ⟨q1, q2⟩ := q
    have h0 : s ∉ q2 := hv 0 (Nat.zero_le _) (q1, q2) rfl
    have hd' : q2.foldl (fun d s => fun t => if t = s then some (value q1 s) else d t) dict s = none := by
      rw [fold_dict, if_neg h0, hd]
    cases k with
    | zero =>
      simp only [updateShkl, List.getElem?_cons_zero, Option.some.injEq] at hf
      subst hf
      simp only [hd', Option.getD_none]
    | succ k =>
      simp only [updateShkl, List.getElem?_cons_succ] at hf
      exact ih _ k s hd' (fun j hj q hq => hv (j + 1) (by omega) q (by simpa using hq)) f hf

/-- **C165**, against the claim that a name not valid for a phase is zero there: it has the value of the phase before. -/
theorem updateShkl_leak_fails : ∃ (value : String → String → ℝ) (f : String → ℝ),
    (updateShkl value [("A", ["s310"]), ("B", ["s400"])] fun _ => none)[1]? = some f ∧ f "s310" = 7 :=
  ⟨fun _ _ => 7, _, rfl, by simp⟩

theorem errvec_eq (ls : List (List Pt)) : errvec ls = (ls.map evec).flatten := by
  unfold errvec
  have : ∀ (ls : List (List Pt)) (acc : List ℝ), ls.foldl (fun acc l => acc ++ evec l) acc = acc ++ (ls.map evec).flatten := by
    intro ls
    induction ls with
    | nil => simp
    | cons l ls ih => intro acc; rw [List.foldl_cons, ih]; simp
  rw [this]; simp

/-- **C165**: what the fit makes small, the sum of the squares of the residuals, is the sum over all line-outs and points of the
weighted squares of the differences. -/
theorem errvec_squares (ls : List (List Pt)) (hw : ∀ l ∈ ls, ∀ p ∈ l, 0 ≤ p.w) :
    ((errvec ls).map fun x => x ^ 2).sum = (ls.map fun l => (l.map fun p => p.w * (p.e - p.s) ^ 2).sum).sum := by
  rw [errvec_eq]
  induction ls with
  | nil => simp
  | cons l ls ih =>
    rw [List.map_cons, List.flatten_cons, List.map_append, List.sum_append, List.map_cons, List.sum_cons,
      ih fun l' hl' => hw l' (List.mem_cons_of_mem _ hl')]
    congr 1
    unfold evec
    rw [List.map_map]
    congr 1
    apply List.map_congr_left
    intro p hp
    exact Real.sq_sqrt (mul_nonneg (hw l (by simp) p hp) (sq_nonneg _))

theorem trapezoid_zero (x : List ℝ) : ∀ y : List ℝ, (∀ a ∈ y, a = 0) → trapezoid y x = 0 := by
  induction x with
  | nil => intro y _; match y with | [] => rfl | [_] => rfl | _ :: _ :: _ => rfl
  | cons x₀ xs ih =>
    intro y hy
    match y, xs with
    | [], _ => rfl
    | [_], _ => rfl
    | _ :: _ :: _, [] => rfl
    | y₀ :: y₁ :: ys, x₁ :: xs =>
      have h0 := hy y₀ (by simp)
      have h1 := hy y₁ (by simp)
      have := ih (y₁ :: ys) fun a ha => hy a (List.mem_cons_of_mem _ ha)
      simp only [trapezoid, h0]
      rw [this, h1]; ring

/-- **C165**: the residual of a perfect fit is zero. -/
theorem rwp_perfect (l : List Pt) (h : ∀ p ∈ l, p.e = p.s) : rwp l = 0 := by
  unfold rwp
  rw [trapezoid_zero]
  · simp
  · intro a ha
    obtain ⟨p, hp, rfl⟩ := List.mem_map.mp ha
    simp [h p hp]

/-- **C165**, against the claim that the number reported is the usual residual: with nothing simulated that is 100 percent; here
it is 50. -/
theorem rwp_fails : ∃ l : List Pt, Spec.rwp l = 100 ∧ rwp l = 50 := by
  refine ⟨[⟨0, 1, 4, 0⟩, ⟨1, 1, 4, 0⟩], ?_, ?_⟩
  · simp [Spec.rwp, trapezoid]
  · have h : √((4 : ℝ) ^ 2) = 4 := Real.sqrt_sq (by norm_num)
    have h2 : √((1 : ℝ) / 4) = 1 / 2 := by rw [show (1 : ℝ) / 4 = (1 / 2) ^ 2 by norm_num]; exact Real.sqrt_sq (by norm_num)
    simp only [rwp, evec, trapezoid, List.map_cons, List.map_nil, one_mul, sub_zero, h]
    rw [show (((4 : ℝ) + 4) / 2 + 0) / ((4 ^ 2 + 4 ^ 2) / 2 + 0) = 1 / 4 by norm_num, h2]
    norm_num

/-! ### The line-outs themselves -/

/-- **C165** a value of a line-out is masked exactly if all the pixels that enter it are. -/
theorem mean_none (rows : List (List (Option ℝ))) (c : ℕ) : mean rows c = none ↔ ∀ r ∈ rows, ∀ x, r[c]? ≠ some (some x) := by
  have e : colCount rows c = 0 ↔ ∀ r ∈ rows, ∀ x, r[c]? ≠ some (some x) := by
    unfold colCount
    rw [List.countP_eq_zero]
    refine forall₂_congr fun r _ => ?_
    cases h : r[c]? with
    | none => simp
    | some o => cases o <;> simp
  rw [← e]
  unfold mean
  split <;> simp_all

/-- **C165** the line-out `k` is the mean of the rows from `k` times the step on, as many as the step or as there are left. -/
theorem lineouts_each (rows : List (List (Option ℝ))) (npix : ℕ) (h : 0 < npix) : ∃ l, lineouts rows npix = some l ∧
    ∀ k, l[k]? = if k * npix < rows.length then some (mean ((rows.take ((k + 1) * npix)).drop (k * npix))) else none := by
  cases hb : bounds rows.length npix with
  | none => have := (bounds_none _ _).1 hb; omega
  | some bs =>
    refine ⟨(cut rows bs).map mean, by simp [lineouts, hb], fun k => ?_⟩
    rw [List.getElem?_map, cut_rows rows npix bs hb k]
    split <;> simp

end Hexrd.LeBailCalib
