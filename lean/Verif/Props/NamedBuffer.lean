import Verif.Spec.NamedBuffer

/-! # C173: named masks of detectors -/
namespace Hexrd.NamedBuffer

theorem bound_span (n len : ℕ) (s : ℤ) (hl : 0 < len) : bound n (s + len) - bound n s = len ↔
    (0 ≤ s ∧ s + len ≤ n) ∨ (-(n : ℤ) ≤ s ∧ s + len < 0) := by
  unfold bound
  split <;> split <;> omega

theorem bound_nonneg (n : ℕ) (s : ℤ) (h : 0 ≤ s) (h' : s ≤ n) : bound n s = s.toNat := by
  unfold bound
  split <;> omega

/-- **C173** a mask has always the size of the detector. -/
theorem fromStr_shape (files : String → Option Arr) (name : String) (p : Panel) (b : Arr) (h : fromStr files name p = some b) :
    b.rows = p.rows ∧ b.cols = p.cols := by
  unfold fromStr at h
  cases hf : load files name with
  | none => simp [hf] at h
  | some a =>
    simp only [hf, Option.bind_eq_bind, Option.bind_some, Option.pure_def] at h
    split at h
    · rename_i hs; simp only [Option.some.injEq] at h; subst h; exact hs
    · cases hr : p.roi with
      | none => simp [hr] at h
      | some roi =>
        simp only [hr, Option.bind_some] at h
        split at h
        · rename_i hs; simp only [Option.some.injEq] at h; subst h; exact hs
        · simp at h

/-- **C173** a mask of the size of the detector is used as it is. -/
theorem fromStr_whole (files : String → Option Arr) (name : String) (p : Panel) (a : Arr) (h : files name = some a)
    (hs : a.rows = p.rows ∧ a.cols = p.cols) : fromStr files name p = some a := by
  simp [fromStr, load, h, hs]

/-- **C173** a mask of another size is used for a detector with a region of interest: the part in the region, if the region lies in the
mask. -/
theorem fromStr_region (files : String → Option Arr) (name : String) (p : Panel) (a : Arr) (r c : ℤ) (h : files name = some a)
    (hs : ¬ (a.rows = p.rows ∧ a.cols = p.cols)) (hr : 0 < p.rows) (hc : 0 < p.cols) (hi : Spec.Inside a p r c) :
    ∃ b, fromStr files name (setRoi p (some (r, c))) = some b ∧ Spec.IsPart a p r.toNat c.toNat b := by
  obtain ⟨h1, h2, h3, h4⟩ := hi
  have e1 := (bound_span a.rows p.rows r hr).2 (Or.inl ⟨h1, h3⟩)
  have e2 := (bound_span a.cols p.cols c hc).2 (Or.inl ⟨h2, h4⟩)
  refine ⟨slice a (r, r + p.rows) (c, c + p.cols), ?_, e1, e2, fun i j => ?_⟩
  · simp [fromStr, load, h, setRoi, hs, slice, e1, e2]
  · show a.at' _ _ = _
    rw [bound_nonneg _ _ h1 (by omega), bound_nonneg _ _ h2 (by omega)]

/-- **C173** for a region that does not start at a negative row or column, everything else is an exception: there is no mask if it has
another size and the detector has no region, or the region is not in the mask. Missing: negative starts, for which it is false. -/
theorem fromStr_refused_partial (files : String → Option Arr) (name : String) (p : Panel) (a : Arr) (h : files name = some a)
    (hs : ¬ (a.rows = p.rows ∧ a.cols = p.cols)) (hr : 0 < p.rows) (hc : 0 < p.cols) :
    fromStr files name (setRoi p none) = none ∧
    ∀ r c : ℤ, 0 ≤ r → 0 ≤ c → ¬ Spec.Inside a p r c → fromStr files name (setRoi p (some (r, c))) = none := by
  refine ⟨by simp [fromStr, load, h, setRoi, hs], fun r c h1 h2 hi => ?_⟩
  have e : ¬ (bound a.rows (r + p.rows) - bound a.rows r = p.rows ∧ bound a.cols (c + p.cols) - bound a.cols c = p.cols) := by
    rw [bound_span _ _ _ hr, bound_span _ _ _ hc]
    unfold Spec.Inside at hi
    omega
  simp [fromStr, load, h, setRoi, hs, slice, e]

theorem fromStr_unknown (files : String → Option Arr) (name : String) (p : Panel) (h : files name = none) : fromStr files name p = none := by
  simp [fromStr, load, h]

/-- **C173 is false** for a region that starts before the mask: one that ends before it as well is taken from its other end. -/
theorem negative_fails (files : String → Option Arr) (name : String) (p : Panel) (a : Arr) (r c : ℤ) (h : files name = some a)
    (hs : ¬ (a.rows = p.rows ∧ a.cols = p.cols)) (hr : 0 < p.rows) (hc : 0 < p.cols) (h1 : -(a.rows : ℤ) ≤ r) (h2 : r + p.rows < 0)
    (h3 : 0 ≤ c) (h4 : c + p.cols ≤ a.cols) :
    ¬ Spec.Inside a p r c ∧ ∃ b, fromStr files name (setRoi p (some (r, c))) = some b ∧ Spec.IsPart a p (r + a.rows).toNat c.toNat b := by
  have e1 := (bound_span a.rows p.rows r hr).2 (Or.inr ⟨h1, h2⟩)
  have e2 := (bound_span a.cols p.cols c hc).2 (Or.inl ⟨h3, h4⟩)
  refine ⟨fun hi => by unfold Spec.Inside at hi; omega, slice a (r, r + p.rows) (c, c + p.cols), ?_, e1, e2, fun i j => ?_⟩
  · simp [fromStr, load, h, setRoi, hs, slice, e1, e2]
  · show a.at' _ _ = _
    rw [bound_nonneg _ _ h3 (by omega)]
    congr 2
    unfold bound
    rw [if_pos (by omega)]

/-- **C173 is false** if the number of rows is changed after the region: the region keeps its size, and there is no mask of the new size
even if the file has one. -/
theorem stale_fails (files : String → Option Arr) (name : String) (p : Panel) (a : Arr) (r c : ℤ) (n : ℕ) (h : files name = some a)
    (hi : Spec.Inside a p r c) (hr : 0 < p.rows) (hn : n ≠ p.rows) (hs : a.rows ≠ n) :
    fromStr files name (setRows (setRoi p (some (r, c))) n) = none ∧
    (setRows (setRoi p (some (r, c))) n).roi = some ((r, r + p.rows), (c, c + p.cols)) ∧
    (setRoi (setRows (setRoi p (some (r, c))) n) (some (r, c))).roi = some ((r, r + n), (c, c + p.cols)) := by
  refine ⟨?_, rfl, rfl⟩
  obtain ⟨h1, h2, h3, h4⟩ := hi
  have e1 := (bound_span a.rows p.rows r hr).2 (Or.inl ⟨h1, h3⟩)
  simp [fromStr, load, h, setRoi, setRows, hs, slice, e1, Ne.symm hn]

/-- A mask of 4 by 5 and a region of 2 by 3 in it, one before it, and one that is half outside. -/
example : (fromStr (fun _ => some ⟨4, 5, fun i j => i == 2 && j == 2⟩) "m" (setRoi ⟨2, 3, none⟩ (some (1, 2)))).map (fun b => b.at' 1 0) = some true ∧
    (fromStr (fun _ => some ⟨4, 5, fun _ _ => true⟩) "m" (setRoi ⟨2, 3, none⟩ (some (-4, 2)))).isSome = true ∧
    (fromStr (fun _ => some ⟨4, 5, fun _ _ => true⟩) "m" (setRoi ⟨2, 3, none⟩ (some (3, 2)))).isSome = false := by decide

end Hexrd.NamedBuffer
