import Verif.Spec.H5Opts
import Mathlib.Tactic.SplitIfs

/-! # C167: the options of the HDF5 writer -/
namespace Hexrd.H5Opts

variable {C : Type}

theorem chunkRows_some (s0 r : ℤ) (h : Spec.Possible s0 r) : chunkRows s0 (some r) = r := by
  unfold Spec.Possible at h
  simp only [chunkRows, Option.getD_some]
  rw [if_neg (by omega)]

theorem chunkRows_all (s0 : ℤ) (o : Option ℤ) (h : ∀ r, o = some r → ¬ Spec.Possible s0 r) : chunkRows s0 o = s0 := by
  unfold chunkRows
  cases o with
  | none => simp [dfltRows]
  | some r =>
    have := h r rfl
    unfold Spec.Possible at this
    simp only [Option.getD_some]
    rw [if_pos (by omega)]

/-- **C167** the first time the options of the writer are read they mean what its description says. -/
theorem first_read (s0 s1 : ℤ) (o : Opts C) : Spec.Means s0 s1 o (h5opts s0 s1 o).1 := by
  unfold h5opts
  cases ho : o.compression with
  | some c =>
    refine ⟨?_, ?_, ?_, ?_, ?_, ?_, ?_, ?_⟩ <;> simp_all
    · intro r hr hp; exact chunkRows_some s0 r hp
    · intro h; exact chunkRows_all s0 _ h
  | none =>
    refine ⟨?_, ?_, ?_, ?_, ?_, ?_, ?_, ?_⟩ <;> simp_all [dfltGzip, dfltShuffle]
    · intro r hr hp; exact chunkRows_some s0 r hp
    · intro h; exact chunkRows_all s0 _ h

/-- **C167** whatever is asked for, a chunk lies within one frame and has at least one row, if the frame has. -/
theorem chunk_fits (s0 s1 : ℤ) (o : Opts C) (h : 1 ≤ s0) : ∃ r, (h5opts s0 s1 o).1.chunks = (1, r, s1) ∧ 1 ≤ r ∧ r ≤ s0 := by
  have hc : 1 ≤ chunkRows s0 o.chunkRows ∧ chunkRows s0 o.chunkRows ≤ s0 := by
    unfold chunkRows
    simp only
    split_ifs <;> omega
  unfold h5opts
  cases o.compression <;> exact ⟨_, rfl, hc⟩

/-- What is left of the options after they were read. -/
theorem left (s0 s1 : ℤ) (o : Opts C) : (h5opts s0 s1 o).2.compression = none ∧ (h5opts s0 s1 o).2.chunkRows = none ∧
    (o.compression = none → (h5opts s0 s1 o).2 = ⟨none, none, none, none⟩) ∧
    ((o.compression).isSome → (h5opts s0 s1 o).2.gzip = o.gzip ∧ (h5opts s0 s1 o).2.shuffle = o.shuffle) := by
  unfold h5opts
  cases o.compression <;> simp

/-- **C167 is false** when they are read again: a writer that writes a second time has forgotten its options. -/
theorem second_read_fails (s0 s1 : ℤ) (o : Opts C) (h : o.compression = none) :
    (h5opts s0 s1 (h5opts s0 s1 o).2).1 = ⟨.gzip 1, some true, (1, s0, s1)⟩ := by
  rw [(left s0 s1 o).2.2.1 h]
  simp [h5opts, dfltGzip, dfltShuffle, chunkRows, dfltRows]

/-- **C167 is false** for an explicit compression as well: the second time it is replaced by what it had overridden. -/
theorem second_explicit_fails (s0 s1 : ℤ) (c : C) (o : Opts C) (h : o.compression = some c) :
    (h5opts s0 s1 (h5opts s0 s1 o).2).1 = ⟨if o.gzip.getD 1 > 0 then .gzip (o.gzip.getD 1) else .off, some (o.shuffle.getD true), (1, s0, s1)⟩ := by
  simp [h5opts, h, dfltGzip, dfltShuffle, chunkRows, dfltRows]

/-- **C167** from the third time on the defaults are used, whatever the options were. -/
theorem later_reads (s0 s1 : ℤ) (o : Opts C) (n k : ℕ) (hk : 2 ≤ k) (hn : k < n) :
    (writes s0 s1 n o)[k]? = some ⟨.gzip 1, some true, (1, s0, s1)⟩ := by
  have base : ∀ (m j : ℕ), j < m → (writes s0 s1 m (⟨none, none, none, none⟩ : Opts C))[j]? = some ⟨.gzip 1, some true, (1, s0, s1)⟩ := by
    intro m
    induction m with
    | zero => intro j hj; omega
    | succ m ih =>
      intro j hj
      cases j with
      | zero => simp [writes, h5opts, dfltGzip, dfltShuffle, chunkRows, dfltRows]
      | succ j =>
        have := ih j (by omega)
        simpa [writes, h5opts] using this
  obtain ⟨n, rfl⟩ : ∃ m, n = m + 2 := ⟨n - 2, by omega⟩
  obtain ⟨k, rfl⟩ : ∃ m, k = m + 2 := ⟨k - 2, by omega⟩
  have e : (h5opts s0 s1 (h5opts s0 s1 o).2).2 = ⟨none, none, none, none⟩ := (left s0 s1 _).2.2.1 (left s0 s1 o).1
  simp only [writes, List.getElem?_cons_succ, e]
  exact base n k (by omega)

/-- A writer that is asked not to compress compresses the second time. -/
example : writes 10 20 2 (⟨none, some false, some 0, some 5⟩ : Opts ℕ) =
    [⟨.off, some false, (1, 5, 20)⟩, ⟨.gzip 1, some true, (1, 10, 20)⟩] := by decide

end Hexrd.H5Opts
