import Verif.Lemmas.ImageFiles

/-!
# Properties of image-file series and raw images (C08, C09)
-/
namespace Hexrd.ImageFiles

/-- C08: when some file contributes more than one frame, index `k` is served by
the `k`-th usable (file, frame) pair, negative indices count from the end, and an
index outside the length is refused. -/
theorem getitem_served (o : Opts) (files infos : List Nat) (h : processFiles o files = some infos)
    (hs : singleframes infos = false) (key : Int) :
    (0 ≤ key → getitem o infos key = (served o files)[key.toNat]?) ∧
    (key < 0 → getitem o infos key =
      if -((served o files).length : Int) ≤ key then (served o files)[((served o files).length + key).toNat]? else none) := by
  have hlen := served_length o files infos h
  have hloc : ∀ k, k < length o infos → locate o.empty infos k 0 = (served o files)[k]? := by
    intro k hk
    rw [locate_eq, usable_eq o files infos 0 h]
    unfold served
    by_cases hm : o.maxTot > 0
    · rw [if_pos hm, List.getElem?_take_of_lt (by unfold length at hk; rw [if_pos hm] at hk; omega)]; rfl
    · rw [if_neg hm]; rfl
  constructor
  · intro hk
    unfold getitem
    simp only [hs, Bool.false_eq_true, if_false]
    by_cases hr : key < (length o infos : Int)
    · rw [if_neg (by omega), if_pos hk, hloc _ (by omega)]
    · rw [if_pos (by omega), List.getElem?_eq_none (by rw [hlen]; omega)]
  · intro hk
    unfold getitem
    simp only [hs, Bool.false_eq_true, if_false]
    rw [hlen]
    by_cases hr : -(length o infos : Int) ≤ key
    · rw [if_neg (by omega), if_neg (by omega), if_pos hr, hloc _ (by omega)]
    · rw [if_pos (by omega), if_neg hr]

/-- C08: the served pairs are pairwise distinct, so distinct indices never give the
same frame. -/
theorem served_nodup (o : Opts) (files infos : List Nat) (h : processFiles o files = some infos) :
    (served o files).Nodup := by
  have hu : (usable o files).Nodup := by
    unfold usable; rw [← usable_eq o files infos 0 h]; exact flat_nodup _ _ _
  unfold served
  split
  · exact hu.sublist (List.take_sublist _ _)
  · exact hu

/-- C08: every served pair is an existing image of an existing file, after the
skipped ones. -/
theorem served_in_range (o : Opts) (files : List Nat) (p : Nat × Nat) (hp : p ∈ served o files) :
    ∃ n, files[p.1]? = some n ∧ o.empty ≤ p.2 ∧ p.2 < n := by
  have hu : p ∈ usable o files := by
    unfold served at hp; split at hp
    · exact List.mem_of_mem_take hp
    · exact hp
  unfold usable at hu
  simp only [List.mem_flatMap, List.mem_map, List.mem_range] at hu
  obtain ⟨q, hq, k, hk, rfl⟩ := hu
  have := List.mem_zipIdx_iff_getElem?.1 hq
  refine ⟨q.1, this, by simp, ?_⟩
  simp only
  split at hk <;> omega

/-- C08: the series is refused exactly when some file has no image left after the
skipped ones. -/
theorem refused_iff (o : Opts) : ∀ files : List Nat, processFiles o files = none ↔ ∃ n ∈ files, n ≤ o.empty := by
  intro files
  induction files with
  | nil => simp [processFiles]
  | cons n rest ih =>
    unfold processFiles at ih ⊢
    rw [List.mapM_cons]
    by_cases hn : o.empty ≥ n
    · have : fileInfo o n = none := by simp [fileInfo, hn]
      rw [this]
      exact ⟨fun _ => ⟨n, List.mem_cons_self, hn⟩, fun _ => rfl⟩
    · have : ∃ x, fileInfo o n = some x := by simp [fileInfo, hn]
      obtain ⟨x, hx⟩ := this
      rw [hx]
      cases h2 : rest.mapM (fileInfo o) with
      | none =>
        obtain ⟨m, hm, hle⟩ := ih.1 h2
        simp; exact Or.inr ⟨m, hm, hle⟩
      | some l =>
        simp
        refine ⟨by omega, fun m hm => ?_⟩
        have : ¬ ∃ n ∈ rest, n ≤ o.empty := fun h => by rw [ih.2 h] at h2; cases h2
        exact Nat.lt_of_not_le fun h => this ⟨m, hm, h⟩

/-- C08, the single-frame path (partial: only when nothing is skipped and the total
is not limited below the number of files): the property holds there too. -/
theorem getitem_single_partial (o : Opts) (files infos : List Nat) (h : processFiles o files = some infos)
    (hs : singleframes infos = true) (he : o.empty = 0) (hm : o.maxTot = 0 ∨ files.length ≤ o.maxTot)
    (key : Int) (hk : 0 ≤ key) : getitem o infos key = (served o files)[key.toNat]? := by
  have hone : ∀ (files infos : List Nat), processFiles o files = some infos → singleframes infos = true →
      ∀ nf ∈ infos, nf = 1 := by
    intro files
    induction files with
    | nil => intro infos h _ nf hnf; simp [processFiles] at h; subst h; cases hnf
    | cons n rest ih =>
      intro infos h hs nf hnf
      obtain ⟨nf', infos', rfl, h1, h2⟩ := mapM_cons h
      simp only [singleframes, List.all_cons, Bool.and_eq_true] at hs
      rcases List.mem_cons.1 hnf with rfl | hnf
      · have := (fileInfo_eq o n nf h1).2.1; simp at hs; omega
      · exact ih infos' h2 hs.2 nf hnf
  have h1 := hone files infos h hs
  have hrep : infos = List.replicate infos.length 1 := List.eq_replicate_iff.2 ⟨rfl, h1⟩
  have flat : ∀ (n k0 : Nat), (((List.replicate n 1).zipIdx k0).flatMap fun p => (List.range p.1).map fun j => (p.2, 0 + j))
      = (List.range' k0 n).map fun i => (i, 0) := by
    intro n
    induction n with
    | zero => intro _; rfl
    | succ n ih => intro k0; simp only [List.replicate_succ, List.zipIdx_cons, List.flatMap_cons, ih, List.range'_succ]; rfl
  have hflen : infos.length = files.length := by
    clear hs h1 hrep hm hk hone
    induction files generalizing infos with
    | nil => simp [processFiles] at h; subst h; rfl
    | cons n rest ih => obtain ⟨nf', infos', rfl, _, h2⟩ := mapM_cons h; simp [ih infos' h2]
  have hu : usable o files = (List.range' 0 infos.length).map fun i => (i, 0) := by
    unfold usable
    rw [← usable_eq o files infos 0 h, he]
    generalize hN : infos.length = N at hrep ⊢
    rw [hrep]; exact flat N 0
  have hsv : served o files = (List.range' 0 infos.length).map fun i => (i, 0) := by
    unfold served
    split
    · rw [hu, List.take_of_length_le]; simp; omega
    · exact hu
  rw [hsv]
  unfold getitem
  rw [if_pos hs]
  by_cases hlt : key < infos.length
  · rw [if_pos ⟨hk, hlt⟩]
    rw [List.getElem?_map, List.getElem?_range' (by omega)]; simp
  · rw [if_neg (by omega), if_neg (by omega), List.getElem?_eq_none]
    simp; omega

/-- C08, disagreement: two-image files with one skipped image contribute one frame
each; the series reads image 0 of each file — the one to be skipped — instead of
image 1. -/
theorem single_reads_skipped :
    processFiles ⟨1, 0, 0⟩ [2, 2] = some [1, 1] ∧
    getitem ⟨1, 0, 0⟩ [1, 1] 0 = some (0, 0) ∧ served ⟨1, 0, 0⟩ [2, 2] = [(0, 1), (1, 1)] := by decide

/-- C08, disagreement: with single-image files the limit on the total number of
frames is not enforced by indexing: the series has length 1 and yet serves index 1,
and index -1 is not the last frame of the series. -/
theorem single_ignores_total :
    length ⟨0, 1, 0⟩ [1, 1] = 1 ∧ getitem ⟨0, 1, 0⟩ [1, 1] 1 = some (1, 0) ∧
    getitem ⟨0, 1, 0⟩ [1, 1] (-1) = some (1, 0) := by decide

-- a multi-file case meeting the hypotheses: 3 files, one image skipped, at most 2 per file
example : processFiles ⟨1, 4, 2⟩ [4, 2, 5] = some [2, 1, 2] ∧ singleframes [2, 1, 2] = false ∧
    served ⟨1, 4, 2⟩ [4, 2, 5] = [(0, 1), (0, 2), (1, 1), (2, 1)] ∧
    getitem ⟨1, 4, 2⟩ [2, 1, 2] (-1) = some (2, 1) := by decide

end Hexrd.ImageFiles

namespace Hexrd.RawImage

/-- Specification: the bytes of frame `i`. -/
def frameRange (r : Raw) (i : Nat) (b : Nat) : Prop :=
  r.skip + i * r.frameBytes ≤ b ∧ b < r.skip + (i + 1) * r.frameBytes

/-- C09: for an accepted file, a byte belongs to the header or to exactly one frame
below the length, and every byte of such a frame is in the file. -/
theorem frames_tile (r : Raw) (nbytes n : Nat) (h : getLength r nbytes = some n) (b : Nat) :
    b < nbytes ↔ b < r.skip ∨ ∃ i, i < n ∧ frameRange r i b ∧ ∀ j, frameRange r j b → j = i := by
  unfold getLength at h
  split at h
  · rename_i hm
    cases h
    rcases Nat.eq_zero_or_pos r.frameBytes with hf | hf
    · -- frameBytes = 0: the code divides by zero; in the model nbytes = skip
      rw [hf] at hm ⊢
      simp at hm
      simp [hm]
    · have hle : r.skip ≤ nbytes := by rw [← hm]; exact Nat.mod_le _ _
      have hd : nbytes - r.skip = (nbytes - r.skip) / r.frameBytes * r.frameBytes := by
        have h1 := Nat.div_add_mod nbytes r.frameBytes
        rw [hm] at h1
        have h2 : nbytes - r.skip = r.frameBytes * (nbytes / r.frameBytes) := by omega
        rw [h2, Nat.mul_div_cancel_left _ hf, Nat.mul_comm]
      generalize (nbytes - r.skip) / r.frameBytes = n at hd ⊢
      constructor
      · intro hb
        by_cases hbs : b < r.skip
        · exact Or.inl hbs
        · right
          refine ⟨(b - r.skip) / r.frameBytes, ?_, ?_, ?_⟩
          · rw [Nat.div_lt_iff_lt_mul hf]; omega
          · have := Nat.div_mul_le_self (b - r.skip) r.frameBytes
            constructor
            · omega
            · have h3 := Nat.lt_div_mul_add (a := b - r.skip) hf
              rw [Nat.add_mul, Nat.one_mul]; omega
          · intro j hj
            unfold frameRange at hj
            rw [Nat.add_mul, Nat.one_mul] at hj
            symm
            rw [Nat.div_eq_iff hf]
            constructor <;> omega
      · rintro (hbs | ⟨i, hi, hfr, _⟩)
        · omega
        · unfold frameRange at hfr
          have : (i + 1) * r.frameBytes ≤ n * r.frameBytes := Nat.mul_le_mul_right _ hi
          omega
  · cases h

/-- C09: reading index `i` seeks to the first byte of frame `i`, for every index. -/
theorem offset_first_byte (r : Raw) (i : Nat) : offset r i = some (r.skip + i * r.frameBytes) := by
  unfold offset
  have : ((i : Int) * r.frameBytes + r.skip) = ((r.skip + i * r.frameBytes : Nat) : Int) := by
    push_cast; omega
  simp only [this]
  rw [if_neg (by omega)]; rw [Int.toNat_natCast]

/-- C09 (partial: only for headers shorter than a frame): a header of `skip` bytes
followed by `n` whole frames is accepted, with length `n`. -/
theorem whole_frames_accepted_partial (r : Raw) (hs : r.skip < r.frameBytes) (n : Nat) :
    getLength r (r.skip + n * r.frameBytes) = some n := by
  unfold getLength
  have hf : 0 < r.frameBytes := by omega
  rw [Nat.add_mul_mod_self_right, Nat.mod_eq_of_lt hs, if_pos rfl]
  simp [Nat.mul_div_cancel _ hf]

/-- C09, disagreement: every file whose header is at least as long as one frame is
refused, also when a whole number of frames follows. -/
theorem long_header_refused (r : Raw) (hf : 0 < r.frameBytes) (hs : r.frameBytes ≤ r.skip) (nbytes : Nat) :
    getLength r nbytes = none := by
  unfold getLength
  have := Nat.mod_lt nbytes hf
  rw [if_neg (by omega)]

/-- C09, disagreement: index `-1` of an accepted file does not read the last frame:
it is refused or reads header bytes. -/
theorem negative_index (r : Raw) (nbytes n : Nat) (hf : 0 < r.frameBytes)
    (h : getLength r nbytes = some n) : offset r (-1) = none := by
  unfold getLength at h
  split at h
  · rename_i hm
    have := Nat.mod_lt nbytes hf
    unfold offset
    simp only
    rw [if_pos (by omega)]
  · cases h

/-- Specification: numpy's format characters for an integer pixel (byte order,
then kind). -/
def intFormat (bytes : Nat) (signed little : Bool) : Char × Char :=
  (if little then '<' else '>',
   match bytes, signed with
   | 1, true => 'b' | 1, false => 'B' | 2, true => 'h' | 2, false => 'H'
   | 4, true => 'i' | 4, false => 'I' | _, true => 'l' | _, false => 'L')

/-- C09: the pixel format has the requested width, signedness and byte order, for
the four supported widths; other widths are refused. -/
theorem typechars_int (bytes : Nat) (signed little : Bool) :
    typechars 'i' bytes signed little =
      if bytes = 1 ∨ bytes = 2 ∨ bytes = 4 ∨ bytes = 8 then some (intFormat bytes signed little) else none := by
  by_cases hb : bytes = 1 ∨ bytes = 2 ∨ bytes = 4 ∨ bytes = 8
  · rw [if_pos hb]
    rcases hb with rfl | rfl | rfl | rfl <;> cases signed <;> cases little <;> decide
  · rw [if_neg hb]
    unfold typechars
    simp only [if_true]
    split <;> simp_all

example : getLength ⟨8, 3⟩ 27 = some 3 ∧ offset ⟨8, 3⟩ 2 = some 19 := by decide

end Hexrd.RawImage
