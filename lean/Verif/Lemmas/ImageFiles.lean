import Verif.Spec.ImageFiles
namespace Hexrd.ImageFiles

theorem locate_eq (empty : Nat) : ∀ (infos : List Nat) (k fnum : Nat),
    locate empty infos k fnum
      = ((infos.zipIdx fnum).flatMap fun p => (List.range p.1).map fun j => (p.2, empty + j))[k]? := by
  intro infos
  induction infos with
  | nil => intro k fnum; simp [locate]
  | cons nf rest ih =>
    intro k fnum
    simp only [locate, List.zipIdx_cons, List.flatMap_cons]
    by_cases hk : k < nf
    · rw [if_pos hk, List.getElem?_append_left (by simpa using hk)]
      simp [hk, Nat.add_comm]
    · rw [if_neg hk, ih, List.getElem?_append_right (by simp; omega)]
      simp

theorem fileInfo_eq (o : Opts) (n nf : Nat) (h : fileInfo o n = some nf) :
    nf = (if o.maxFile = 0 then n - o.empty else min o.maxFile (n - o.empty)) ∧ 0 < nf ∧ o.empty < n := by
  unfold fileInfo at h
  simp only at h
  split at h
  · cases h
  · cases h
    split
    · exact ⟨by omega, by omega, by omega⟩
    · exact ⟨rfl, by omega, by omega⟩

theorem mapM_cons {o : Opts} {n : Nat} {rest infos : List Nat}
    (h : processFiles o (n :: rest) = some infos) :
    ∃ nf infos', infos = nf :: infos' ∧ fileInfo o n = some nf ∧ processFiles o rest = some infos' := by
  unfold processFiles at h ⊢
  rw [List.mapM_cons] at h
  cases h1 : fileInfo o n with
  | none => rw [h1] at h; cases h
  | some nf =>
    rw [h1] at h
    cases h2 : rest.mapM (fileInfo o) with
    | none => simp [h2] at h
    | some infos' => simp [h2] at h; exact ⟨nf, infos', h.symm, rfl, rfl⟩

theorem usable_eq (o : Opts) : ∀ (files infos : List Nat) (k0 : Nat), processFiles o files = some infos →
    ((infos.zipIdx k0).flatMap fun p => (List.range p.1).map fun j => (p.2, o.empty + j))
      = (files.zipIdx k0).flatMap fun p =>
        (List.range (if o.maxFile = 0 then p.1 - o.empty else min o.maxFile (p.1 - o.empty))).map
          fun k => (p.2, o.empty + k) := by
  intro files
  induction files with
  | nil => intro infos k0 h; simp [processFiles] at h; subst h; rfl
  | cons n rest ih =>
    intro infos k0 h
    obtain ⟨nf, infos', rfl, h1, h2⟩ := mapM_cons h
    simp only [List.zipIdx_cons, List.flatMap_cons]
    rw [ih infos' (k0+1) h2, ← (fileInfo_eq o n nf h1).1]

theorem usable_length (empty : Nat) : ∀ (infos : List Nat) (k0 : Nat),
    ((infos.zipIdx k0).flatMap fun p => (List.range p.1).map fun j => (p.2, empty + j)).length = infos.sum := by
  intro infos
  induction infos with
  | nil => intro _; rfl
  | cons n rest ih => intro k0; simp [List.zipIdx_cons, ih]

theorem served_length (o : Opts) (files infos : List Nat) (h : processFiles o files = some infos) :
    (served o files).length = length o infos := by
  have hl : (usable o files).length = infos.sum := by
    unfold usable; rw [← usable_eq o files infos 0 h, usable_length]
  unfold served length
  split
  · rw [List.length_take, hl, Nat.min_comm]
  · exact hl

theorem zipIdx_flat_mem {infos : List Nat} {empty k0 : Nat} {p : Nat × Nat}
    (h : p ∈ (infos.zipIdx k0).flatMap fun q => (List.range q.1).map fun j => (q.2, empty + j)) : k0 ≤ p.1 := by
  simp only [List.mem_flatMap, List.mem_map, List.mem_range] at h
  obtain ⟨q, hq, j, _, rfl⟩ := h
  exact List.le_snd_of_mem_zipIdx hq

theorem flat_nodup (empty : Nat) : ∀ (infos : List Nat) (k0 : Nat),
    ((infos.zipIdx k0).flatMap fun p => (List.range p.1).map fun j => (p.2, empty + j)).Nodup := by
  intro infos
  induction infos with
  | nil => intro _; exact List.nodup_nil
  | cons n rest ih =>
    intro k0
    simp only [List.zipIdx_cons, List.flatMap_cons]
    rw [List.nodup_append]
    refine ⟨?_, ih (k0+1), ?_⟩
    · unfold List.Nodup
      rw [List.pairwise_map]
      exact List.nodup_range.imp (fun hxy h => hxy (by simpa using h))
    · intro a ha b hb hab
      have := zipIdx_flat_mem hb
      simp only [List.mem_map] at ha
      obtain ⟨j, _, rfl⟩ := ha
      subst hab
      simp at this; omega

end Hexrd.ImageFiles
