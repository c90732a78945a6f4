import Verif.Lemmas.NearField
import Verif.Spec.NearField
import Mathlib.Data.List.Perm.Basic
import Mathlib.Tactic.NormNum

/-! The near-field confidence matrix does not depend on how the work is divided. -/

namespace Hexrd.NearField

variable {γ κ : Type}

theorem part_matrix (conf : γ → κ → ℝ) (grains : List γ) (coords : List κ) (offset size : ℕ) :
    part conf grains coords offset size = Spec.matrix conf grains ((coords.drop offset).take size) := rfl

/-- One run: with `cap` the place up to which a chunk may reach. -/
theorem run_eq (conf : γ → κ → ℝ) (grains : List γ) (coords : List κ) (lim : Option (ℕ → Option ℕ))
    (chunk ncpus world rank : ℕ) (junk : List (List ℝ)) (order chunks : List ℕ) (hg : grains ≠ [])
    (hn : 0 < limit lim coords.length) (hl : limit lim coords.length ≤ coords.length) (hc : 0 < chunk) (hr : rank < world)
    (hch : chunkStarts (offsetSize world rank (limit lim coords.length)).1
      (offsetSize world rank (limit lim coords.length)).2 chunk = some chunks)
    (hp : order.Perm chunks) (hj : junk.length = (offsetSize world rank (limit lim coords.length)).2) :
    testOrientations conf grains coords lim chunk ncpus world rank junk order =
      let n := limit lim coords.length
      let os := offsetSize world rank n
      let all := offsetSize world rank coords.length
      let cap := if 1 < min ncpus chunks.length then all.1 + all.2 else n
      if chunk ∣ os.2 ∨ cap = os.1 + os.2 then some (Spec.matrix conf grains ((coords.drop os.1).take os.2)) else none := by
  simp only [testOrientations, if_neg hg, hch, Option.bind_eq_bind, Option.bind_some, if_neg (Nat.pos_iff_ne_zero.1 hn)]
  rw [← part_matrix]
  have h1 := offset_le world rank (limit lim coords.length) hr
  have h2 := offset_mono world rank _ _ hr hl
  have h3 := offset_le world rank coords.length hr
  by_cases hb : 1 < min ncpus chunks.length
  · simp only [if_pos hb, poolTask]
    rw [fold_run conf grains coords _ _ chunk _ hc h2 h3 order chunks hch hp junk hj]
    split <;> rfl
  · simp only [if_neg hb]
    rw [fold_run conf grains coords _ _ chunk _ hc h1 hl chunks chunks hch (List.Perm.refl _) junk hj]
    split <;> rfl

/-- Without MPI and without a limit: whatever the chunk size, the number of processes, the order in which the chunks are finished and
the old contents of the memory, the result holds the confidence of every grain at every coordinate. -/
theorem any_schedule (conf : γ → κ → ℝ) (grains : List γ) (coords : List κ) (chunk ncpus : ℕ) (junk : List (List ℝ))
    (order chunks : List ℕ) (hg : grains ≠ []) (hn : coords ≠ []) (hc : 0 < chunk)
    (hch : chunkStarts 0 coords.length chunk = some chunks) (hp : order.Perm chunks) (hj : junk.length = coords.length) :
    testOrientations conf grains coords none chunk ncpus 1 0 junk order = some (Spec.matrix conf grains coords) := by
  rw [run_eq conf grains coords none chunk ncpus 1 0 junk order chunks hg (List.length_pos_iff.2 hn) (le_refl _) hc (by omega) hch
    hp hj]
  simp [limit, offsetSize]

/-- The same if the limit function raises: it counts as no limit. -/
theorem raising_limit (conf : γ → κ → ℝ) (grains : List γ) (coords : List κ) (chunk ncpus : ℕ) (junk : List (List ℝ))
    (order chunks : List ℕ) (f : ℕ → Option ℕ) (hf : f coords.length = none) (hg : grains ≠ []) (hn : coords ≠ []) (hc : 0 < chunk)
    (hch : chunkStarts 0 coords.length chunk = some chunks) (hp : order.Perm chunks) (hj : junk.length = coords.length) :
    testOrientations conf grains coords (some f) chunk ncpus 1 0 junk order = some (Spec.matrix conf grains coords) := by
  have e : limit (some f) coords.length = coords.length := by simp [limit, hf]
  rw [← any_schedule conf grains coords chunk ncpus junk order chunks hg hn hc hch hp hj]
  unfold testOrientations
  rw [e]
  rfl

/-- With a limit on the coordinates a single process gives the matrix of the first of them; several processes raise if the limit cuts
a chunk. -/
theorem limited (conf : γ → κ → ℝ) (grains : List γ) (coords : List κ) (l chunk ncpus : ℕ) (junk : List (List ℝ))
    (order chunks : List ℕ) (hg : grains ≠ []) (h0 : 0 < l) (hl : l ≤ coords.length) (hc : 0 < chunk)
    (hch : chunkStarts 0 l chunk = some chunks) (hp : order.Perm chunks) (hj : junk.length = l) :
    testOrientations conf grains coords (builtLimit (some l)) chunk ncpus 1 0 junk order =
      if 1 < min ncpus chunks.length ∧ ¬ chunk ∣ l ∧ l ≠ coords.length then none
      else some (Spec.matrix conf grains (coords.take l)) := by
  have e : limit (builtLimit (some l)) coords.length = l := by simp [limit, builtLimit, hl]
  rw [run_eq conf grains coords (builtLimit (some l)) chunk ncpus 1 0 junk order chunks hg (by rw [e]; exact h0) (by rw [e]; exact hl)
    hc (by omega) (by rw [e]; exact hch) hp (by rw [e]; exact hj)]
  simp only [e, offsetSize, lt_irrefl, if_false, List.drop_zero, Nat.zero_add]
  by_cases hb : 1 < min ncpus chunks.length
  · simp only [hb, if_true, true_and]
    by_cases hd : chunk ∣ l
    · simp [hd]
    · by_cases hE : l = coords.length
      · simp [hE]
      · have : ¬ coords.length = l := fun h => hE h.symm
        simp [hd, hE, this]
  · simp [hb]

/-- Several processes with a limit: five of six coordinates in chunks of two. -/
theorem limited_fails :
    ∃ (junk : List (List ℝ)) (order : List ℕ), junk.length = 5 ∧ chunkStarts 0 5 2 = some order ∧
      testOrientations (fun (_ : Unit) (c : ℕ) => (c : ℝ)) [()] [0, 1, 2, 3, 4, 5] (builtLimit (some 5)) 2 2 1 0 junk order = none := by
  refine ⟨List.replicate 5 [], [0, 2, 4], rfl, rfl, ?_⟩
  rw [limited _ _ _ 5 2 2 _ [0, 2, 4] [0, 2, 4] (by simp) (by omega) (by simp) (by omega) rfl (List.Perm.refl _) rfl]
  rw [if_pos (by simp)]

theorem share_eq (world rank : ℕ) (coords : List κ) (hw : 1 < world) :
    (coords.drop (offsetSize world rank coords.length).1).take (offsetSize world rank coords.length).2 =
      Spec.share world rank coords := by
  simp only [offsetSize, if_pos hw, Spec.share]
  split
  · rw [List.take_of_length_le (by rw [List.length_drop])]
  · rfl

/-- One of several ranks: several processes always give the rank's share. A single process (or a single chunk) gives it on the last
rank, and on the others only if the chunks divide the share: the last chunk is not cut at the end of the share, and raises. -/
theorem rank_run (conf : γ → κ → ℝ) (grains : List γ) (coords : List κ) (chunk ncpus world rank : ℕ) (junk : List (List ℝ))
    (order chunks : List ℕ) (hg : grains ≠ []) (hn : coords ≠ []) (hc : 0 < chunk) (hw : 1 < world) (hr : rank < world)
    (hch : chunkStarts (offsetSize world rank coords.length).1 (offsetSize world rank coords.length).2 chunk = some chunks)
    (hp : order.Perm chunks) (hj : junk.length = (offsetSize world rank coords.length).2) :
    testOrientations conf grains coords none chunk ncpus world rank junk order =
      if ¬ 1 < min ncpus chunks.length ∧ rank + 1 ≠ world ∧ ¬ chunk ∣ coords.length / world then none
      else some (Spec.matrix conf grains (Spec.share world rank coords)) := by
  have hpos : 0 < coords.length := List.length_pos_iff.2 hn
  rw [run_eq conf grains coords none chunk ncpus world rank junk order chunks hg hpos (le_refl _) hc hr hch hp hj]
  simp only [limit]
  rw [share_eq world rank coords hw]
  by_cases hb : 1 < min ncpus chunks.length
  · simp [hb]
  · simp only [hb, if_false, not_false_eq_true, true_and]
    have key : coords.length = (offsetSize world rank coords.length).1 + (offsetSize world rank coords.length).2 ↔
        rank + 1 = world := by
      simp only [offsetSize, if_pos hw]
      have h1 := Nat.div_mul_le_self coords.length world
      have h2 : (rank + 1) * (coords.length / world) ≤ world * (coords.length / world) := Nat.mul_le_mul_right _ hr
      rw [Nat.mul_comm world, Nat.succ_mul] at h2
      constructor
      · intro h
        by_contra hne
        rw [if_neg hne] at h
        have h3 : (rank + 2) * (coords.length / world) ≤ world * (coords.length / world) := Nat.mul_le_mul_right _ (by omega)
        rw [Nat.mul_comm world, Nat.succ_mul, Nat.succ_mul] at h3
        have hz : coords.length / world = 0 := by
          generalize rank * (coords.length / world) = p at *
          generalize coords.length / world * world = q at *
          generalize coords.length / world = v at *
          omega
        rw [hz] at h
        simp at h
        exact hn h
      · intro h
        rw [if_pos h]
        generalize rank * (coords.length / world) = p at *
        generalize coords.length / world * world = q at *
        generalize coords.length / world = v at *
        omega
    by_cases hl : rank + 1 = world
    · rw [if_pos (Or.inr (key.2 hl)), if_neg (by tauto)]
    · have hnk : ¬ coords.length = (offsetSize world rank coords.length).1 + (offsetSize world rank coords.length).2 := fun h => hl (key.1 h)
      have hsz : (offsetSize world rank coords.length).2 = coords.length / world := by
        simp only [offsetSize, if_pos hw, if_neg hl]
      rw [hsz] at hnk ⊢
      by_cases hd : chunk ∣ coords.length / world
      · rw [if_pos (Or.inl hd), if_neg (by tauto)]
      · rw [if_neg (by rw [not_or]; exact ⟨hd, hnk⟩), if_pos ⟨hl, hd⟩]

/-- Two ranks, one process each: the first raises when its share is not a whole number of chunks. -/
theorem rank_single_fails :
    testOrientations (fun (_ : Unit) (c : ℕ) => (c : ℝ)) [()] [0, 1, 2, 3, 4, 5] none 2 1 2 0 (List.replicate 3 []) [0, 2] = none := by
  rw [rank_run _ _ _ 2 1 2 0 _ [0, 2] [0, 2] (by simp) (by simp) (by omega) (by omega) (by omega) rfl (List.Perm.refl _) rfl]
  rw [if_pos (by simp)]

theorem reshape_flatten (w : ℕ) (l : List (List ℝ)) (h : ∀ c ∈ l, c.length = w) : reshape w l.length l.flatten = l := by
  induction l with
  | nil => rfl
  | cons c l ih =>
    have hc := h c (List.mem_cons_self ..)
    simp only [List.length_cons, reshape, List.flatten_cons]
    rw [List.take_left' hc, List.drop_left' hc, ih fun x hx => h x (List.mem_cons_of_mem _ hx)]

theorem flatten_length (w : ℕ) (l : List (List ℝ)) (h : ∀ c ∈ l, c.length = w) : l.flatten.length = l.length * w := by
  induction l with
  | nil => simp
  | cons c l ih =>
    rw [List.flatten_cons, List.length_append, ih fun x hx => h x (List.mem_cons_of_mem _ hx), h c (List.mem_cons_self ..),
      List.length_cons, Nat.succ_mul, Nat.add_comm]

theorem shares_tile (w per : ℕ) (coords : List κ) (h : w * per ≤ coords.length) :
    ((List.range w).map fun r => (coords.drop (r * per)).take per).flatten = coords.take (w * per) := by
  induction w with
  | zero => simp
  | succ w ih =>
    rw [Nat.succ_mul] at h
    rw [List.range_succ, List.map_append, List.flatten_append, ih (by omega), List.map_singleton, List.flatten_singleton,
      Nat.succ_mul, List.take_add]

/-- The shares of the ranks, one after another, are the coordinates. -/
theorem shares_all (world : ℕ) (coords : List κ) (hw : 0 < world) :
    ((List.range world).map fun r => Spec.share world r coords).flatten = coords := by
  obtain ⟨w, rfl⟩ : ∃ w, world = w + 1 := ⟨world - 1, by omega⟩
  have hle : w * (coords.length / (w + 1)) ≤ coords.length := by
    have h1 := Nat.div_mul_le_self coords.length (w + 1)
    rw [Nat.mul_comm, Nat.succ_mul] at h1
    exact le_trans (Nat.le_add_right _ _) h1
  rw [List.range_succ, List.map_append, List.flatten_append, List.map_singleton, List.flatten_singleton]
  have e : ((List.range w).map fun r => Spec.share (w + 1) r coords) =
      (List.range w).map fun r => (coords.drop (r * (coords.length / (w + 1)))).take (coords.length / (w + 1)) := by
    apply List.map_congr_left
    intro r hr
    have := List.mem_range.1 hr
    simp only [Spec.share]
    rw [if_neg (by omega)]
  rw [e, shares_tile _ _ _ hle]
  simp only [Spec.share, if_true]
  exact List.take_append_drop _ _

theorem column_length (conf : γ → κ → ℝ) (grains : List γ) (coords : List κ) :
    ∀ c ∈ Spec.matrix conf grains coords, c.length = grains.length := by
  intro c hc
  simp only [Spec.matrix, List.mem_map] at hc
  obtain ⟨k, _, rfl⟩ := hc
  simp

/-- What rank 0 reports, when every rank has its share, is the matrix of all coordinates. -/
theorem gathered (conf : γ → κ → ℝ) (grains : List γ) (coords : List κ) (world : ℕ) (hw : 1 < world) :
    gather coords.length grains.length ((List.range world).map fun r => Spec.matrix conf grains (Spec.share world r coords)) =
      some (Spec.matrix conf grains coords) := by
  obtain ⟨w, rfl⟩ : ∃ w, world = w + 1 := ⟨world - 1, by omega⟩
  have hflat : (((List.range (w + 1)).map fun r => Spec.matrix conf grains (Spec.share (w + 1) r coords)).map List.flatten).flatten =
      (Spec.matrix conf grains coords).flatten := by
    rw [← List.flatten_flatten]
    congr 1
    conv_rhs => rw [← shares_all (w + 1) coords (by omega)]
    simp only [Spec.matrix, List.map_flatten, List.map_map]
    rfl
  have hle : w * (coords.length / (w + 1)) + coords.length / (w + 1) ≤ coords.length := by
    have h1 := Nat.div_mul_le_self coords.length (w + 1)
    rw [Nat.mul_comm, Nat.succ_mul] at h1
    exact h1
  have hlen : ∀ r, (List.flatten (Spec.matrix conf grains (Spec.share (w + 1) r coords))).length =
      (Spec.share (w + 1) r coords).length * grains.length := by
    intro r
    rw [flatten_length grains.length _ (column_length conf grains _)]
    simp [Spec.matrix]
  have hcnt : (((List.range (w + 1)).map fun r => Spec.matrix conf grains (Spec.share (w + 1) r coords)).map List.flatten).map
      List.length = sendCounts (w + 1) coords.length grains.length := by
    rw [List.map_map, List.map_map, List.range_succ, List.map_append]
    simp only [sendCounts, Nat.add_sub_cancel, List.map_singleton, Function.comp]
    congr 1
    · rw [List.eq_replicate_iff]
      refine ⟨by simp, ?_⟩
      intro x hx
      rw [List.mem_map] at hx
      obtain ⟨r, hr, rfl⟩ := hx
      have hr' := List.mem_range.1 hr
      simp only [Function.comp]
      rw [hlen]
      congr 1
      simp only [Spec.share]
      rw [if_neg (by omega), List.length_take, List.length_drop]
      have : r * (coords.length / (w + 1)) ≤ w * (coords.length / (w + 1)) := Nat.mul_le_mul_right _ hr'.le
      generalize r * (coords.length / (w + 1)) = p at *
      generalize w * (coords.length / (w + 1)) = q at *
      generalize coords.length / (w + 1) = v at *
      omega
    · rw [hlen]
      congr 2
      simp only [Spec.share, if_true, List.length_drop]
      rw [Nat.mul_comm]
  unfold gather
  simp only [List.length_map, List.length_range]
  rw [hflat]
  have hl2 := flatten_length grains.length _ (column_length conf grains coords)
  have hl3 : (Spec.matrix conf grains coords).length = coords.length := by simp [Spec.matrix]
  rw [if_pos ⟨hcnt, by rw [hl2, hl3]⟩]
  have := reshape_flatten grains.length _ (column_length conf grains coords)
  rw [hl3] at this
  rw [this]

/-- What a rank returns is its share only, also on rank 0: the gathered matrix goes to the result handler and is not returned. -/
theorem root_return_fails :
    ∃ junk : List (List ℝ), junk.length = 1 ∧
      testOrientations (fun (_ : Unit) (c : ℕ) => (c : ℝ)) [()] [7, 8] none 1 1 2 0 junk [0] = some [[7]] := by
  refine ⟨[[]], rfl, ?_⟩
  rw [rank_run _ _ _ 1 1 2 0 _ [0] [0] (by simp) (by simp) (by omega) (by omega) (by omega) rfl (List.Perm.refl _) rfl]
  rw [if_neg (by simp)]
  simp [Spec.matrix, Spec.share]

/-- Two processes, chunks of two, finished in the reverse order. -/
example : testOrientations (fun (g : ℕ) (c : ℕ) => (g + c : ℝ)) [10, 20] [1, 2, 3] none 2 4 1 0 [[0], [1], [2]] [2, 0] =
    some [[11, 21], [12, 22], [13, 23]] := by
  rw [any_schedule (fun (g : ℕ) (c : ℕ) => (g + c : ℝ)) [10, 20] [1, 2, 3] 2 4 [[0], [1], [2]] [2, 0] [0, 2] (by simp) (by simp)
    (by omega) rfl (List.Perm.swap _ _ _) rfl]
  norm_num [Spec.matrix]

end Hexrd.NearField
