import Verif.Model.NearField
import Mathlib.Data.List.Basic
import Mathlib.Tactic.Linarith
import Mathlib.Tactic.Ring
import Mathlib.Tactic.Push

namespace Hexrd.NearField

variable {β γ κ : Type}

/-- Writing the columns of a slice that lies in the array. -/
theorem setSlice_get (buf vals : List β) (a b : ℕ) (hab : a ≤ b) (hb : b ≤ buf.length) (hv : vals.length = b - a) :
    ∃ out, setSlice buf a b vals = some out ∧ out.length = buf.length ∧
      ∀ k, out[k]? = if a ≤ k ∧ k < b then vals[k - a]? else buf[k]? := by
  have h1 : min b buf.length = b := by omega
  have h2 : min a b = a := by omega
  refine ⟨buf.take a ++ vals ++ buf.drop b, ?_, ?_, ?_⟩
  · simp only [setSlice, h1, h2, if_pos hv]
  · simp only [List.length_append, List.length_take, List.length_drop, hv]; omega
  · intro k
    have hl : (buf.take a).length = a := by rw [List.length_take]; omega
    rw [List.append_assoc]
    by_cases c1 : k < a
    · rw [List.getElem?_append_left (by omega), List.getElem?_take_of_lt c1, if_neg (by omega)]
    · rw [List.getElem?_append_right (by omega), hl]
      by_cases c2 : k < b
      · rw [List.getElem?_append_left (by omega), if_pos (by omega)]
      · rw [List.getElem?_append_right (by omega), hv, List.getElem?_drop, if_neg (by omega)]
        congr 1; omega

theorem setSlice_length (buf vals out : List β) (a b : ℕ) (h : setSlice buf a b vals = some out) :
    out.length = buf.length := by
  unfold setSlice at h
  simp only at h
  split at h
  · next hv =>
    cases h
    simp only [List.length_append, List.length_take, List.length_drop, hv]; omega
  · split at h
    · cases h
      simp only [List.length_append, List.length_take, List.length_drop, List.length_replicate]; omega
    · cases h

/-- Too many columns for what is left of the array. -/
theorem setSlice_over (buf vals : List β) (a b : ℕ) (ha : a < buf.length) (hb : buf.length < b)
    (hv : vals.length = b - a) : setSlice buf a b vals = none := by
  have h1 : min b buf.length = buf.length := by omega
  have h2 : min a buf.length = a := by omega
  simp only [setSlice, h1, h2]
  rw [if_neg (by omega)]
  match vals with
  | [] => rfl
  | [v] => simp at hv; omega
  | _ :: _ :: _ => rfl

/-- Running the chunks in any order, each as often as one likes, leaves the right columns wherever a chunk was run. -/
theorem fold_ok (offset size chunk m : ℕ) (hc : 0 < chunk) (target : List (List ℝ)) (ht : target.length = size)
    (task : ℕ → Option ((ℕ × ℕ) × List (List ℝ))) (hm : ∀ i < m, i * chunk ≤ size)
    (h : ∀ i < m, task (offset + i * chunk) =
      some ((offset + i * chunk, offset + min size (i * chunk + chunk)), (target.drop (i * chunk)).take chunk)) :
    ∀ (is : List ℕ) (buf : List (List ℝ)), (∀ i ∈ is, i < m) → buf.length = size →
      ∃ out, (is.map fun i => offset + i * chunk).foldlM (fun buf c => (task c).bind (store offset buf)) buf = some out ∧
        out.length = size ∧ ∀ k, out[k]? = target[k]? ∨ (k / chunk ∉ is ∧ out[k]? = buf[k]?) := by
  intro is
  induction is with
  | nil => intro buf _ hb; exact ⟨buf, rfl, hb, fun k => Or.inr ⟨by simp, rfl⟩⟩
  | cons i is ih =>
    intro buf hi hb
    have him := hi i (List.mem_cons_self ..)
    have hle := hm i him
    obtain ⟨b1, e1, l1, g1⟩ := setSlice_get buf ((target.drop (i * chunk)).take chunk) (i * chunk)
      (min size (i * chunk + chunk)) (by omega) (by omega)
      (by rw [List.length_take, List.length_drop, ht]; omega)
    obtain ⟨out, e2, l2, g2⟩ := ih b1 (fun j hj => hi j (List.mem_cons_of_mem _ hj)) (by omega)
    refine ⟨out, ?_, l2, ?_⟩
    · simp only [List.map_cons, List.foldlM_cons, h i him, Option.bind_some]
      have : store offset buf ((offset + i * chunk, offset + min size (i * chunk + chunk)),
          (target.drop (i * chunk)).take chunk) = some b1 := by
        simp only [store, Nat.add_sub_cancel_left]; exact e1
      rw [this]; exact e2
    · intro k
      rcases g2 k with g | ⟨hk, g⟩
      · exact Or.inl g
      · have g1k := g1 k
        by_cases c : i * chunk ≤ k ∧ k < min size (i * chunk + chunk)
        · left
          rw [g, g1k, if_pos c, List.getElem?_take_of_lt (by omega), List.getElem?_drop]
          congr 1; omega
        · rw [if_neg c] at g1k
          by_cases c2 : k < size
          · right
            refine ⟨?_, by rw [g, g1k]⟩
            rw [List.mem_cons, not_or]
            refine ⟨?_, hk⟩
            intro he
            apply c
            have := Nat.div_mul_le_self k chunk
            have := Nat.lt_div_mul_add (a := k) hc
            rw [he] at *
            omega
          · left
            rw [List.getElem?_eq_none (by omega), List.getElem?_eq_none (by omega)]

/-- A chunk that cannot be stored makes the whole run raise, whenever it is run. -/
theorem fold_fail (offset size : ℕ) (task : ℕ → Option ((ℕ × ℕ) × List (List ℝ))) (c : ℕ)
    (hc : ∀ buf : List (List ℝ), buf.length = size → (task c).bind (store offset buf) = none) :
    ∀ (order : List ℕ) (buf : List (List ℝ)), c ∈ order → buf.length = size →
      order.foldlM (fun buf c => (task c).bind (store offset buf)) buf = none := by
  intro order
  induction order with
  | nil => intro _ h; cases h
  | cons x xs ih =>
    intro buf hm hb
    rw [List.foldlM_cons]
    by_cases hx : c = x
    · subst hx; rw [hc buf hb]; rfl
    · have hm' : c ∈ xs := by
        rcases List.mem_cons.1 hm with h | h
        · exact absurd h hx
        · exact h
      cases e : (task x).bind (store offset buf) with
      | none => rfl
      | some b =>
        apply ih b hm'
        rw [Option.bind_eq_some_iff] at e
        obtain ⟨r, _, hr⟩ := e
        have := setSlice_length _ _ _ _ _ hr
        omega

/-- The columns of the coordinates `[offset, offset + size)`. -/
def part (conf : γ → κ → ℝ) (grains : List γ) (coords : List κ) (offset size : ℕ) : List (List ℝ) :=
  ((coords.drop offset).take size).map (column conf grains)

theorem part_length (conf : γ → κ → ℝ) (grains : List γ) (coords : List κ) (offset size : ℕ)
    (h : offset + size ≤ coords.length) : (part conf grains coords offset size).length = size := by
  simp only [part, List.length_map, List.length_take, List.length_drop]; omega

theorem inner_eq (conf : γ → κ → ℝ) (grains : List γ) (coords : List κ) (start stop : ℕ)
    (h1 : start ≤ stop) (h2 : stop ≤ coords.length) :
    inner conf grains coords start stop = some ((start, stop), part conf grains coords start (stop - start)) := by
  have : min stop coords.length = stop := by omega
  simp only [inner, this, part]
  rw [if_neg (by omega)]

theorem part_part (conf : γ → κ → ℝ) (grains : List γ) (coords : List κ) (offset size a w : ℕ) :
    ((part conf grains coords offset size).drop a).take w = part conf grains coords (offset + a) (min (size - a) w) := by
  simp only [part, ← List.map_drop, ← List.map_take]
  congr 1
  rw [List.drop_take, List.drop_drop, List.take_take, Nat.min_comm]

theorem last_chunk (size chunk : ℕ) (hc : 0 < chunk) (hs : 0 < size) :
    ∃ i, i + 1 = (size + chunk - 1) / chunk ∧ i * chunk < size ∧ size ≤ i * chunk + chunk := by
  have h1 : 0 < (size + chunk - 1) / chunk := Nat.div_pos (by omega) hc
  refine ⟨(size + chunk - 1) / chunk - 1, by omega, ?_, ?_⟩
  · have := Nat.div_mul_le_self (size + chunk - 1) chunk
    rw [Nat.sub_mul]; omega
  · have := Nat.lt_div_mul_add (a := size + chunk - 1) hc
    have h2 : chunk ≤ (size + chunk - 1) / chunk * chunk := Nat.le_mul_of_pos_left _ h1
    rw [Nat.sub_mul]; omega

theorem chunk_lt (size chunk i : ℕ) (hc : 0 < chunk) (h : i < (size + chunk - 1) / chunk) : i * chunk < size := by
  have := (Nat.le_div_iff_mul_le hc).1 (Nat.succ_le_of_lt h)
  rw [Nat.succ_mul] at this; omega

theorem lt_chunk (size chunk k : ℕ) (hc : 0 < chunk) (h : k < size) : k / chunk < (size + chunk - 1) / chunk := by
  rw [Nat.lt_iff_add_one_le, Nat.le_div_iff_mul_le hc, Nat.succ_mul]
  have := Nat.div_mul_le_self k chunk
  omega

/-- Running the chunks of `[offset, offset + size)` in any order, when a chunk may reach up to `cap`. -/
theorem fold_run (conf : γ → κ → ℝ) (grains : List γ) (coords : List κ) (offset size chunk cap : ℕ) (hc : 0 < chunk)
    (h1 : offset + size ≤ cap) (h2 : cap ≤ coords.length) (order : List ℕ) (chunks : List ℕ)
    (hch : chunkStarts offset size chunk = some chunks) (hp : order.Perm chunks) (junk : List (List ℝ))
    (hj : junk.length = size) :
    order.foldlM (fun buf c => (inner conf grains coords c (min cap (c + chunk))).bind (store offset buf)) junk =
      if chunk ∣ size ∨ cap = offset + size then some (part conf grains coords offset size) else none := by
  simp only [chunkStarts, if_neg (Nat.pos_iff_ne_zero.1 hc), Option.some.injEq] at hch
  set m := (size + chunk - 1) / chunk with hmdef
  have hmem : ∀ i, i < m → offset + i * chunk ∈ order := fun i hi =>
    hp.mem_iff.2 (hch ▸ List.mem_map.2 ⟨i, List.mem_range.2 hi, rfl⟩)
  have hcap : ∀ i < m, (chunk ∣ size ∨ cap = offset + size) →
      min cap (offset + i * chunk + chunk) = offset + min size (i * chunk + chunk) := by
    intro i hi hor
    have hlt := chunk_lt size chunk i hc hi
    rcases hor with ⟨q, hq⟩ | h
    · have : i < q := by
        rw [hq] at hlt
        rw [Nat.mul_comm] at hlt
        exact Nat.lt_of_mul_lt_mul_left hlt
      have h3 : i * chunk + chunk ≤ size := by
        rw [hq, ← Nat.succ_mul, Nat.mul_comm]; exact Nat.mul_le_mul_left _ this
      omega
    · omega
  split
  · next hor =>
    obtain ⟨is, his⟩ : ∃ is : List ℕ, order = is.map fun i => offset + i * chunk := by
      have : ∀ l : List ℕ, (∀ x ∈ l, ∃ i, offset + i * chunk = x) → ∃ is : List ℕ, l = is.map fun i => offset + i * chunk := by
        intro l
        induction l with
        | nil => intro _; exact ⟨[], rfl⟩
        | cons x xs ih =>
          intro h
          obtain ⟨i, hi⟩ := h x (List.mem_cons_self ..)
          obtain ⟨is, e⟩ := ih fun y hy => h y (List.mem_cons_of_mem _ hy)
          exact ⟨i :: is, by rw [List.map_cons, hi, ← e]⟩
      apply this
      intro x hx
      have := hp.mem_iff.1 hx
      rw [← hch, List.mem_map] at this
      obtain ⟨i, _, e⟩ := this
      exact ⟨i, e⟩
    have hin : ∀ i ∈ is, i < m := by
      intro i hi
      have : offset + i * chunk ∈ order := his ▸ List.mem_map_of_mem (f := fun i => offset + i * chunk) hi
      have := hp.mem_iff.1 this
      rw [← hch, List.mem_map] at this
      obtain ⟨j, hj, e⟩ := this
      have e' : j * chunk = i * chunk := by omega
      rw [← Nat.eq_of_mul_eq_mul_right hc e']
      exact List.mem_range.1 hj
    have hall : ∀ i, i < m → i ∈ is := by
      intro i hi
      have := hmem i hi
      rw [his, List.mem_map] at this
      obtain ⟨j, hj, e⟩ := this
      have e' : j * chunk = i * chunk := by omega
      rwa [← Nat.eq_of_mul_eq_mul_right hc e']
    have hlen := part_length conf grains coords offset size (by omega)
    obtain ⟨out, e, l, g⟩ := fold_ok offset size chunk m hc (part conf grains coords offset size) hlen
      (fun c => inner conf grains coords c (min cap (c + chunk)))
      (fun i hi => (chunk_lt size chunk i hc hi).le)
      (by
        intro i hi
        have hlt := chunk_lt size chunk i hc hi
        rw [hcap i hi hor, inner_eq _ _ _ _ _ (by omega) (by omega), part_part]
        congr 3; omega)
      is junk hin hj
    rw [his, e]
    congr 1
    apply List.ext_getElem?
    intro k
    rcases g k with h | ⟨h, _⟩
    · exact h
    · by_cases hk : k < size
      · exact absurd (hall _ (lt_chunk size chunk k hc hk)) h
      · rw [List.getElem?_eq_none (by omega), List.getElem?_eq_none (by omega)]
  · next hor =>
    push Not at hor
    have hs : 0 < size := by
      rcases Nat.eq_zero_or_pos size with h0 | h0
      · exact absurd (h0 ▸ Nat.dvd_zero chunk) hor.1
      · exact h0
    obtain ⟨i, hi, ha, hb⟩ := last_chunk size chunk hc hs
    have hne : size ≠ i * chunk + chunk := by
      intro h
      exact hor.1 ⟨i + 1, by rw [h]; ring⟩
    have hcapgt : offset + size < cap := by have := hor.2; omega
    refine fold_fail offset size (fun c => inner conf grains coords c (min cap (c + chunk))) (offset + i * chunk) ?_ order junk
      (hmem i (by omega)) hj
    intro buf hbuf
    rw [inner_eq _ _ _ _ _ (by omega) (by omega), Option.bind_some]
    simp only [store, Nat.add_sub_cancel_left]
    apply setSlice_over
    · omega
    · omega
    · rw [part_length _ _ _ _ _ (by omega)]; omega

theorem offset_le (world rank n : ℕ) (hr : rank < world) :
    (offsetSize world rank n).1 + (offsetSize world rank n).2 ≤ n := by
  unfold offsetSize
  split
  · simp only
    have h : n / world * world ≤ n := Nat.div_mul_le_self _ _
    have h2 : rank * (n / world) + n / world ≤ world * (n / world) := by
      rw [← Nat.succ_mul]; exact Nat.mul_le_mul_right _ hr
    rw [Nat.mul_comm world] at h2
    generalize rank * (n / world) = p at *
    generalize n / world * world = q at *
    generalize n / world = r at *
    split <;> omega
  · simp

theorem offset_mono (world rank n N : ℕ) (hr : rank < world) (h : n ≤ N) :
    (offsetSize world rank n).1 + (offsetSize world rank n).2 ≤
      (offsetSize world rank N).1 + (offsetSize world rank N).2 := by
  have a := offset_le world rank n hr
  have b := offset_le world rank N hr
  unfold offsetSize at *
  split
  · next hw =>
    simp only [if_pos hw] at *
    have hd : n / world ≤ N / world := Nat.div_le_div_right h
    have h2 : rank * (n / world) ≤ rank * (N / world) := Nat.mul_le_mul_left _ hd
    split
    · next hl =>
      simp only [if_pos hl] at *
      have h1 : N / world * world ≤ N := Nat.div_mul_le_self _ _
      have h3 : rank * (N / world) ≤ world * (N / world) := Nat.mul_le_mul_right _ hr.le
      rw [Nat.mul_comm world] at h3
      omega
    · omega
  · simpa using h

end Hexrd.NearField
