import Verif.Spec.PlaneData

namespace Hexrd.PlaneData
variable {K : Type} [LinearOrder K]

omit [LinearOrder K] in
theorem kept_cons (near : K → K → Bool) (cull : Bool) (a b : Nat × Ring K) (l : List (Nat × Ring K)) :
    kept near cull (a :: b :: l) = (if cull && near a.2.tth b.2.tth then [] else [a]) ++ kept near cull (b :: l) := by
  rw [kept]; split <;> simp

omit [LinearOrder K] in
theorem kept_snoc (near : K → K → Bool) (cull : Bool) (x y : Nat × Ring K) (p c : List (Nat × Ring K))
    (h : kept near cull (p ++ [x]) = c ++ [x]) :
    kept near cull (p ++ [x] ++ [y]) = (if cull && near x.2.tth y.2.tth then c else c ++ [x]) ++ [y] := by
  induction p generalizing c with
  | nil =>
    simp only [List.nil_append, kept] at h
    have : c = [] := by
      have := congrArg List.length h; simp at this; exact this
    subst this
    simp only [List.nil_append, List.cons_append]
    rw [kept_cons]; simp [kept]
  | cons a p ih =>
    cases p with
    | nil =>
      simp only [List.cons_append, List.nil_append] at h ⊢
      rw [kept_cons] at h
      simp only [kept] at h
      have hc := List.append_inj_left' h rfl
      rw [kept_cons, kept_cons, hc]
      simp only [kept]
      split <;> simp
    | cons b p =>
      simp only [List.cons_append] at h ih ⊢
      rw [kept_cons] at h
      have hk : ∃ c', kept near cull (b :: (p ++ [x])) = c' ++ [x] := by
        have e := congrArg List.getLast? h
        have hne : kept near cull (b :: (p ++ [x])) ≠ [] := by
          have : ∀ l : List (Nat × Ring K), l ≠ [] → kept near cull l ≠ [] := by
            intro l
            induction l with
            | nil => intro h; exact absurd rfl h
            | cons u l ih2 =>
              intro _
              cases l with
              | nil => simp [kept]
              | cons v l =>
                rw [kept_cons]; simp only [ne_eq, List.append_eq_nil_iff, not_and]
                exact fun _ => ih2 (by simp)
          exact this _ (by simp)
        rw [List.getLast?_append_of_ne_nil _ hne] at e
        simp at e
        obtain ⟨ys, hy⟩ := List.getLast?_eq_some_iff.1 e
        exact ⟨ys, hy⟩
      obtain ⟨c', hc'⟩ := hk
      rw [hc', ← List.append_assoc] at h
      have hc := List.append_inj_left' h rfl
      have := ih c' hc'
      rw [kept_cons, this, ← hc]
      split <;> split <;> simp

theorem mergeLoop_grouping (near : K → K → Bool) (cull : Bool) (rs : List (Ring K)) :
    ∀ (r : Ring K) (i : Nat) (p c : List (Nat × Ring K)) (lo : K),
      kept near cull (p ++ [(i, r)]) = c ++ [(i, r)] →
      (p ++ [(i, r)]).IsChain (fun x y => overlap x.2 y.2) →
      (∀ f, (p ++ [(i, r)]).head? = some f → f.2.lo = lo) →
      ∃ (first : List (Nat × Ring K)) (tail : List (List (Nat × Ring K))),
        (∃ q, first = p ++ [(i, r)] ++ q) ∧
        IsGrouping near cull (p ++ number i (r :: rs))
          (mergeLoop near cull (r :: rs) i (c.map Prod.fst) lo) (first :: tail) := by
  induction rs with
  | nil =>
    intro r i p c lo hk hch hlo
    refine ⟨p ++ [(i, r)], [], ⟨[], by simp⟩, ?_, ?_, ?_, ?_, ?_⟩
    · simp [number]
    · intro s hs; simp at hs; subst hs; simp
    · intro s hs; simp at hs; subst hs; exact hch
    · simp
    · refine .cons ?_ .nil
      cases hf : (p ++ [(i, r)]).head? with
      | none => simp at hf
      | some f =>
        refine ⟨f, (i, r), hf, by simp, ?_⟩
        rw [hk, hlo f hf]; simp
  | cons s rest ih =>
    intro r i p c lo hk hch hlo
    rw [mergeLoop]
    have hks := kept_snoc near cull (i, r) (i + 1, s) p c hk
    by_cases hlt : r.hi < s.lo
    · rw [if_pos hlt]
      obtain ⟨first, tail, ⟨q, hq⟩, hg⟩ := ih s (i + 1) [] [] s.lo (by simp [kept]) (by simp) (by simp)
      refine ⟨p ++ [(i, r)], first :: tail, ⟨[], by simp⟩, ?_, ?_, ?_, ?_, ?_⟩
      · rw [List.flatten_cons, hg.cover]; simp [number]
      · intro t ht
        rcases List.mem_cons.1 ht with rfl | ht
        · simp
        · exact hg.nonempty t ht
      · intro t ht
        rcases List.mem_cons.1 ht with rfl | ht
        · exact hch
        · exact hg.runs t ht
      · refine List.isChain_cons_cons.2 ⟨?_, hg.cuts⟩
        intro x hx y hy
        simp at hx; subst hx
        rw [hq] at hy; simp at hy; subst hy
        simp only [overlap]; exact not_le.2 hlt
      · refine .cons ?_ ?_
        · cases hf : (p ++ [(i, r)]).head? with
          | none => simp at hf
          | some f =>
            refine ⟨f, (i, r), hf, by simp, ?_⟩
            rw [hk, hlo f hf]; simp
        · simpa using hg.report
    · rw [if_neg hlt]
      have hch' : (p ++ [(i, r)] ++ [(i + 1, s)]).IsChain (fun x y => overlap x.2 y.2) := by
        rw [List.isChain_append]
        refine ⟨hch, by simp, ?_⟩
        intro x hx y hy
        simp at hx hy; subst hx; subst hy
        exact not_lt.1 hlt
      have hlo' : ∀ f, (p ++ [(i, r)] ++ [(i + 1, s)]).head? = some f → f.2.lo = lo := by
        intro f hf
        apply hlo
        rw [← hf]
        cases p <;> simp
      by_cases hc : (cull && near r.tth s.tth) = true
      · rw [if_pos hc]
        simp only at hks
        rw [if_pos hc] at hks
        obtain ⟨first, tail, ⟨q, hq⟩, hg⟩ := ih s (i + 1) (p ++ [(i, r)]) c lo hks hch' hlo'
        refine ⟨first, tail, ⟨(i + 1, s) :: q, by rw [hq]; simp⟩, ?_⟩
        simpa [number] using hg
      · rw [if_neg hc]
        simp only at hks
        rw [if_neg hc] at hks
        obtain ⟨first, tail, ⟨q, hq⟩, hg⟩ := ih s (i + 1) (p ++ [(i, r)]) (c ++ [(i, r)]) lo hks hch' hlo'
        refine ⟨first, tail, ⟨(i + 1, s) :: q, by rw [hq]; simp⟩, ?_⟩
        simpa [number] using hg

omit [LinearOrder K] in
theorem kept_false (near : K → K → Bool) (l : List (Nat × Ring K)) : kept near false l = l := by
  induction l with
  | nil => rfl
  | cons a l ih =>
    cases l with
    | nil => rfl
    | cons b l => rw [kept_cons, ih]; simp

omit [LinearOrder K] in
theorem number_fst (i : Nat) (rs : List (Ring K)) : (number i rs).map Prod.fst = List.range' i rs.length := by
  induction rs generalizing i with
  | nil => rfl
  | cons r rs ih => simp [number, ih, List.range'_succ]

omit [LinearOrder K] in
theorem number_snd (i : Nat) (rs : List (Ring K)) : (number i rs).map Prod.snd = rs := by
  induction rs generalizing i with
  | nil => rfl
  | cons r rs ih => simp [number, ih]

theorem partition_of_grouping {near : K → K → Bool} {rs : List (Ring K)} {out : List (List Nat × K × K)}
    {segs : List (List (Nat × Ring K))} (hg : IsGrouping near false (number 0 rs) out segs) :
    (out.map Prod.fst).flatten = List.range rs.length ∧ ∀ o ∈ out, o.1 ≠ [] := by
  obtain ⟨h1, h2, -, -, h5⟩ := hg
  have : out.map Prod.fst = segs.map (fun s => s.map Prod.fst) := by
    clear h1 h2
    induction h5 with
    | nil => rfl
    | cons hab _ ih =>
      obtain ⟨f, l, -, -, rfl⟩ := hab
      simp [ih, kept_false]
  refine ⟨?_, ?_⟩
  · rw [this, ← List.map_flatten, h1, number_fst, List.range_eq_range']
  · intro o ho
    have : o.1 ∈ segs.map (fun s => s.map Prod.fst) := this ▸ List.mem_map_of_mem ho
    obtain ⟨s, hs, e⟩ := List.mem_map.1 this
    rw [← e]; simpa using h2 s hs

omit [LinearOrder K] in
theorem pairwise_number {R : Ring K → Ring K → Prop} {rs : List (Ring K)} (h : rs.Pairwise R) (i : Nat) :
    (number i rs).Pairwise fun x y => R x.2 y.2 := by
  rw [← List.pairwise_map (f := Prod.snd), number_snd]; exact h

theorem forall2_mem {α β : Type} {R : α → β → Prop} {l : List α} {m : List β} (h : List.Forall₂ R l m) {a : α}
    (ha : a ∈ l) : ∃ b ∈ m, R a b := by
  induction h with
  | nil => cases ha
  | cons hab _ ih =>
    rcases List.mem_cons.1 ha with rfl | ha
    · exact ⟨_, by simp, hab⟩
    · obtain ⟨b, hb, hr⟩ := ih ha; exact ⟨b, by simp [hb], hr⟩

theorem intervals_of_grouping {near : K → K → Bool} {cull : Bool} {rs : List (Ring K)} {out : List (List Nat × K × K)}
    {segs : List (List (Nat × Ring K))} (hg : IsGrouping near cull (number 0 rs) out segs)
    (hlo : rs.Pairwise fun r s => r.lo ≤ s.lo) (hhi : rs.Pairwise fun r s => r.hi ≤ s.hi)
    (hr : ∀ r ∈ rs, r.lo ≤ r.hi) :
    (∀ r ∈ rs, ∃ o ∈ out, o.2.1 ≤ r.lo ∧ r.hi ≤ o.2.2) ∧
    out.Pairwise fun o p => o.2.2 < p.2.1 := by
  obtain ⟨h1, h2, h3, h4, h5⟩ := hg
  have plo := h1 ▸ pairwise_number hlo 0
  have phi := h1 ▸ pairwise_number hhi 0
  have pr : ∀ x ∈ segs.flatten, x.2.lo ≤ x.2.hi := by
    intro x hx
    rw [h1] at hx
    apply hr
    rw [← number_snd 0 rs]; exact List.mem_map_of_mem hx
  constructor
  · intro r hmem
    have : r ∈ (number 0 rs).map Prod.snd := by rw [number_snd]; exact hmem
    obtain ⟨x, hx, rfl⟩ := List.mem_map.1 this
    rw [← h1] at hx
    obtain ⟨s, hs, hxs⟩ := List.mem_flatten.1 hx
    obtain ⟨o, ho, f, l, hf, hl, rfl⟩ := forall2_mem h5 hs
    refine ⟨_, ho, ?_, ?_⟩
    · have pw := (List.pairwise_flatten.1 plo).1 s hs
      cases s with
      | nil => cases hxs
      | cons a s =>
        simp at hf; subst hf
        rcases List.mem_cons.1 hxs with rfl | hxs
        · exact le_refl _
        · exact (List.pairwise_cons.1 pw).1 x hxs
    · have pw := (List.pairwise_flatten.1 phi).1 s hs
      obtain ⟨ys, rfl⟩ := List.getLast?_eq_some_iff.1 hl
      rw [List.pairwise_append] at pw
      rcases List.mem_append.1 hxs with hxs | hxs
      · exact pw.2.2 x hxs l (by simp)
      · simp at hxs; subst hxs; exact le_refl _
  · clear h1 hr hlo hhi
    induction h5 with
    | nil => exact .nil
    | @cons s o segs out hab hrest ih =>
      obtain ⟨f, l, hf, hl, rfl⟩ := hab
      rw [List.flatten_cons, List.pairwise_append] at plo phi
      have hrec := ih (fun t ht => h2 t (by simp [ht])) (fun t ht => h3 t (by simp [ht]))
        (by cases segs with | nil => simp | cons t u => exact (List.isChain_cons_cons.1 h4).2) plo.2.1 phi.2.1
        (fun x hx => pr x (by simp; exact .inr (by simpa using hx)))
      refine List.pairwise_cons.2 ⟨?_, hrec⟩
      cases hrest with
      | nil => intro o ho; cases ho
      | @cons t o' segs out hab' hrest' =>
        obtain ⟨f', l', hf', hl', rfl⟩ := hab'
        have hcut := (List.isChain_cons_cons.1 h4).1 l hl f' hf'
        simp only [overlap, not_le] at hcut
        intro o ho
        rcases List.mem_cons.1 ho with rfl | ho
        · exact hcut
        · have hlt := (List.pairwise_cons.1 hrec).1 o ho
          simp only at hlt ⊢
          have hle : f'.2.lo ≤ l'.2.hi := by
            have m1 : f' ∈ t := List.mem_of_head? hf'
            have m2 : l' ∈ t := List.mem_of_getLast? hl'
            have pw : t.Pairwise (fun x y => x.2.hi ≤ y.2.hi) := by
              have := phi.2.1; rw [List.flatten_cons, List.pairwise_append] at this; exact this.1
            have e1 : f'.2.lo ≤ f'.2.hi := pr f' (by simp; exact .inr (.inl m1))
            obtain ⟨ys, rfl⟩ := List.getLast?_eq_some_iff.1 hl'
            rw [List.pairwise_append] at pw
            rcases List.mem_append.1 m1 with m | m
            · exact le_trans e1 (pw.2.2 f' m l' (by simp))
            · simp at m; subst m; exact e1
          exact lt_of_lt_of_le hcut (le_trans hle hlt.le)

end Hexrd.PlaneData
