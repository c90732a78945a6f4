import Verif.Model.InstrFile
import Verif.Spec.InstrFile
import Verif.Props.CalibRoundTrip

/-! C158: instruments written to a file and read again, and the beams of an instrument in use. -/

namespace Hexrd.InstrFile

open Hexrd.Transforms Spec

/-! ### Lists -/

theorem mapM_some {α β : Type} (f : α → Option β) (g : α → β) (l : List α) (h : ∀ e ∈ l, f e = some (g e)) :
    l.mapM f = some (l.map g) := by
  induction l with
  | nil => rfl
  | cons a l ih =>
    rw [List.mapM_cons, h a (by simp), ih fun e he => h e (by simp [he])]
    rfl

theorem byName_perm {α : Type} (l : List (String × α)) : (byName l).Perm l := List.mergeSort_perm _ _

theorem byName_sorted {α : Type} (l : List (String × α)) : (byName l).Pairwise fun x y => x.1 ≤ y.1 := by
  have h := List.pairwise_mergeSort (le := fun a b : String × α => decide (a.1 ≤ b.1))
    (by intro a b c; simpa using le_trans) (by intro a b; simpa using le_total a.1 b.1) l
  exact h.imp fun h => by simpa using h

theorem byName_map {α β : Type} (g : α → β) (l : List (String × α)) :
    byName (l.map fun e => (e.1, g e.2)) = (byName l).map fun e => (e.1, g e.2) := by
  unfold byName
  exact (List.map_mergeSort (f := fun e : String × α => (e.1, g e.2)) (by intros; rfl)).symm

theorem forall₂_map {α β : Type} (r : α → β → Prop) (g : α → β) (l : List (String × α)) (h : ∀ e ∈ l, r e.2 (g e.2)) :
    List.Forall₂ (fun x y => y.1 = x.1 ∧ r x.2 y.2) l (l.map fun e => (e.1, g e.2)) := by
  induction l with
  | nil => exact .nil
  | cons a l ih => exact .cons ⟨rfl, h a (by simp)⟩ (ih fun e he => h e (by simp [he]))

/-! ### Writing and reading a detector -/

/-- A detector that can be written, read again next to a beam. -/
theorem panel_round_trip (s : Style) (b : Beam) (eta : V) (p : Panel) (h : WritablePanel p) :
    ∃ c q, writePanel s p = some c ∧ readPanel b eta c = some q ∧ SamePanel s p q ∧ q.bvec = b.vector ∧ q.dist = b.distance ∧
      q.evec = eta ∧ q.filter = .default ∧ q.coating = .default ∧ q.phosphor = .default := by
  obtain ⟨sat, hs⟩ := Option.ne_none_iff_exists'.1 h.saturation
  have hd : ∃ d, writeDistortion p.distortion = some d ∧ readDistortion d = some p.distortion := by
    cases hp : p.distortion with
    | none => exact ⟨none, rfl, rfl⟩
    | some d =>
      obtain ⟨hn, ps, hps, hl⟩ := h.distortion d hp
      refine ⟨some (d.name, ps), by simp [writeDistortion, hps], ?_⟩
      have : getMapping d.name ps = some d := by
        cases d with
        | mk n q =>
          simp only at hn hps hl
          subst hps
          unfold getMapping
          rcases hn with rfl | rfl | rfl
          · simp
          · simp
          · simp [hl rfl]
      simp [readDistortion, this]
  obtain ⟨d, hd1, hd2⟩ := hd
  have hb : ∃ c q, writeBuffer s p.buffer = some c ∧ readBuffer p.rows p.cols c = some q ∧
      ((s = .hdf5 ∨ ∀ r c d, p.buffer ≠ .mask r c d) → q = p.buffer) ∧
      ∀ r c d, s = .yaml → p.buffer = .mask r c d → q = .vec [0, 0] := by
    cases hp : p.buffer with
    | none => exact ⟨.none, .none, rfl, rfl, fun _ => rfl, by simp⟩
    | known n => exact ⟨.known n, .known n, rfl, rfl, fun _ => rfl, by simp⟩
    | vec v =>
      have hv := h.vec v hp
      refine ⟨if s = .yaml then .list v else .array v, .vec v, by simp [writeBuffer, hv], ?_, fun _ => rfl, by simp⟩
      cases s <;> simp [readBuffer, hv]
    | mask r c m =>
      obtain ⟨h1, h2⟩ := h.mask r c m hp
      cases s with
      | yaml => exact ⟨.list [0, 0], .vec [0, 0], by simp [writeBuffer], by simp [readBuffer], by simp, by simp⟩
      | hdf5 => exact ⟨.mask r c m, .mask r c m, by simp [writeBuffer], by simp [readBuffer, h1, h2], by simp, by simp⟩
  obtain ⟨c, q, hb1, hb2, hb3, hb4⟩ := hb
  have hk1 : readKind (some p.kind.name) p.kind.radius = some p.kind := by
    cases p.kind <;> simp [readKind, Kind.name, Kind.radius]
  refine ⟨_, _, by simp only [writePanel, hd1, hs, hb1, Option.bind_eq_bind, Option.bind_some]; rfl, by
    simp only [readPanel, hd2, hb2, hk1, Option.bind_eq_bind, Option.bind_some]; rfl, ?_, rfl, rfl, rfl, rfl, rfl, rfl⟩
  exact ⟨rfl, rfl, rfl, rfl, rfl, rfl, by cases p.roi <;> rfl, rfl, rfl, by simp [hs], hb3, hb4⟩

/-! ### Writing and reading the beams -/

theorem unit_resolved {b : V} (h : dot b b = 1) : √(dot b b) > epsf := by
  rw [h, Real.sqrt_one]; unfold epsf; norm_num

/-- The entry of a beam after it went through a file. -/
noncomputable def entry (s : Style) (b : Beam) : BeamCfg :=
  storedBeam s (writeBeam b)

theorem beam_same (s : Style) (b : Beam) (h : dot b.vector b.vector = 1) :
    SameBeam b (makeBeam (entry s b)) ∧ (makeBeam (entry s b)).distance = b.distance.stored s := by
  refine ⟨⟨rfl, ?_, ?_, rfl⟩, ?_⟩
  · have := Calib.beam_round_trip (unit_resolved h)
    rw [h, Real.sqrt_one] at this
    simpa [makeBeam, entry, storedBeam, writeBeam] using this
  · unfold makeBeam entry storedBeam writeBeam
    cases b.distance <;> cases s <;> simp [Dist.stored, Dist.value]
  · unfold makeBeam entry storedBeam writeBeam
    cases b.distance <;> simp [Dist.stored]

/-- The beams of an instrument after they went through a file: one beam gets the default name, several are in alphabetical order, and
the first of these becomes the active one. -/
theorem beams_round_trip (s : Style) (l : List (String × Beam)) (hne : l ≠ [])
    (hres : l.length = 1 ∨ ¬ ("energy" ∈ l.map Prod.fst ∧ "vector" ∈ l.map Prod.fst))
    (hu : ∀ e ∈ l, dot e.2.vector e.2.vector = 1) :
    ∃ l' n, readBeams none (storedBeams s (writeBeams l)) = some (l', n) ∧
      (∀ m b, l = [(m, b)] → n = "XRS1" ∧ ∃ b', l' = [("XRS1", b')] ∧ SameBeam b b' ∧ b'.distance = b.distance.stored s) ∧
      (l.length ≠ 1 → SortedCopy (fun b b' => SameBeam b b' ∧ b'.distance = b.distance.stored s) l l' ∧
        ∃ b, l'.head? = some (n, b)) ∧ ∃ b, l'.lookup n = some b := by
  by_cases h1 : ∃ e, l = [e]
  · obtain ⟨⟨m, b⟩, rfl⟩ := h1
    have hs := beam_same s b (hu (m, b) (by simp))
    refine ⟨[("XRS1", makeBeam (entry s b))], "XRS1", ?_, ?_, by simp, ⟨makeBeam (entry s b), by simp⟩⟩
    · simp [writeBeams, storedBeams, readBeams, put, defaultName, entry]
    · intro m' b' he
      simp only [List.cons.injEq, Prod.mk.injEq, and_true] at he
      obtain ⟨-, rfl⟩ := he
      exact ⟨rfl, _, rfl, hs⟩
  · have hlen : l.length ≠ 1 := fun h => h1 (List.length_eq_one_iff.1 h)
    have hw : writeBeams l = .multi (l.map fun e => (e.1, writeBeam e.2)) := by
      unfold writeBeams
      split
      · exact absurd ⟨(_, _), rfl⟩ h1
      · rfl
    have hm : storedBeams s (writeBeams l) = .multi ((byName l).map fun e => (e.1, entry s e.2)) := by
      rw [hw]
      simp only [storedBeams]
      rw [byName_map (storedBeam s), byName_map, List.map_map]
      rfl
    obtain ⟨e, t, het⟩ : ∃ e t, byName l = e :: t := by
      cases hb : byName l with
      | nil =>
        have := (byName_perm l)
        rw [hb] at this
        exact absurd this.nil_eq.symm hne
      | cons e t => exact ⟨e, t, rfl⟩
    have hr : ¬ ("energy" ∈ (byName l).map Prod.fst ∧ "vector" ∈ (byName l).map Prod.fst) := by
      have hp := (byName_perm l).map Prod.fst
      rw [hp.mem_iff, hp.mem_iff]
      exact hres.resolve_left hlen
    refine ⟨(byName l).map fun e => (e.1, makeBeam (entry s e.2)), e.1, ?_, ?_, fun _ => ⟨?_, ?_⟩, ?_⟩
    · have hfst : ((byName l).map fun e => (e.1, entry s e.2)).map Prod.fst = (byName l).map Prod.fst := by
        rw [List.map_map]; rfl
      rw [hm]
      simp only [readBeams]
      rw [hfst, if_neg hr, het]
      simp
    · intro m b hmb
      exact absurd ⟨_, hmb⟩ h1
    · refine ⟨byName l, byName_perm l, byName_sorted l, forall₂_map (fun b b' => SameBeam b b' ∧ b'.distance = b.distance.stored s) (fun b => makeBeam (entry s b)) _ ?_⟩
      intro e he
      exact beam_same s e.2 (hu e ((byName_perm l).mem_iff.1 he))
    · exact ⟨makeBeam (entry s e.2), by simp [het]⟩
    · exact ⟨makeBeam (entry s e.2), by simp [het]⟩

/-! ### The whole instrument -/

/-- An instrument that can be written is read again from the file with its name, stage, beams and detectors. -/
theorem round_trip (s : Style) (i : Instr) (h : Writable i) :
    ∃ c j, write s i = some c ∧ read none (stored s c) = some j ∧ j.id = i.id ∧ j.chi = i.chi ∧ j.tvec = i.tvec ∧
      SortedCopy (SamePanel s) i.panels j.panels ∧
      (∀ m b, i.beams = [(m, b)] →
        j.active = "XRS1" ∧ ∃ b', j.beams = [("XRS1", b')] ∧ SameBeam b b' ∧ b'.distance = b.distance.stored s) ∧
      (i.beams.length ≠ 1 → SortedCopy SameBeam i.beams j.beams ∧ ∃ b, j.beams.head? = some (j.active, b)) ∧ Follow j ∧
      ∀ e ∈ j.panels, e.2.filter = .default ∧ e.2.coating = .default ∧ e.2.phosphor = .default := by
  obtain ⟨l', n, hr, h1, h2, b, hb⟩ := beams_round_trip s i.beams h.beams h.reserved h.unit
  have : Nonempty PanelCfg := ⟨⟨none, 0, 0, 0, 0, (0, 0), none, none, none, none, .none, none, none, none, none⟩⟩
  have : Nonempty Panel :=
    ⟨⟨.planar, 0, 0, 0, 0, (0, 0), none, none, none, none, .none, .default, .default, .default, 0, .inf, 0⟩⟩
  choose! g q hg using fun p (hp : WritablePanel p) => panel_round_trip s b ![1, 0, 0] p hp
  have hw : write s i = some ⟨some i.id, writeBeams i.beams, i.chi, i.tvec, i.panels.map fun e => (e.1, g e.2)⟩ := by
    unfold write
    rw [mapM_some _ (fun e => (e.1, g e.2)) i.panels fun e he => by simp [(hg e.2 (h.panels e he)).1]]
    rfl
  have hp : ∀ e ∈ byName i.panels, WritablePanel e.2 := fun e he => h.panels e ((byName_perm _).mem_iff.1 he)
  refine ⟨_, ⟨i.id, l', n, i.chi, i.tvec, ![1, 0, 0], (byName i.panels).map fun e => (e.1, q e.2)⟩, hw, ?_, rfl, rfl, rfl, ?_, ?_, ?_,
    ?_, ?_⟩
  · unfold read stored
    simp only [hr, Option.bind_eq_bind, Option.bind_some]
    rw [byName_map]
    have : ((byName i.panels).map fun e => (e.1, g e.2)).mapM (fun e => do
        let b ← l'.lookup n
        let p ← readPanel b ![1, 0, 0] e.2
        some (e.1, p)) = some ((byName i.panels).map fun e => (e.1, q e.2)) := by
      rw [List.mapM_map]
      refine mapM_some _ _ _ fun e he => ?_
      simp [hb, (hg e.2 (hp e he)).2.1]
    simp only [Option.bind_eq_bind] at this
    rw [this]
    rfl
  · exact ⟨_, byName_perm _, byName_sorted _, forall₂_map _ q _ fun e he => (hg e.2 (hp e he)).2.2.1⟩
  · exact h1
  · intro hl
    obtain ⟨⟨l, e1, e2, e3⟩, e4⟩ := h2 hl
    exact ⟨⟨l, e1, e2, e3.imp fun _ _ h => ⟨h.1, h.2.1⟩⟩, e4⟩
  · refine ⟨b, hb, fun e he => ?_⟩
    obtain ⟨f, hf, rfl⟩ := List.mem_map.1 he
    exact ⟨(hg f.2 (hp f hf)).2.2.2.1, (hg f.2 (hp f hf)).2.2.2.2.1⟩
  · intro e he
    obtain ⟨f, hf, rfl⟩ := List.mem_map.1 he
    exact (hg f.2 (hp f hf)).2.2.2.2.2.2

/-! ### What is lost -/

theorem calcBeamVec_unit (a p : ℝ) : dot (Calib.calcBeamVec a p) (Calib.calcBeamVec a p) = 1 := by
  simp only [dot, Calib.calcBeamVec, Matrix.cons_val_zero, Matrix.cons_val_one, Matrix.cons_val_two, Matrix.head_cons,
    Matrix.tail_cons]
  have h1 := Real.sin_sq_add_cos_sq (Calib.radians p)
  have h2 := Real.sin_sq_add_cos_sq (Calib.radians a)
  linear_combination h1 + Real.sin (Calib.radians p) ^ 2 * h2

/-- A detector of the examples. -/
noncomputable def aPanel : Panel :=
  ⟨.planar, 0, 0, 3, 2, (1, 1), none, none, none, some 1, .mask 3 2 [true, true, false, true, true, true], .given 7, .default, .default,
    ![0, 0, -1], .inf, ![1, 0, 0]⟩

theorem aPanel_writable : WritablePanel aPanel :=
  ⟨by simp [aPanel], by simp [aPanel], by simp [aPanel], by simp [aPanel]⟩

/-- An instrument with two beams, of which the second is active, and one detector with a filter of its own and a mask. -/
noncomputable def anInstr : Instr :=
  ⟨"i", [("a", ⟨1, ![0, 0, -1], .inf, none⟩), ("b", ⟨2, ![0, 0, -1], .inf, some [("axis", 0), ("intercept", 0), ("slope", 3)]⟩)], "b", 0,
    0, ![1, 0, 0], [("d", aPanel)]⟩

theorem anInstr_writable : Writable anInstr :=
  ⟨by simp [anInstr], by simp [anInstr], by simp [anInstr, dot], by simp [anInstr, aPanel_writable]⟩

/-- The active beam, a filter and, in YAML, a mask are lost. -/
theorem written_fails : ∃ (i : Instr) (c : Cfg) (j : Instr), Writable i ∧ write .yaml i = some c ∧
    read none (stored .yaml c) = some j ∧ j.active ≠ i.active ∧
    (∃ p q, i.panels = [("d", p)] ∧ j.panels = [("d", q)] ∧ q.filter ≠ p.filter ∧ p.buffer = .mask 3 2 [true, true, false, true, true, true] ∧
      q.buffer = .vec [0, 0]) := by
  obtain ⟨c, j, h1, h2, -, -, -, hp, -, hb, -, hl⟩ := round_trip .yaml anInstr anInstr_writable
  refine ⟨anInstr, c, j, anInstr_writable, h1, h2, ?_, ?_⟩
  · obtain ⟨⟨l, e1, e2, e3⟩, b, e4⟩ := hb (by simp [anInstr])
    intro ha
    generalize j.beams = jb at e3 e4
    cases e3 with
    | nil => exact absurd e1.length_eq (by simp [anInstr])
    | @cons x y l1 l2 hxy _ =>
      simp only [List.head?_cons, Option.some.injEq] at e4
      have hx : x.1 = "b" := by rw [← hxy.1, e4, ha]; rfl
      have hmem : ("a", (⟨1, ![0, 0, -1], .inf, none⟩ : Beam)) ∈ x :: l1 := e1.mem_iff.2 (by simp [anInstr])
      rcases List.mem_cons.1 hmem with h | h
      · rw [← h] at hx; exact absurd hx (by decide)
      · have := (List.pairwise_cons.1 e2).1 _ h
        rw [hx] at this
        exact absurd this (by decide)
  · obtain ⟨l, e1, -, e3⟩ := hp
    have hl1 : l = [("d", aPanel)] := List.perm_singleton.1 e1
    subst hl1
    cases hj : j.panels with
    | nil => rw [hj] at e3; cases e3
    | cons y t =>
      rw [hj] at e3 hl
      cases e3 with
      | cons hy ht =>
        cases ht
        obtain ⟨n, q⟩ := y
        obtain ⟨rfl, hs⟩ := hy
        refine ⟨aPanel, q, rfl, rfl, ?_, rfl, hs.mask 3 2 _ rfl rfl⟩
        have := (hl ("d", q) (by simp)).1
        simp only at this
        rw [this]
        simp [aPanel]

/-- A configuration with the identity as distortion, or with the saturation level `None`, is read, but what is read cannot be written. -/
theorem unwritable_fails (b : Beam) (eta : V) (c : PanelCfg) (p : Panel) (h : readPanel b eta c = some p)
    (hc : (∃ ps, c.distortion = some ("identity", ps)) ∨ c.saturation = some none) (s : Style) : writePanel s p = none := by
  unfold readPanel at h
  simp only [Option.bind_eq_bind, Option.bind_eq_some_iff, Option.some.injEq] at h
  obtain ⟨buf, -, d, hd, k, -, rfl⟩ := h
  unfold writePanel
  rcases hc with ⟨ps, hc⟩ | hc
  · have : d = some ⟨"identity", none⟩ := by
      rw [hc] at hd
      simpa [readDistortion, getMapping] using hd.symm
    subst this
    simp [writeDistortion]
  · simp only [hc]
    cases writeDistortion d <;> simp

/-- Such configurations are read. -/
theorem unwritable_read (b : Beam) (eta : V) : ∃ c p, readPanel b eta c = some p ∧ c.distortion = some ("identity", []) :=
  ⟨⟨none, 0, 0, 1, 1, (1, 1), none, none, some ("identity", []), none, .none, none, none, none, none⟩, _,
    by simp [readPanel, readBuffer, readDistortion, getMapping, readKind]; rfl, rfl⟩

/-- A single beam that is read with a name of its own comes with the default beam; in the file both are written, and if the name comes
later in the alphabet, the instrument read from the file uses the default beam. -/
theorem named_beam_fails (s : Style) (c : Cfg) (b : BeamCfg) (n : String) (i : Instr) (hc : c.beam = .single b)
    (hn : "XRS1" < n) (hi : read (some n) c = some i) (hp : ∀ e ∈ i.panels, WritablePanel e.2) :
    (i.beams.lookup i.active).map Beam.energy = some b.energy ∧ i.beams.length = 2 ∧
      ∃ c' j, write s i = some c' ∧ read none (stored s c') = some j ∧ (j.beams.lookup j.active).map Beam.energy = some (65351 / 1000) := by
  unfold read at hi
  have hne : "XRS1" ≠ n := ne_of_lt hn
  have hr : readBeams (some n) c.beam = some ([("XRS1", defaultBeam), (n, makeBeam b)], n) := by
    rw [hc]; simp [readBeams, put, defaultName, hne]
  simp only [hr, Option.bind_eq_bind, Option.bind_some] at hi
  obtain ⟨ps, -, hi⟩ := Option.bind_eq_some_iff.1 hi
  simp only [Option.some.injEq] at hi
  have hbeams : i.beams = [("XRS1", defaultBeam), (n, makeBeam b)] := by rw [← hi]
  have hact : i.active = n := by rw [← hi]
  have hd : dot defaultBeam.vector defaultBeam.vector = 1 := by simp [defaultBeam, dot]
  refine ⟨?_, by rw [hbeams]; rfl, ?_⟩
  · rw [hbeams, hact]
    have : (n == "XRS1") = false := by simpa using hne.symm
    simp [List.lookup, this, makeBeam]
  · have hw : Writable i := by
      refine ⟨by rw [hbeams]; simp, Or.inr ?_, ?_, hp⟩
      · rw [hbeams]
        simp only [List.map_cons, List.map_nil, List.mem_cons, List.not_mem_nil, or_false, not_and_or]
        by_cases h : n = "energy"
        · right; rw [h]; decide
        · left; push Not; exact ⟨by decide, fun h' => h h'.symm⟩
      · rw [hbeams]
        simp [hd, makeBeam, calcBeamVec_unit]
    obtain ⟨c', j, h1, h2, -, -, -, -, -, hb, -, -⟩ := round_trip s i hw
    refine ⟨c', j, h1, h2, ?_⟩
    obtain ⟨⟨l, e1, e2, e3⟩, b0, e4⟩ := hb (by rw [hbeams]; simp)
    rw [hbeams] at e1
    generalize j.beams = jb at e3 e4 ⊢
    cases e3 with
    | nil => exact absurd e1.length_eq (by simp)
    | @cons x y l1 l2 hxy _ =>
      simp only [List.head?_cons, Option.some.injEq] at e4
      have hx : x = ("XRS1", defaultBeam) := by
        have hx := e1.mem_iff.1 (List.mem_cons_self (a := x) (l := l1))
        simp only [List.mem_cons, List.not_mem_nil, or_false] at hx
        rcases hx with h | h
        · exact h
        · exfalso
          have hmem : ("XRS1", defaultBeam) ∈ x :: l1 := e1.mem_iff.2 (by simp)
          rcases List.mem_cons.1 hmem with h' | h'
          · rw [h] at h'
            exact hne (congrArg Prod.fst h')
          · have := (List.pairwise_cons.1 e2).1 _ h'
            rw [h] at this
            exact absurd hn (not_lt.2 this)
      subst hx
      subst e4
      have he := hxy.2.energy
      simp only [defaultBeam] at he
      simp [he]

/-- After writing an HDF5 file the instrument has no longer the correction of its active beam; YAML leaves it alone. -/
theorem correction_fails (i : Instr) (b : Beam) (l : Correction) (hb : i.beams.lookup i.active = some b) (hl : b.correction = some l) :
    ((afterWrite .hdf5 i).beams.lookup (afterWrite .hdf5 i).active).map Beam.correction = some (some []) ∧
      afterWrite .yaml i = i := by
  refine ⟨?_, rfl⟩
  simp only [afterWrite, if_true]
  have h : ∀ m : List (String × Beam), m.lookup i.active = some b →
      (m.map fun e => (e.1, { e.2 with correction := e.2.correction.map fun _ => [] })).lookup i.active =
        some { b with correction := some [] } := by
    intro m
    induction m with
    | nil => simp
    | cons e m ih =>
      intro hm
      rw [List.lookup_cons] at hm
      rw [List.map_cons, List.lookup_cons]
      split at hm
      · next h =>
        simp only [Option.some.injEq] at hm
        simp only
        subst hm
        simp [hl]
      · next h =>
        simp only
        exact ih hm
  rw [h _ hb]
  rfl

/-! ### Setters -/

theorem lookup_put {α : Type} (k n : String) (v : α) (l : List (String × α)) :
    (put k v l).lookup n = if n = k then some v else l.lookup n := by
  induction l with
  | nil =>
    by_cases h : n = k
    · simp [put, h]
    · have h1 : (n == k) = false := by simpa using h
      simp [put, List.lookup, h, h1]
  | cons e l ih =>
    unfold put
    by_cases he : e.1 = k
    · rw [if_pos he, List.lookup_cons, List.lookup_cons]
      by_cases h : n = k
      · simp [h]
      · have h1 : (n == k) = false := by simpa using h
        have h2 : (n == e.1) = false := by rw [he]; exact h1
        simp [h1, h2, h]
    · rw [if_neg he, List.lookup_cons, List.lookup_cons, ih]
      by_cases h : n = k
      · subst h
        have : (n == e.1) = false := by simpa using fun h => he h.symm
        simp [this]
      · simp [h]

theorem mem_put {α : Type} (k : String) (v : α) (l : List (String × α)) (e : String × α) (h : e ∈ put k v l) : e = (k, v) ∨ e ∈ l := by
  induction l with
  | nil => simpa [put] using h
  | cons a l ih =>
    unfold put at h
    split at h
    · rcases List.mem_cons.1 h with h | h
      · exact Or.inl h
      · exact Or.inr (List.mem_cons_of_mem _ h)
    · rcases List.mem_cons.1 h with h | h
      · exact Or.inr (by simp [h])
      · rcases ih h with h | h
        · exact Or.inl h
        · exact Or.inr (List.mem_cons_of_mem _ h)

theorem updatePanels_ok (b : Beam) (h1 : 1 - sqrtEps ≤ dot b.vector b.vector) (h2 : Native b.distance) (l : List (String × Panel)) :
    (updatePanels b l).2 = true ∧
      (updatePanels b l).1 = l.map fun e => (e.1, { e.2 with bvec := b.vector, dist := b.distance }) := by
  induction l with
  | nil => exact ⟨rfl, rfl⟩
  | cons e l ih =>
    obtain ⟨n, p⟩ := e
    unfold updatePanels
    rw [if_neg (not_lt.2 h1)]
    cases hd : b.distance with
    | foreign x => rw [hd] at h2; exact absurd h2 (by simp [Native])
    | inf => rw [hd] at ih; exact ⟨ih.1, by simp [ih.2]⟩
    | float x => rw [hd] at ih; exact ⟨ih.1, by simp [ih.2]⟩
    | int x => rw [hd] at ih; exact ⟨ih.1, by simp [ih.2]⟩

theorem changeBeam_spec (f : Beam → Beam) (i : Instr) (hs : Sound i) (hf : Follow i)
    (hb : ∀ b, 1 - sqrtEps ≤ dot b.vector b.vector → Native b.distance →
      1 - sqrtEps ≤ dot (f b).vector (f b).vector ∧ Native (f b).distance) :
    Sound (changeBeam f i).1 ∧ Follow (changeBeam f i).1 ∧ (changeBeam f i).2 = true ∧ (changeBeam f i).1.active = i.active := by
  obtain ⟨b, hl, -⟩ := hf
  have hmem : (i.active, b) ∈ i.beams := by
    obtain ⟨l1, l2, h, -⟩ := List.lookup_eq_some_iff.1 hl
    rw [h]; simp
  obtain ⟨h1, h2⟩ := hb b (hs _ hmem).1 (hs _ hmem).2
  obtain ⟨u1, u2⟩ := updatePanels_ok (f b) h1 h2 i.panels
  unfold changeBeam
  simp only [hl]
  refine ⟨?_, ⟨f b, ?_, ?_⟩, u1, trivial⟩
  · intro e he
    rcases mem_put _ _ _ _ he with rfl | he
    · exact ⟨h1, h2⟩
    · exact hs e he
  · simp [lookup_put]
  · intro e he
    simp only [u2, List.mem_map] at he
    obtain ⟨g, -, rfl⟩ := he
    exact ⟨rfl, rfl⟩

theorem setActive_spec (n : String) (i : Instr) (hs : Sound i) (hf : Follow i) :
    Sound (setActive n i).1 ∧ Follow (setActive n i).1 ∧ (setActive n i).1.beams = i.beams ∧
      ((setActive n i).2 = true ↔ n ∈ i.beams.map Prod.fst) ∧
      (setActive n i).1.active = if n ∈ i.beams.map Prod.fst then n else i.active := by
  unfold setActive
  cases hl : i.beams.lookup n with
  | none =>
    have hn : n ∉ i.beams.map Prod.fst := by
      intro h
      obtain ⟨e, he, rfl⟩ := List.mem_map.1 h
      have := List.lookup_eq_none_iff.1 hl e he
      simp at this
    exact ⟨hs, hf, rfl, by simp [hn], by rw [if_neg hn]⟩
  | some b =>
    have hmem : (n, b) ∈ i.beams := by
      obtain ⟨l1, l2, h, -⟩ := List.lookup_eq_some_iff.1 hl
      rw [h]; simp
    have hn : n ∈ i.beams.map Prod.fst := List.mem_map.2 ⟨_, hmem, rfl⟩
    obtain ⟨u1, u2⟩ := updatePanels_ok b (hs _ hmem).1 (hs _ hmem).2 i.panels
    refine ⟨hs, ⟨b, hl, ?_⟩, rfl, by simp [u1, hn], by rw [if_pos hn]⟩
    intro e he
    simp only [u2, List.mem_map] at he
    obtain ⟨g, -, rfl⟩ := he
    exact ⟨rfl, rfl⟩

/-- Setters that do not give a distance in numbers other than Python's. -/
def Op.Native : Op → Prop
  | .distance d => Spec.Native d
  | _ => True

theorem vector_unit {v : V} (h : |√(dot v v) - 1| ≤ eps) : 1 - sqrtEps ≤ dot v v := by
  have h0 : 0 ≤ dot v v := by unfold dot; nlinarith [mul_self_nonneg (v 0), mul_self_nonneg (v 1), mul_self_nonneg (v 2)]
  have h1 := (abs_le.1 h).1
  have h2 := Real.sq_sqrt h0
  have h3 : (1 : ℝ) - eps ≤ √(dot v v) := by linarith
  have h4 : (0 : ℝ) ≤ 1 - eps := by unfold eps; norm_num
  have h5 : (1 - eps) ^ 2 ≤ dot v v := by rw [← h2]; exact pow_le_pow_left₀ h4 h3 2
  have h6 : 1 - sqrtEps ≤ (1 - eps) ^ 2 := by unfold eps sqrtEps; norm_num
  linarith

theorem run_spec (i : Instr) (o : Op) (hs : Sound i) (hf : Follow i) (ho : o.Native) :
    Sound (run i o).1 ∧ Follow (run i o).1 ∧ ((run i o).1.beams.map Prod.fst) = i.beams.map Prod.fst := by
  have names : ∀ f, ((changeBeam f i).1.beams.map Prod.fst) = i.beams.map Prod.fst := by
    intro f
    obtain ⟨b, hl, -⟩ := hf
    unfold changeBeam
    simp only [hl]
    exact put_names hl
  cases o with
  | energy x =>
    obtain ⟨a, b, -⟩ := changeBeam_spec (fun b => { b with energy := x }) i hs hf fun b h1 h2 => ⟨h1, h2⟩
    exact ⟨a, b, names _⟩
  | active n =>
    obtain ⟨a, b, c, -⟩ := setActive_spec n i hs hf
    exact ⟨a, b, by rw [run, c]⟩
  | angles a p =>
    obtain ⟨a, b, -⟩ := changeBeam_spec (fun b => { b with vector := Calib.calcBeamVec a p }) i hs hf fun b _ h2 =>
      ⟨by simp only [calcBeamVec_unit]; unfold sqrtEps; norm_num, h2⟩
    exact ⟨a, b, names _⟩
  | vector v =>
    simp only [run]
    split
    · exact ⟨hs, hf, rfl⟩
    · next h =>
      obtain ⟨a, b, -⟩ := changeBeam_spec (fun b => { b with vector := v }) i hs hf fun b _ h2 =>
        ⟨vector_unit (not_lt.1 h), h2⟩
      exact ⟨a, b, names _⟩
  | distance d =>
    obtain ⟨a, b, -⟩ := changeBeam_spec (fun b => { b with distance := d }) i hs hf fun b h1 _ => ⟨h1, ho⟩
    exact ⟨a, b, names _⟩
  | correction c =>
    simp only [run]
    split
    · exact ⟨hs, hf, rfl⟩
    · obtain ⟨b, hl, hp⟩ := hf
      simp only [hl]
      have hmem : (i.active, b) ∈ i.beams := by
        obtain ⟨l1, l2, h, -⟩ := List.lookup_eq_some_iff.1 hl
        rw [h]; simp
      refine ⟨?_, ⟨{ b with correction := c }, by simp only [lookup_put, if_true], hp⟩, put_names hl⟩
      intro e he
      rcases mem_put _ _ _ _ he with rfl | he
      · exact hs (i.active, b) hmem
      · exact hs e he
where
  put_names {α : Type} {k : String} {v w : α} {l : List (String × α)} (h : l.lookup k = some w) :
      (put k v l).map Prod.fst = l.map Prod.fst := by
    induction l with
    | nil => simp at h
    | cons e l ih =>
      unfold put
      by_cases he : e.1 = k
      · rw [if_pos he]; simp [he]
      · rw [if_neg he]
        rw [List.lookup_cons] at h
        have : (k == e.1) = false := by simpa using fun h => he h.symm
        rw [this] at h
        simp [ih h]

/-- Whatever is set, and whether or not it raises: every detector has the direction and distance of the active beam. -/
theorem beams_followed (l : List Op) : ∀ i : Instr, Sound i → Follow i → (∀ o ∈ l, o.Native) →
    Sound (runAll l i).1 ∧ Follow (runAll l i).1 ∧ ((runAll l i).1.beams.map Prod.fst) = i.beams.map Prod.fst := by
  induction l with
  | nil => intro i hs hf _; exact ⟨hs, hf, rfl⟩
  | cons o l ih =>
    intro i hs hf ho
    obtain ⟨h1, h2, h3⟩ := run_spec i o hs hf (ho o (by simp))
    unfold runAll
    split
    · obtain ⟨a, b, c⟩ := ih _ h1 h2 fun o' h' => ho o' (by simp [h'])
      exact ⟨a, b, c.trans h3⟩
    · exact ⟨h1, h2, h3⟩

/-- After a block with another source the active beam is the one from before, also if the block raises; it raises exactly if the
block does or there is no such source. -/
theorem switch_restores (n : String) (body : List Op) (i : Instr) (hs : Sound i) (hf : Follow i) (hb : ∀ o ∈ body, o.Native) :
    (switch (some n) body i).1.active = i.active ∧ Follow (switch (some n) body i).1 ∧
      ((switch (some n) body i).2 = true ↔ n ∈ i.beams.map Prod.fst ∧ (runAll body (setActive n i).1).2 = true) := by
  obtain ⟨a1, a2, a3, a4, a5⟩ := setActive_spec n i hs hf
  unfold switch
  simp only
  by_cases h : n ∈ i.beams.map Prod.fst
  · rw [if_pos (a4.2 h)]
    obtain ⟨b1, b2, b3⟩ := beams_followed body _ a1 a2 hb
    obtain ⟨-, c2, -, c4, c5⟩ := setActive_spec i.active (runAll body (setActive n i).1).1 b1 b2
    have hact : i.active ∈ (runAll body (setActive n i).1).1.beams.map Prod.fst := by
      rw [b3, a3]
      obtain ⟨b, hl, -⟩ := hf
      obtain ⟨l1, l2, h, -⟩ := List.lookup_eq_some_iff.1 hl
      rw [h]; simp
    rw [if_pos hact] at c5
    exact ⟨c5, c2, by simp [c4.2 hact, h]⟩
  · have h' : (setActive n i).2 = false := by
      cases hx : (setActive n i).2 with
      | false => rfl
      | true => exact absurd (a4.1 hx) h
    rw [if_neg (by simp [h'])]
    rw [if_neg h] at a5
    exact ⟨a5, a2, by simp [h]⟩

/-- What is read follows its active beam. -/
theorem read_follow (name : Option String) (c : Cfg) (i : Instr) (h : read name c = some i) (hne : c.detectors ≠ []) : Follow i := by
  unfold read at h
  simp only [Option.bind_eq_bind, Option.bind_eq_some_iff, Option.some.injEq] at h
  obtain ⟨⟨beams, active⟩, -, ps, hps, rfl⟩ := h
  have key : ∀ (l : List (String × PanelCfg)) (ps : List (String × Panel)), l.mapM (fun e => (beams.lookup active).bind fun b =>
      (readPanel b ![1, 0, 0] e.2).bind fun p => some (e.1, p)) = some ps →
      (∀ e ∈ ps, ∃ b, beams.lookup active = some b ∧ e.2.bvec = b.vector ∧ e.2.dist = b.distance) ∧ ps.length = l.length := by
    intro l
    induction l with
    | nil => intro ps h; simp at h; subst h; simp
    | cons a l ih =>
      intro ps h
      simp only [List.mapM_cons, Option.bind_eq_bind, Option.bind_eq_some_iff, Option.pure_def, Option.some.injEq] at h
      obtain ⟨x, ⟨b, hb, p, hp, rfl⟩, qs, hq, rfl⟩ := h
      obtain ⟨i1, i2⟩ := ih qs hq
      refine ⟨?_, by simp [i2]⟩
      intro e he
      rcases List.mem_cons.1 he with rfl | he
      · refine ⟨b, hb, ?_⟩
        unfold readPanel at hp
        simp only [Option.bind_eq_bind, Option.bind_eq_some_iff, Option.some.injEq] at hp
        obtain ⟨_, -, _, -, _, -, rfl⟩ := hp
        exact ⟨rfl, rfl⟩
      · exact i1 e he
  obtain ⟨k1, k2⟩ := key c.detectors ps hps
  cases ps with
  | nil => exact absurd (List.length_eq_zero_iff.1 k2.symm) hne
  | cons e ps =>
    obtain ⟨b, hb, -⟩ := k1 e (by simp)
    refine ⟨b, hb, fun e he => ?_⟩
    obtain ⟨b', hb', h⟩ := k1 e he
    rw [hb] at hb'
    cases hb'
    exact h

/-- A distance in numpy's integers: the setter raises, but the beam has the new distance and the detectors the old one. -/
theorem foreign_distance_fails (i : Instr) (hs : Sound i) (hf : Follow i) (hp : i.panels ≠ []) (x : ℝ) :
    (run i (.distance (.foreign x))).2 = false ∧ ¬ Follow (run i (.distance (.foreign x))).1 := by
  obtain ⟨b, hl, hb⟩ := hf
  have hmem : (i.active, b) ∈ i.beams := by
    obtain ⟨l1, l2, h, -⟩ := List.lookup_eq_some_iff.1 hl
    rw [h]; simp
  obtain ⟨⟨n, p⟩, l, hpl⟩ := List.exists_cons_of_ne_nil hp
  have hd := (hb (n, p) (by rw [hpl]; simp)).2
  simp only at hd
  have hv := not_lt.2 (hs _ hmem).1
  simp only at hv
  unfold run changeBeam
  simp only [hl, hpl, updatePanels, if_neg hv]
  refine ⟨trivial, ?_⟩
  rintro ⟨b', h1, h2⟩
  simp only [lookup_put, if_true, Option.some.injEq] at h1
  subst h1
  have := (h2 (n, { p with bvec := b.vector }) (by simp)).2
  simp only at this
  rw [hd] at this
  have hn := (hs _ hmem).2
  simp only at hn
  rw [this] at hn
  exact hn

/-- An instrument with a source distance that is a Python int: after it went through an HDF5 file no beam energy can be set without an
exception. -/
theorem int_distance_fails (i : Instr) (m : String) (b : Beam) (x : ℤ) (h : Writable i) (hb : i.beams = [(m, b)]) (hx : b.distance = .int x)
    (hp : i.panels ≠ []) : ∃ c j, write .hdf5 i = some c ∧ read none (stored .hdf5 c) = some j ∧
      ∀ e, (run j (.energy e)).2 = false := by
  obtain ⟨c, j, h1, h2, -, -, -, ⟨l, e1, -, e3⟩, h3, -, -, -⟩ := round_trip .hdf5 i h
  refine ⟨c, j, h1, h2, fun e => ?_⟩
  obtain ⟨ha, b', hbs, hsame, hd⟩ := h3 m b hb
  rw [hx] at hd
  have hd' : b'.distance = .foreign x := by rw [hd]; simp [Dist.stored]
  have hu : dot b'.vector b'.vector = 1 := by rw [hsame.vector]; exact h.unit (m, b) (by rw [hb]; simp)
  have hj : j.panels ≠ [] := by
    intro hj
    rw [hj] at e3
    cases e3
    exact hp e1.nil_eq.symm
  obtain ⟨⟨n, p⟩, t, hpt⟩ := List.exists_cons_of_ne_nil hj
  have hv : ¬ (1 : ℝ) < 1 - sqrtEps := by unfold sqrtEps; norm_num
  unfold run changeBeam
  simp [hbs, ha, hpt, updatePanels, hu, hv, hd']

/-! ### Cases -/

/-- The instrument of the examples satisfies the invariant, with a detector. -/
example : Sound anInstr ∧ Follow anInstr ∧ anInstr.panels ≠ [] := by
  refine ⟨?_, ⟨_, rfl, ?_⟩, by simp [anInstr]⟩
  · have : 0 ≤ sqrtEps := by unfold sqrtEps; norm_num
    simp [Sound, anInstr, dot, Native, this]
  · simp [anInstr, aPanel]

/-- One beam with an integer distance. -/
example : ∃ i : Instr, Writable i ∧ i.beams = [("x", ⟨1, ![0, 0, -1], .int 1000, none⟩)] ∧ i.panels ≠ [] :=
  ⟨⟨"i", [("x", ⟨1, ![0, 0, -1], .int 1000, none⟩)], "x", 0, 0, ![1, 0, 0], [("d", aPanel)]⟩,
    ⟨by simp, by simp, by simp [dot], by simp [aPanel_writable]⟩, rfl, by simp⟩

/-- A single beam with the name "b". -/
example : ∃ i, read (some "b") ⟨none, .single ⟨80, 90, 90, none, none⟩, 0, 0, []⟩ = some i ∧ "XRS1" < "b" :=
  ⟨_, by simp [read, readBeams]; rfl, by decide⟩

/-! ### Reading a border and a region of interest -/

/-- **C158** one number as the border stands for that border on both sides. -/
theorem scalar_buffer (b : Beam) (eta : V) (c : PanelCfg) (x : ℝ) (p : Panel) (hc : c.buffer = .scalar x) (h : readPanel b eta c = some p) :
    p.buffer = .vec [x, x] := by
  unfold readPanel at h
  rw [hc] at h
  simp only [readBuffer, Option.bind_eq_bind, Option.bind_some] at h
  obtain ⟨d, -, h⟩ := Option.bind_eq_some_iff.1 h
  obtain ⟨k, -, h⟩ := Option.bind_eq_some_iff.1 h
  rw [Option.some.injEq] at h
  rw [← h]

/-- **C158** a region of interest starts where the file says and is as large as the detector. -/
theorem region_span (b : Beam) (eta : V) (c : PanelCfg) (p : Panel) (h : readPanel b eta c = some p) :
    p.roi = c.roi.map fun r => ((r.1, r.1 + c.rows), (r.2, r.2 + c.cols)) := by
  unfold readPanel at h
  simp only [Option.bind_eq_bind] at h
  obtain ⟨q, -, h⟩ := Option.bind_eq_some_iff.1 h
  obtain ⟨d, -, h⟩ := Option.bind_eq_some_iff.1 h
  obtain ⟨k, -, h⟩ := Option.bind_eq_some_iff.1 h
  rw [Option.some.injEq] at h
  rw [← h]

/-- A configuration with one number as the border and with a region of interest is read. -/
example (b : Beam) (eta : V) : ∃ c p, readPanel b eta c = some p ∧ c.buffer = .scalar 2 ∧ c.roi = some (3, 4) :=
  ⟨⟨none, 0, 0, 1, 1, (1, 1), some (3, 4), none, none, none, .scalar 2, none, none, none, none⟩, _,
    by simp [readPanel, readBuffer, readDistortion, readKind]; rfl, rfl, rfl⟩

end Hexrd.InstrFile
