import Verif.Props.LaueSim
import Mathlib.Analysis.Real.Pi.Bounds

/-!
C129, the sign of a reported reflection; C130, the residual of the Laue calibrator.
-/

namespace Hexrd.LaueSim

open Matrix Hexrd.Transforms Hexrd.Transforms.Spec Hexrd.Simulate Hexrd.Detector Spec

variable {s : Scene} {g : Grain} {bh : V}

/-- The reciprocal lattice vector of a reflection that diffracts points against the beam. -/
theorem diffracting_side {d q : V} {lam : ℝ} (hb : dot bh bh = 1) (hq : q ≠ 0) (h : LaueEquation bh d q lam) :
    bh ⬝ᵥ q < 0 := by
  have hq' : 0 < dot q q := lt_of_le_of_ne (dot_self_nonneg q) fun h0 => hq (dot_self_eq_zero h0.symm)
  rw [← dot_eq]
  exact (laue_unique hb hq' h).1

theorem long_ne {h : V} (hl : Long s g h) : lab s g h ≠ 0 := by
  intro h0
  have := long_pos hl
  rw [h0] at this
  simp [dot] at this

/-- C129: for plane data of a crystal that is neither rotated nor strained, on a detector that knows the beam, every
reported reflection satisfies Laue's equation itself. -/
theorem label_unrotated (w : WellPosed s g bh) (hs : s.rs = 1) (he : g.expmap = 0)
    (hv : g.vInv = ![1, 1, 1, 0, 0, 0]) (hbv : s.bvec = bh) {all : List V} {out : List (Option Spot)}
    (hsim : simulateGrain s g (towards s all) = some out) {sp : Spot} (hm : some sp ∈ out) (hl : Long s g sp.hkl) :
    ∃ d lam, LaueEquation bh d (lab s g sp.hkl) lam := by
  obtain ⟨hmem, d, lam, xy, frame, hla, -⟩ := reported_spot w hsim hm hl
  rcases hla with h | h
  · exact ⟨d, lam, h⟩
  · exfalso
    have e1 : lab s g (-sp.hkl) = -lab s g sp.hkl := labVector_neg _ _ _ _ _
    rw [e1] at h
    have h1 := diffracting_side (beam_dot w) (neg_ne_zero.2 (long_ne hl)) h
    rw [dotProduct_neg] at h1
    have h2 := (List.mem_filter.1 hmem).2
    rw [decide_eq_true_eq, hbv] at h2
    have h3 : lab s g sp.hkl = mulV s.bmat sp.hkl := by
      have hr : g.rc = 1 := by rw [Grain.rc, he]; exact expmap_zero
      have ht : tensorOf g.vInv = 1 := by
        rw [hv]; ext i j; fin_cases i <;> fin_cases j <;> simp [tensorOf]
      simp only [lab, labVector, hs, hr, ht, Matrix.one_mulVec, mulV_eq]
    rw [h3, ← dot_eq, dot_comm] at h1
    linarith

/-- C129: plane data hold a reflection together with its opposite, and one of the two is reported, at the right place
and with the right energy, whenever one of the two diffracts onto the panel within the energy window. -/
theorem friedel_reported (w : WellPosed s g bh) {all : List V} (hall : ∀ h ∈ all, -h ∈ all)
    {out : List (Option Spot)} (hsim : simulateGrain s g (towards s all) = some out) {h : V} (hh : h ∈ all)
    (hl : Long s g h) {d : V} {lam : ℝ} (hla : LaueEquation bh d (lab s g h) lam) {e : ℝ} (he : Photon e lam)
    (hwin : ∃ x ∈ s.windows, x.1 ≤ e ∧ e ≤ x.2) {xy : ℝ × ℝ}
    (hits : Hits s.rd s.td (crystalPosition s.rs s.ts g.tc) d xy) (hpar : (fun i => s.rd i 2) ⬝ᵥ d ≠ 0)
    (hon : onPanel s.panel s.buf true (s.unwarp xy) = true) (hfr : beamRmat s.beam etaVec ≠ none) :
    ∃ sp, some sp ∈ out ∧ (sp.hkl = h ∨ sp.hkl = -h) ∧ sp.xy = s.unwarp xy ∧ sp.energy = e := by
  have e1 : lab s g (-h) = -lab s g h := labVector_neg _ _ _ _ _
  by_cases hd : dot (mulV s.bmat h) s.bvec ≤ 0
  · obtain ⟨sp, h1, h2, h3⟩ := every_spot_reported w hsim (h := h)
      (List.mem_filter.2 ⟨hh, by simpa using hd⟩) hl (Or.inl hla) he hwin hits hpar hon hfr
    exact ⟨sp, h1, Or.inl h2, h3⟩
  · have hd' : dot (mulV s.bmat (-h)) s.bvec ≤ 0 := by
      have : mulV s.bmat (-h) = -mulV s.bmat h := by simp [mulV_eq, mulVec_neg]
      rw [this]
      simp only [dot, Pi.neg_apply] at hd ⊢
      linarith
    obtain ⟨sp, h1, h2, h3⟩ := every_spot_reported w hsim (h := -h)
      (List.mem_filter.2 ⟨hall h hh, by simpa using hd'⟩)
      (by rw [Long, e1]; simpa [Long] using hl) (Or.inr (by rw [neg_neg]; exact hla)) he hwin hits hpar hon hfr
    exact ⟨sp, h1, Or.inr h2, h3⟩

/-! ### A concrete scene -/

/-- A panel four metres wide one metre downstream, unit reciprocal lattice, stage at `ts`. -/
noncomputable def demo (ts : V) : Scene :=
  { panel := ⟨4000, 4000, 1, 1⟩, buf := .none, unwarp := id, rd := 1, td := ![0, 0, -1000], bvec := ![0, 0, -1],
    rs := 1, ts := ts, beam := ![0, 0, -1], bmat := 1, windows := [(5, 35)] }

/-- A strain free grain at the origin of the stage, turned by `a` about the first axis. -/
noncomputable def demoGrain (a : ℝ) : Grain := ⟨![a, 0, 0], 0, ![1, 1, 1, 0, 0, 0]⟩

theorem demo_wellPosed (a t : ℝ) : WellPosed (demo ![t, 0, 0]) (demoGrain a) ![0, 0, -1] where
  beam := ⟨by rw [IsUnit3, ← dot_eq]; simp [dot], 1, one_pos, by simp [demo]⟩
  resolved := resolved_default
  rd := isRotation_one
  rs := isRotation_one
  off := by
    rw [← dot_eq]
    simp [demo, demoGrain, crystalPosition, dot, epsf]
    norm_num
  energies := by intro w hw; simp [demo] at hw; subst hw; norm_num

theorem demo_lab (a t : ℝ) (h : V) : lab (demo ![t, 0, 0]) (demoGrain a) h = rotX a *ᵥ h := by
  have ht : tensorOf (demoGrain a).vInv = 1 := by
    ext i j; fin_cases i <;> fin_cases j <;> simp [tensorOf, demoGrain]
  have hr : (demoGrain a).rc = rotX a := expmapRmat_x a
  simp only [lab, labVector, ht, hr]
  simp [demo]

theorem demo_frame (t : V) : beamRmat (demo t).beam etaVec ≠ none := by
  show beamRmat ![0, 0, -1] ![1, 0, 0] ≠ none
  rw [beamRmat_default]; simp

/-- The photon energy of the reflection of the concrete scene, about 31 keV. -/
noncomputable def demoEnergy : ℝ := Units.keVToAngstrom (2 / 5)

theorem demo_reported (a t : ℝ) (ht : |t| ≤ 1) {ws : List (ℝ × ℝ)} (hws : ∀ w ∈ ws, 0 < w.1 ∧ 0 < w.2)
    (hin : (5 / 2, 105 / 2) ∈ ws ∨ (5, 35) ∈ ws) {hkls : List V} {h : V} (hh : h ∈ hkls)
    (hq : rotX a *ᵥ h = ![-2, 0, 1] ∨ rotX a *ᵥ h = ![2, 0, -1]) {out : List (Option Spot)}
    (hsim : simulateGrain { demo ![t, 0, 0] with windows := ws } (demoGrain a) hkls = some out) :
    ∃ sp, some sp ∈ out ∧ sp.hkl = h ∧ sp.xy = (t - 4000 / 3, 0) ∧ sp.energy = demoEnergy := by
  have w : WellPosed { demo ![t, 0, 0] with windows := ws } (demoGrain a) ![0, 0, -1] :=
    { demo_wellPosed a t with energies := hws }
  have hlab : ∀ k, lab { demo ![t, 0, 0] with windows := ws } (demoGrain a) k = rotX a *ᵥ k := fun k => demo_lab a t k
  have hen : Photon demoEnergy (2 / 5) := hc_eq _ (by norm_num)
  have hll : LaueEquation ![0, 0, -1] ![-4 / 5, 0, -3 / 5] ![-2, 0, 1] (2 / 5) := by
    refine ⟨by rw [IsUnit3, ← dot_eq]; simp [dot]; norm_num, by norm_num, ?_⟩
    ext i; fin_cases i <;> norm_num
  have hq2 : rotX a *ᵥ h ⬝ᵥ rotX a *ᵥ h = 5 := by
    rcases hq with h | h <;> rw [h, ← dot_eq] <;> simp [dot] <;> norm_num
  refine every_spot_reported (s := { demo ![t, 0, 0] with windows := ws }) (g := demoGrain a) w hsim hh (h := h)
    (d := ![-4 / 5, 0, -3 / 5]) (lam := 2 / 5) (e := demoEnergy) (xy := (t - 4000 / 3, 0)) ?_ ?_ hen ?_ ?_ ?_ ?_ ?_
  · rw [Long, hlab, hq2]
    refine lt_of_lt_of_le (b := 1) (by unfold Rotations.tenEps; norm_num) ?_
    rw [Real.one_le_sqrt]; norm_num
  · rcases hq with h1 | h1
    · left; rw [hlab, h1]; exact hll
    · right
      rw [hlab, mulVec_neg, h1]
      convert hll using 1
      ext i; fin_cases i <;> simp
  · rcases hin with hi | hi
    · refine ⟨_, hi, ?_, ?_⟩ <;> simp only [demoEnergy, Units.keVToAngstrom] <;> norm_num
    · refine ⟨_, hi, ?_, ?_⟩ <;> simp only [demoEnergy, Units.keVToAngstrom] <;> norm_num
  · refine ⟨5000 / 3, by norm_num, ?_⟩
    ext i
    fin_cases i <;> simp [demo, demoGrain, crystalPosition, Matrix.one_apply]
    · ring
    · norm_num
  · rw [← dot_eq]; simp [demo, dot]
  · have := abs_le.1 ht
    simp [demo, onPanel, Panel.colDim, Panel.rowDim]
    constructor <;> linarith
  · exact demo_frame ![t, 0, 0]

/-- C129: on a crystal turned by half a turn about the first axis, the reflection (2 0 1) is reported although it does
not diffract, while (-2 0 -1), which diffracts at the same point, is not reported: the two opposite reflections are
told apart before the crystal is turned. -/
theorem label_fails : ∃ (s : Scene) (g : Grain) (all : List V) (out : List (Option Spot)),
    WellPosed s g s.bvec ∧ (∀ h ∈ all, -h ∈ all) ∧ simulateGrain s g (towards s all) = some out ∧
    (∃ sp, some sp ∈ out ∧ sp.hkl = ![2, 0, 1]) ∧
    (¬ ∃ d lam, LaueEquation s.bvec d (lab s g ![2, 0, 1]) lam) ∧
    (∃ d lam, LaueEquation s.bvec d (lab s g ![-2, 0, -1]) lam) ∧ ∀ sp, some sp ∈ out → sp.hkl ≠ ![-2, 0, -1] := by
  have hneg : -(![2, 0, 1] : V) = ![-2, 0, -1] := by ext i; fin_cases i <;> simp
  have hneg' : -(![-2, 0, -1] : V) = ![2, 0, 1] := by ext i; fin_cases i <;> simp
  have ht : towards (demo ![0, 0, 0]) [![2, 0, 1], ![-2, 0, -1]] = [![2, 0, 1]] := by
    have a1 : dot (mulV (demo ![0, 0, 0]).bmat ![2, 0, 1]) (demo ![0, 0, 0]).bvec ≤ 0 := by
      simp [demo, mulV, dot]
    have a2 : ¬ dot (mulV (demo ![0, 0, 0]).bmat ![-2, 0, -1]) (demo ![0, 0, 0]).bvec ≤ 0 := by
      simp [demo, mulV, dot]
    simp only [towards, List.filter_cons, a1, a2, decide_true, decide_false, if_true, Bool.false_eq_true, if_false,
      List.filter_nil]
  have hp : rotX Real.pi *ᵥ ![2, 0, 1] = ![2, 0, -1] := by
    ext i; fin_cases i <;> simp [rotX, Matrix.mulVec, dotProduct, Fin.sum_univ_three]
  have hb1 : dot (demo ![0, 0, 0]).bvec (demo ![0, 0, 0]).bvec = 1 := by simp [demo, dot]
  obtain ⟨out, hout⟩ := simulate_defined (demo ![0, 0, 0]) (demoGrain Real.pi) [![2, 0, 1]]
    (rb := 1) beamRmat_default
  refine ⟨demo ![0, 0, 0], demoGrain Real.pi, [![2, 0, 1], ![-2, 0, -1]], out, demo_wellPosed _ 0, ?_, ?_, ?_, ?_, ?_, ?_⟩
  · intro h hh
    simp only [List.mem_cons, List.not_mem_nil, or_false] at hh ⊢
    rcases hh with rfl | rfl
    · right; exact hneg
    · left; exact hneg'
  · rw [ht]; exact hout
  · obtain ⟨sp, h1, h2, -⟩ := demo_reported Real.pi 0 (by simp) (ws := [(5, 35)]) (by simp) (by simp)
      (hkls := [![2, 0, 1]]) (h := ![2, 0, 1]) (by simp) (Or.inr hp) hout
    exact ⟨sp, h1, h2⟩
  · rintro ⟨d, lam, h⟩
    rw [demo_lab, hp] at h
    have := diffracting_side hb1 (by intro h0; have := congrFun h0 0; simp at this) h
    rw [← dot_eq] at this
    simp [demo, dot] at this
    linarith
  · refine ⟨![-4 / 5, 0, -3 / 5], 2 / 5, ?_⟩
    rw [demo_lab, ← hneg, mulVec_neg, hp]
    refine ⟨by rw [IsUnit3, ← dot_eq]; simp [dot]; norm_num, by norm_num, ?_⟩
    ext i; fin_cases i <;> simp [demo] <;> norm_num
  · intro sp hsp h
    have := (reported_order hout).2
    have hm : sp.hkl ∈ (out.filterMap id).map Spot.hkl := List.mem_map.2 ⟨sp, by simpa using hsp, rfl⟩
    have := this.subset hm
    rw [h, List.mem_singleton] at this
    have := congrFun this 0
    norm_num at this

/-! ### The residual -/

/-- The simulation of the reflection alone puts it at `xy`. -/
def Predicted (s : Scene) (g : Grain) (h : V) (xy : ℝ × ℝ) : Prop :=
  ∃ sp, simulateGrain s g [h] = some [some sp] ∧ sp.xy = xy

/-- The simulation of the reflection alone reports nothing. -/
def NotPredicted (s : Scene) (g : Grain) (h : V) : Prop := simulateGrain s g [h] = some [none]

theorem kept_of_predicted {h : V} {xy : ℝ × ℝ} (hp : Predicted s g h xy) :
    ∃ rb, beamRmat s.beam etaVec = some rb ∧ ∃ sp, kept s g rb h = some sp ∧ sp.xy = xy := by
  obtain ⟨sp, h1, h2⟩ := hp
  obtain ⟨rb, h', hrb, hm, hk⟩ := mem_kept h1 (sp := sp) (by simp)
  rw [List.mem_singleton] at hm
  exact ⟨rb, hrb, sp, by rw [← hm]; exact hk, h2⟩

theorem kept_of_not {h : V} (hp : NotPredicted s g h) {rb : M} (hrb : beamRmat s.beam etaVec = some rb) :
    kept s g rb h = none := by
  have := (simulate_rows hp).1 rb hrb
  cases hk : kept s g rb h with
  | none => rfl
  | some sp => simp [hk] at this

/-- With a beam frame, the predicted points are those of the reported reflections, in order. -/
theorem predicted_eq {rb : M} (hrb : beamRmat s.beam etaVec = some rb) (hkls : List V) :
    predicted s g hkls = some (hkls.filterMap fun h => (kept s g rb h).map Spot.xy) := by
  obtain ⟨out, ho⟩ := simulate_defined s g hkls hrb
  rw [predicted, ho, Option.map_some, Option.some.injEq]
  have h1 := (simulate_rows ho).1 rb hrb
  have h2 : (out.filterMap fun r => r.map Spot.xy) = (out.filterMap id).map Spot.xy := by
    rw [List.map_filterMap]; rfl
  rw [h2, h1, List.map_filterMap]

theorem predicted_nil (s : Scene) (g : Grain) : predicted s g [] = some [] := rfl

theorem predicted_all {l : List (V × (ℝ × ℝ))} {pos : V → ℝ × ℝ} (h : ∀ q ∈ l, Predicted s g q.1 (pos q.1)) :
    predicted s g (l.map Prod.fst) = some (l.map fun q => pos q.1) := by
  cases l with
  | nil => rfl
  | cons q l =>
    obtain ⟨rb, hrb, -⟩ := kept_of_predicted (h q (by simp))
    rw [predicted_eq hrb, Option.some.injEq, List.filterMap_map, ← List.filterMap_eq_map]
    apply List.filterMap_congr
    intro x hx
    obtain ⟨rb', hrb', sp, h1, h2⟩ := kept_of_predicted (h x hx)
    rw [hrb, Option.some.injEq] at hrb'
    subst hrb'
    simp [h1, h2]

/-- The picks with a point. -/
def valid (p : Picks) : List (V × (ℝ × ℝ)) := p.filterMap fun q => q.2.map fun xy => (q.1, xy)

theorem mem_valid {p : Picks} {q : V × (ℝ × ℝ)} : q ∈ valid p ↔ (q.1, some q.2) ∈ p := by
  simp only [valid, List.mem_filterMap, Option.map_eq_some_iff]
  constructor
  · rintro ⟨a, ha, xy, hxy, rfl⟩
    simp only
    rw [← hxy]; exact ha
  · intro h
    exact ⟨_, h, q.2, rfl, rfl⟩

theorem mapM_some_map {α β : Type} {f : α → Option β} {k : α → β} {l : List α} (h : ∀ a ∈ l, f a = some (k a)) :
    l.mapM f = some (l.map k) := by
  induction l with
  | nil => simp
  | cons a l ih =>
    simp [List.mapM_cons, h a (by simp), ih fun x hx => h x (List.mem_cons_of_mem _ hx)]

theorem subRows_eq {α : Type} (l : List α) (a b : α → ℝ × ℝ) :
    subRows (l.map a) (l.map b) = some (l.map fun x => ((a x).1 - (b x).1, (a x).2 - (b x).2)) := by
  unfold subRows
  rw [if_pos (by simp), Option.some.injEq, List.zipWith_map, List.zipWith_self]

theorem flatten_pairs {α β γ : Type} (l : List α) (v : α → List β) (k : α → β → γ) :
    (l.map fun d => (v d).map (k d)).flatten =
      (l.flatMap fun d => (v d).map fun q => (d, q)).map fun x => k x.1 x.2 := by
  induction l with
  | nil => rfl
  | cons d l ih =>
    simp only [List.map_cons, List.flatten_cons, List.flatMap_cons, List.map_append, List.map_map, ih]
    rfl

/-- C130: when every picked reflection is predicted on the detector it was picked on, the residual is the list of the
differences between the predicted and the picked point of each pick that has one, detector by detector, in the order of
the picks. -/
theorem residual_pairs (dets : List (Scene × Picks)) (g : Grain) (cutoffs : ℝ × ℝ) (pos : Scene → V → ℝ × ℝ)
    (hne : ∀ d ∈ dets, d.2 ≠ [])
    (hp : ∀ d ∈ dets, ∀ h xy, (h, some xy) ∈ d.2 → Predicted (objectiveScene d.1 cutoffs) g h (pos d.1 h)) :
    residual dets g cutoffs = some (dets.flatMap fun d => d.2.filterMap fun q =>
      q.2.map fun xy => ((pos d.1 q.1).1 - xy.1, (pos d.1 q.1).2 - xy.2)) := by
  have h1 : dets.mapM (fun d => (evaluate d.2).map fun p => (objectiveScene d.1 cutoffs, p)) =
      some (dets.map fun d => (objectiveScene d.1 cutoffs, valid d.2)) := by
    apply mapM_some_map
    intro d hd
    rw [evaluate, if_neg (by simpa using hne d hd)]
    rfl
  have h2 : (dets.map fun d => (objectiveScene d.1 cutoffs, valid d.2)).mapM
      (fun d => predicted d.1 g (d.2.map Prod.fst)) =
      some (dets.map fun d => (valid d.2).map fun q => pos d.1 q.1) := by
    have : ∀ l : List (Scene × Picks), (∀ d ∈ l, d ∈ dets) →
        (l.map fun d => (objectiveScene d.1 cutoffs, valid d.2)).mapM (fun d => predicted d.1 g (d.2.map Prod.fst)) =
        some (l.map fun d => (valid d.2).map fun q => pos d.1 q.1) := by
      intro l
      induction l with
      | nil => intro _; simp
      | cons d l ih =>
        intro hl
        have e := predicted_all (s := objectiveScene d.1 cutoffs) (g := g) (l := valid d.2) (pos := pos d.1)
          (fun q hq => hp d (hl d (by simp)) q.1 q.2 (mem_valid.1 hq))
        simp [List.mapM_cons, e, ih fun x hx => hl x (List.mem_cons_of_mem _ hx)]
    exact this dets fun _ h => h
  simp only [residual, h1, h2, Option.bind_eq_bind, Option.bind_some]
  have h3 := flatten_pairs dets (fun d => valid d.2) (fun d q => pos d.1 q.1)
  have h4 := flatten_pairs dets (fun d => valid d.2) (fun _ q => q.2)
  have h5 := flatten_pairs dets (fun d => valid d.2)
    (fun d q => ((pos d.1 q.1).1 - q.2.1, (pos d.1 q.1).2 - q.2.2))
  simp only [List.map_map, Function.comp_def] at h3 h4 ⊢
  rw [h3, h4, subRows_eq, Option.some.injEq, ← h5, List.flatMap_def]
  congr 2
  funext d
  rw [valid, List.map_filterMap]
  congr 1
  funext q
  cases q.2 <;> rfl

/-- C130: the residual vanishes exactly when every pick is where it is predicted. -/
theorem residual_zero_iff (dets : List (Scene × Picks)) (g : Grain) (cutoffs : ℝ × ℝ) (pos : Scene → V → ℝ × ℝ)
    (hne : ∀ d ∈ dets, d.2 ≠ [])
    (hp : ∀ d ∈ dets, ∀ h xy, (h, some xy) ∈ d.2 → Predicted (objectiveScene d.1 cutoffs) g h (pos d.1 h)) :
    (∃ rows, residual dets g cutoffs = some rows ∧ ∀ r ∈ rows, r = (0, 0)) ↔
      ∀ d ∈ dets, ∀ h xy, (h, some xy) ∈ d.2 → pos d.1 h = xy := by
  rw [residual_pairs dets g cutoffs pos hne hp]
  constructor
  · rintro ⟨rows, hr, h0⟩ d hd h xy hm
    rw [Option.some.injEq] at hr
    subst hr
    have := h0 ((pos d.1 h).1 - xy.1, (pos d.1 h).2 - xy.2) (by
      rw [List.mem_flatMap]
      exact ⟨d, hd, List.mem_filterMap.2 ⟨(h, some xy), hm, rfl⟩⟩)
    simp only [Prod.mk.injEq] at this
    exact Prod.ext (by linarith [this.1]) (by linarith [this.2])
  · intro h
    refine ⟨_, rfl, ?_⟩
    intro r hr
    rw [List.mem_flatMap] at hr
    obtain ⟨d, hd, hr⟩ := hr
    rw [List.mem_filterMap] at hr
    obtain ⟨⟨hkl, o⟩, hm, hr⟩ := hr
    cases o with
    | none => simp at hr
    | some xy =>
      have := h d hd hkl xy hm
      simp only [Option.map_some, Option.some.injEq] at hr
      rw [← hr, this]
      simp

/-- C130: but when of several picks on a detector only one is predicted, no error is raised: every pick, also of the
other reflections, is compared with the one predicted point. -/
theorem residual_one_predicted (s : Scene) (g : Grain) (cutoffs : ℝ × ℝ) {h : V} {p xy : ℝ × ℝ}
    (hp : Predicted (objectiveScene s cutoffs) g h p) (others : List (V × (ℝ × ℝ)))
    (hn : ∀ q ∈ others, NotPredicted (objectiveScene s cutoffs) g q.1) :
    residual [(s, (h, some xy) :: others.map fun q => (q.1, some q.2))] g cutoffs =
      some ((p.1 - xy.1, p.2 - xy.2) :: others.map fun q => (p.1 - q.2.1, p.2 - q.2.2)) := by
  obtain ⟨rb, hrb, sp, hk, hxy⟩ := kept_of_predicted hp
  have hv : ((h, some xy) :: others.map fun q => (q.1, some q.2)).filterMap
      (fun q : V × Option (ℝ × ℝ) => q.2.map fun xy => (q.1, xy)) = (h, xy) :: others := by
    simp [List.filterMap_map, Function.comp_def]
  have hpred : predicted (objectiveScene s cutoffs) g (h :: others.map Prod.fst) = some [p] := by
    rw [predicted_eq hrb, List.filterMap_cons, hk]
    simp only [Option.map_some, hxy, Option.some.injEq, List.cons.injEq, true_and]
    rw [List.filterMap_eq_nil_iff]
    intro k hkm
    obtain ⟨q, hq, rfl⟩ := List.mem_map.1 hkm
    rw [kept_of_not (hn q hq) hrb]; rfl
  simp only [residual, List.mapM_cons, List.mapM_nil, evaluate, List.isEmpty_cons, Bool.false_eq_true, if_false, hv,
    Option.map_some, Option.pure_def, Option.bind_eq_bind, Option.bind_some, List.map_cons, hpred, List.flatten_cons,
    List.map_nil, List.flatten_nil, List.append_nil]
  unfold subRows
  split
  · rename_i hl
    simp only [List.length_cons, List.length_nil, List.length_map] at hl
    have : others = [] := List.length_eq_zero_iff.1 (by omega)
    subst this
    rfl
  · simp

/-- C130: and a single pick that is not predicted gives an empty residual. -/
theorem residual_lost (s : Scene) (g : Grain) (cutoffs : ℝ × ℝ) {h : V} {xy : ℝ × ℝ}
    (hn : NotPredicted (objectiveScene s cutoffs) g h) : residual [(s, [(h, some xy)])] g cutoffs = some [] := by
  have hpred : predicted (objectiveScene s cutoffs) g [h] = some [] := by
    rw [predicted, hn]; rfl
  simp only [residual, List.mapM_cons, List.mapM_nil, evaluate, List.isEmpty_cons, Bool.false_eq_true, if_false,
    Option.map_some, Option.pure_def, Option.bind_eq_bind, Option.bind_some, List.map_cons, hpred, List.flatten_cons,
    List.map_nil, List.flatten_nil, List.append_nil, List.filterMap_cons, List.filterMap_nil]
  rfl

/-- C130: a reflection whose planes face the beam squarely sends the ray back, so it is never predicted on a detector
downstream. -/
theorem demo_backscatter (cutoffs : ℝ × ℝ) :
    NotPredicted (objectiveScene (demo ![0, 0, 0]) cutoffs) (demoGrain 0) ![0, 0, 1] := by
  have h0 : ![(0 : ℝ), 0, 0] = 0 := by ext i; fin_cases i <;> rfl
  have hp : project (objectiveScene (demo ![0, 0, 0]) cutoffs) (demoGrain 0) ![0, 0, 1] = none := by
    have e : project (objectiveScene (demo ![0, 0, 0]) cutoffs) (demoGrain 0) ![0, 0, 1] =
        project (demo ![0, 0, 0]) (demoGrain 0) ![0, 0, 1] := by simp only [objectiveScene, demo, h0]; rfl
    rw [e]
    cases h : project (demo ![0, 0, 0]) (demoGrain 0) ![0, 0, 1] with
    | none => rfl
    | some xy =>
      exfalso
      have hl : lab (demo ![0, 0, 0]) (demoGrain 0) ![0, 0, 1] = ![0, 0, 1] := by
        rw [demo_lab]
        ext i; fin_cases i <;> simp [rotX, Matrix.mulVec, dotProduct, Fin.sum_univ_three]
      have := project_hits (demo_wellPosed 0 0) (h := ![0, 0, 1])
        (by rw [Long, hl, ← dot_eq]; simp [dot]; unfold Rotations.tenEps; norm_num) h
      obtain ⟨k, hk, e⟩ := this
      have e2 := congrFun e 2
      rw [hl] at e2
      simp [reflected, demo, demoGrain, crystalPosition, dotProduct, Fin.sum_univ_three, dot] at e2
      linarith
  simp only [NotPredicted, simulateGrain, List.filterMap_cons, hp, Option.map_none, List.filterMap_nil,
    List.isEmpty_nil, if_true, List.map_cons, List.map_nil]

theorem demo_predicted (t : ℝ) : Predicted (objectiveScene (demo ![t, 0, 0]) (5, 35)) (demoGrain 0) ![-2, 0, 1]
    (-(4000 / 3), 0) := by
  have hx : rotX 0 *ᵥ ![-2, 0, 1] = ![-2, 0, 1] := by
    ext i; fin_cases i <;> simp [rotX, Matrix.mulVec, dotProduct, Fin.sum_univ_three]
  have h0 : ![(0 : ℝ), 0, 0] = 0 := by ext i; fin_cases i <;> rfl
  have he : objectiveScene (demo ![t, 0, 0]) (5, 35) =
      { demo ![0, 0, 0] with windows := [(5 / 2, 105 / 2)] } := by
    simp only [objectiveScene, demo, h0]
    norm_num
  obtain ⟨out, ho⟩ := simulate_defined (objectiveScene (demo ![t, 0, 0]) (5, 35)) (demoGrain 0) [![-2, 0, 1]]
    (rb := 1) beamRmat_default
  have ho' := ho
  rw [he] at ho'
  obtain ⟨sp, h1, h2, h3, -⟩ := demo_reported 0 0 (by simp) (ws := [(5 / 2, 105 / 2)]) (by simp) (by simp)
    (hkls := [![-2, 0, 1]]) (h := ![-2, 0, 1]) (by simp) (Or.inl hx) ho'
  have hlen := (reported_order ho).1
  match out, hlen with
  | [r], _ =>
    rw [List.mem_singleton] at h1
    subst h1
    exact ⟨sp, ho, by rw [h3]; simp⟩

/-- C130: the premises of `residual_one_predicted` are met: with a pick of (-2 0 1) where it is predicted and one of
(0 0 1), the second pick is compared with the prediction of the first. -/
theorem residual_misassigned_fails :
    residual [(demo ![0, 0, 0], [(![-2, 0, 1], some (-(4000 / 3), 0)), (![0, 0, 1], some (10, 20))])] (demoGrain 0)
      (5, 35) = some [(0, 0), (-(4000 / 3) - 10, -20)] := by
  have := residual_one_predicted (demo ![0, 0, 0]) (demoGrain 0) (5, 35) (h := ![-2, 0, 1]) (xy := (-(4000 / 3), 0))
    (demo_predicted 0) [(![0, 0, 1], (10, 20))] (by
      intro q hq
      rw [List.mem_singleton] at hq
      subst hq
      exact demo_backscatter _)
  rw [List.map_cons, List.map_nil] at this
  rw [this]
  simp

/-- C130: the translation of the sample stage is not used by the residual, so that picks taken from the simulation of
the same instrument and grain do not give a zero residual when the stage is not at the origin. -/
theorem stage_fails : ∃ (s : Scene) (g : Grain) (h : V) (sp : Spot),
    simulateGrain s g [h] = some [some sp] ∧
      residual [(s, [(h, some sp.xy)])] g (5, 35) = some [(-1, 0)] := by
  have hx : rotX 0 *ᵥ ![-2, 0, 1] = ![-2, 0, 1] := by
    ext i; fin_cases i <;> simp [rotX, Matrix.mulVec, dotProduct, Fin.sum_univ_three]
  obtain ⟨out, ho⟩ := simulate_defined (demo ![1, 0, 0]) (demoGrain 0) [![-2, 0, 1]] (rb := 1) beamRmat_default
  obtain ⟨sp, h1, h2, h3, -⟩ := demo_reported 0 1 (by simp) (ws := [(5, 35)]) (by simp) (by simp)
    (hkls := [![-2, 0, 1]]) (h := ![-2, 0, 1]) (by simp) (Or.inl hx) ho
  have hlen := (reported_order ho).1
  match out, hlen with
  | [r], _ =>
    rw [List.mem_singleton] at h1
    subst h1
    refine ⟨demo ![1, 0, 0], demoGrain 0, ![-2, 0, 1], sp, ho, ?_⟩
    rw [residual_pairs _ _ _ (fun _ _ => (-(4000 / 3), 0)) (by simp) (by
      intro d hd h xy hm
      rw [List.mem_singleton] at hd
      subst hd
      rw [List.mem_singleton, Prod.mk.injEq] at hm
      rw [hm.1]
      exact demo_predicted 1)]
    simp only [List.flatMap_cons, List.flatMap_nil, List.filterMap_cons, List.filterMap_nil, Option.map_some, h3]
    norm_num

end Hexrd.LaueSim
