import Verif.Spec.StructFac
import Verif.Props.UnitCell
import Mathlib.Tactic.NormNum
import Mathlib.Tactic.LinearCombination

/-!
C113: structure factors.
-/

namespace Hexrd.StructFac

open Matrix Hexrd.UnitCell Hexrd.SpaceGroup

/-! ## Phases -/

/-- The phase of a number of turns. -/
noncomputable def turn (x : ℝ) : ℂ := ⟨Real.cos (2 * Real.pi * x), -Real.sin (2 * Real.pi * x)⟩

theorem phase_eq (g r : V3) : phase g r = turn (g ⬝ᵥ r) := rfl

theorem turn_add (x y : ℝ) : turn (x + y) = turn x * turn y := by
  apply Complex.ext
  · simp only [turn, Complex.mul_re, mul_add, Real.cos_add]; ring
  · simp only [turn, Complex.mul_im, mul_add, Real.sin_add]; ring

theorem turn_zero : turn 0 = 1 := by apply Complex.ext <;> simp [turn]

theorem turn_int (n : ℤ) : turn n = 1 := by
  apply Complex.ext
  · have := Real.cos_int_mul_two_pi n
    simp only [turn, Complex.one_re]
    rw [mul_comm]; exact this
  · have : Real.sin ((n : ℝ) * (2 * Real.pi)) = 0 := by
      rw [show (n : ℝ) * (2 * Real.pi) = ((2 * n : ℤ) : ℝ) * Real.pi by push_cast; ring]
      exact Real.sin_int_mul_pi _
    simp only [turn, Complex.one_im, mul_comm (2 * Real.pi), this, neg_zero]

theorem turn_norm (x : ℝ) : ‖turn x‖ = 1 := by
  have h : ‖turn x‖ ^ 2 = 1 := by
    rw [Complex.sq_norm, Complex.normSq_apply]
    simp only [turn]
    nlinarith [Real.sin_sq_add_cos_sq (2 * Real.pi * x)]
  have := norm_nonneg (turn x)
  nlinarith

theorem turn_neg (x : ℝ) : turn (-x) = (starRingEnd ℂ) (turn x) := by
  apply Complex.ext <;> simp [turn]

/-- Only whole turns have the phase one. -/
theorem turn_eq_one (x : ℝ) (h : turn x = 1) : ∃ n : ℤ, x = n := by
  have hc : Real.cos (2 * Real.pi * x) = 1 := by simpa [turn] using congrArg Complex.re h
  obtain ⟨n, hn⟩ := (Real.cos_eq_one_iff _).mp hc
  refine ⟨n, ?_⟩
  have hp := Real.pi_pos
  have : 2 * Real.pi * (x - n) = 0 := by linear_combination -hn
  rcases mul_eq_zero.mp this with h0 | h0
  · linarith
  · linarith

/-! ## Sums over the atoms of one type -/

/-- The sum of the phases of the atoms of one type. -/
noncomputable def geometric (g : V3) (ps : List V3) : ℂ := (ps.map fun r => phase g r).sum

theorem site_sum (c : ℂ) (g : V3) (ps : List V3) : (ps.map fun r => c * phase g r).sum = c * geometric g ps := by
  unfold geometric
  rw [List.sum_map_mul_left]

theorem phase_congruent (h : Vec) {r q : V3} (hc : Congruent r q) : phase (ofVec h) r = phase (ofVec h) q := by
  obtain ⟨z0, h0⟩ := hc 0
  obtain ⟨z1, h1⟩ := hc 1
  obtain ⟨z2, h2⟩ := hc 2
  rw [phase_eq, phase_eq]
  have : ofVec h ⬝ᵥ r = ofVec h ⬝ᵥ q + ((h.x * z0 + h.y * z1 + h.z * z2 : ℤ) : ℝ) := by
    simp only [ofVec, dotProduct, Fin.sum_univ_three, cons_val_zero, cons_val_one, cons_val_two, h0, h1, h2]
    push_cast
    simp
    ring
  rw [this, turn_add, turn_int, mul_one]

theorem geometric_congruent (h : Vec) {ps qs : List V3} (hf : List.Forall₂ Congruent ps qs) :
    geometric (ofVec h) ps = geometric (ofVec h) qs := by
  unfold geometric
  induction hf with
  | nil => rfl
  | cons hc _ ih => rw [List.map_cons, List.sum_cons, List.map_cons, List.sum_cons, phase_congruent h hc, ih]

theorem dot_turned (p : Op) (h : Vec) (r : V3) :
    ofVec h ⬝ᵥ applyOp p r = ofVec (turned p h) ⬝ᵥ r + ((h.x * p.t.x + h.y * p.t.y + h.z * p.t.z : ℤ) : ℝ) / 24 := by
  simp [ofVec, turned, applyOp, toReal, dotProduct, Fin.sum_univ_three, mulVec]
  ring

/-- What a symmetry of the arrangement says about the sum of the phases. -/
theorem geometric_turned (p : Op) (h : Vec) (ps : List V3) (hk : Keeps p ps) :
    geometric (ofVec h) ps = geometric (ofVec (turned p h)) ps * turn (((h.x * p.t.x + h.y * p.t.y + h.z * p.t.z : ℤ) : ℝ) / 24) := by
  obtain ⟨qs, hp, hf⟩ := hk
  have h1 : geometric (ofVec h) ps = geometric (ofVec h) qs := by
    unfold geometric
    exact ((hp.map _).sum_eq).symm
  rw [h1, ← geometric_congruent h hf]
  unfold geometric
  rw [List.map_map, ← List.sum_map_mul_right]
  congr 1
  apply List.map_congr_left
  intro r _
  simp only [Function.comp_apply, phase_eq, dot_turned, turn_add]

/-! ## The structure factor -/

theorem structureFactor_eq (rmt : M3) (atoms : List Site) (g : V3) :
    structureFactor rmt atoms g = (atoms.map fun a =>
      formFactor a (sSquared rmt g) * ((a.occ : ℂ) * (temperature a.disp g (sSquared rmt g) : ℂ)) * geometric g a.pos).sum := by
  unfold structureFactor
  simp only [site_sum]

/-- Systematic absences: if the arrangement of the atoms has a symmetry that fixes the reflection and shifts its phase by a fraction of
a turn, the intensity is zero, whatever the atoms are. -/
theorem absent_zero (rmt : M3) (atoms : List Site) (ops : List Op) (hk : ∀ p ∈ ops, ∀ a ∈ atoms, Keeps p a.pos) (h : Vec)
    (he : Spec.Extinct ops h) : raw rmt atoms (ofVec h) = 0 := by
  obtain ⟨p, hp, ⟨f1, f2, f3⟩, hw⟩ := he
  have ht : turned p h = h := by
    unfold turned
    rw [f1, f2, f3]
  have hz : ∀ a ∈ atoms, geometric (ofVec h) a.pos = 0 := by
    intro a ha
    have := geometric_turned p h a.pos (hk p hp a ha)
    rw [ht] at this
    have hne : turn (((h.x * p.t.x + h.y * p.t.y + h.z * p.t.z : ℤ) : ℝ) / 24) ≠ 1 := by
      intro h1
      obtain ⟨n, hn⟩ := turn_eq_one _ h1
      apply hw
      refine ⟨n, ?_⟩
      have : ((h.x * p.t.x + h.y * p.t.y + h.z * p.t.z : ℤ) : ℝ) = ((24 * n : ℤ) : ℝ) := by
        push_cast
        push_cast at hn
        linarith
      exact_mod_cast this
    have h2 : geometric (ofVec h) a.pos * (1 - turn (((h.x * p.t.x + h.y * p.t.y + h.z * p.t.z : ℤ) : ℝ) / 24)) = 0 := by
      linear_combination this
    rcases mul_eq_zero.mp h2 with h3 | h3
    · exact h3
    · exact absurd (sub_eq_zero.mp h3).symm hne
  have : structureFactor rmt atoms (ofVec h) = 0 := by
    rw [structureFactor_eq]
    apply List.sum_eq_zero
    intro x hx
    obtain ⟨a, ha, rfl⟩ := List.mem_map.mp hx
    rw [hz a ha, mul_zero]
  unfold raw
  rw [this]
  simp

theorem sSquared_turned (L : Cell) (hL : 0 < L.dmt.det) (p : Op) (hi : (toReal p.r)ᵀ * L.dmt * toReal p.r = L.dmt) (h : Vec) :
    sSquared L.rmt (ofVec (turned p h)) = sSquared L.rmt (ofVec h) := by
  unfold sSquared
  have hu : IsUnit L.dmt.det := isUnit_iff_ne_zero.mpr hL.ne'
  have ht : ofVec (turned p h) = ofVec h ᵥ* toReal p.r := by
    ext i
    fin_cases i <;> simp [ofVec, turned, toReal, vecMul, dotProduct, Fin.sum_univ_three]
  have hR : toReal p.r * L.rmt * (toReal p.r)ᵀ = L.rmt := by
    have hd : (toReal p.r).det ≠ 0 := by
      intro h0
      have := congrArg det hi
      rw [det_mul, det_mul, h0] at this
      simp at this
      exact hL.ne' this.symm
    have hru : IsUnit (toReal p.r).det := isUnit_iff_ne_zero.mpr hd
    have hrt : IsUnit ((toReal p.r)ᵀ).det := by rw [det_transpose]; exact hru
    unfold Cell.rmt
    have e : L.dmt⁻¹ = (toReal p.r)⁻¹ * L.dmt⁻¹ * ((toReal p.r)ᵀ)⁻¹ := by
      conv_lhs => rw [← hi]
      rw [Matrix.mul_inv_rev, Matrix.mul_inv_rev, Matrix.mul_assoc]
    conv_lhs => rw [e]
    rw [Matrix.mul_assoc, Matrix.mul_assoc, Matrix.nonsing_inv_mul _ hrt, Matrix.mul_one, ← Matrix.mul_assoc,
      Matrix.mul_nonsing_inv _ hru, Matrix.one_mul]
  rw [ht]
  congr 2
  rw [← dotProduct_mulVec, ← mulVec_transpose, mulVec_mulVec, mulVec_mulVec, hR]

/-- Equivalent reflections have the same intensity: for a symmetry of the arrangement and of the metric and isotropic displacements. -/
theorem equivalent_equal (L : Cell) (hL : 0 < L.dmt.det) (atoms : List Site) (hiso : ∀ a ∈ atoms, Isotropic a) (p : Op)
    (hk : ∀ a ∈ atoms, Keeps p a.pos) (hi : (toReal p.r)ᵀ * L.dmt * toReal p.r = L.dmt) (h : Vec) :
    raw L.rmt atoms (ofVec (turned p h)) = raw L.rmt atoms (ofVec h) := by
  have key : structureFactor L.rmt atoms (ofVec h) = structureFactor L.rmt atoms (ofVec (turned p h)) *
      turn (((h.x * p.t.x + h.y * p.t.y + h.z * p.t.z : ℤ) : ℝ) / 24) := by
    rw [structureFactor_eq, structureFactor_eq, ← List.sum_map_mul_right]
    congr 1
    apply List.map_congr_left
    intro a ha
    obtain ⟨u, hu⟩ := hiso a ha
    rw [sSquared_turned L hL p hi h, geometric_turned p h a.pos (hk a ha), hu]
    simp only [temperature]
    ring
  unfold raw
  rw [key, norm_mul, turn_norm, mul_one]

/-- A common shift of all atoms does not change any intensity. -/
theorem origin_free (rmt : M3) (atoms : List Site) (t g : V3) :
    raw rmt (atoms.map fun a => { a with pos := a.pos.map fun r => r + t }) g = raw rmt atoms g := by
  have hg : ∀ ps : List V3, geometric g (ps.map fun r => r + t) = geometric g ps * turn (g ⬝ᵥ t) := by
    intro ps
    unfold geometric
    rw [List.map_map, ← List.sum_map_mul_right]
    congr 1
    apply List.map_congr_left
    intro r _
    simp only [Function.comp_apply, phase_eq, dotProduct_add, turn_add]
  have key : structureFactor rmt (atoms.map fun a => { a with pos := a.pos.map fun r => r + t }) g =
      structureFactor rmt atoms g * turn (g ⬝ᵥ t) := by
    rw [structureFactor_eq, structureFactor_eq, List.map_map, ← List.sum_map_mul_right]
    congr 1
    apply List.map_congr_left
    intro a _
    simp only [Function.comp_apply, hg, formFactor]
    ring
  unfold raw
  rw [key, norm_mul, turn_norm, mul_one]

/-- Neither the order of the atoms of a type nor the choice of the cell in which each of them is given changes an intensity. -/
theorem lattice_free (rmt : M3) (atoms : List Site) (move : Site → List V3)
    (hm : ∀ a ∈ atoms, ∃ qs : List V3, qs.Perm (move a) ∧ List.Forall₂ Congruent a.pos qs) (h : Vec) :
    structureFactor rmt (atoms.map fun a => { a with pos := move a }) (ofVec h) = structureFactor rmt atoms (ofVec h) := by
  rw [structureFactor_eq, structureFactor_eq, List.map_map]
  congr 1
  apply List.map_congr_left
  intro a ha
  obtain ⟨qs, hp, hf⟩ := hm a ha
  simp only [Function.comp_apply]
  have : geometric (ofVec h) (move a) = geometric (ofVec h) a.pos := by
    rw [geometric_congruent h hf]
    unfold geometric
    exact ((hp.map _).sum_eq).symm
  rw [this]
  rfl

theorem sSquared_neg (rmt : M3) (g : V3) : sSquared rmt (-g) = sSquared rmt g := by
  unfold sSquared
  rw [mulVec_neg, neg_dotProduct_neg]

theorem temperature_neg (d : Disp) (g : V3) (s : ℝ) : temperature d (-g) s = temperature d g s := by
  cases d with
  | iso u => rfl
  | aniso b =>
    simp only [temperature, Pi.neg_apply]
    congr 1
    ring

/-- Friedel's law: if no atom absorbs, a reflection and its opposite have the same intensity. -/
theorem friedel (rmt : M3) (atoms : List Site) (hn : ∀ a ∈ atoms, NoAbsorption a) (g : V3) : raw rmt atoms (-g) = raw rmt atoms g := by
  have key : structureFactor rmt atoms (-g) = (starRingEnd ℂ) (structureFactor rmt atoms g) := by
    rw [structureFactor_eq, structureFactor_eq, map_list_sum, List.map_map]
    congr 1
    apply List.map_congr_left
    intro a ha
    simp only [Function.comp_apply, map_mul, sSquared_neg, temperature_neg, Complex.conj_ofReal]
    have hf : (starRingEnd ℂ) (formFactor a (sSquared rmt g)) = formFactor a (sSquared rmt g) := by
      have : a.f2 = 0 := hn a ha
      apply Complex.ext
      · simp
      · simp [formFactor, this]
    have hg : geometric (-g) a.pos = (starRingEnd ℂ) (geometric g a.pos) := by
      unfold geometric
      rw [map_list_sum, List.map_map]
      congr 1
      apply List.map_congr_left
      intro r _
      simp only [Function.comp_apply, phase_eq, neg_dotProduct, turn_neg]
    rw [hf, hg]
  unfold raw
  rw [key, Complex.norm_conj]

/-- The displacement factor of an isotropic atom is at most one, and smaller for larger displacements. -/
theorem temperature_bounds (u v : ℝ) (g : V3) (s : ℝ) (hs : 0 ≤ s) (hu : 0 ≤ u) (huv : u ≤ v) :
    0 < temperature (.iso v) g s ∧ temperature (.iso v) g s ≤ temperature (.iso u) g s ∧ temperature (.iso u) g s ≤ 1 := by
  simp only [temperature]
  have hp : 0 ≤ Real.pi ^ 2 := by positivity
  refine ⟨Real.exp_pos _, Real.exp_le_exp.mpr ?_, ?_⟩
  · have : Real.pi ^ 2 * u * s ≤ Real.pi ^ 2 * v * s := by gcongr
    linarith
  · rw [Real.exp_le_one_iff]
    have : 0 ≤ Real.pi ^ 2 * u * s := by positivity
    linarith

/-- An upper limit: all atoms in phase. -/
theorem raw_bound (rmt : M3) (atoms : List Site) (g : V3) :
    √(raw rmt atoms g) ≤ (atoms.map fun a =>
      (a.pos.length : ℝ) * (|a.occ| * temperature a.disp g (sSquared rmt g)) * ‖formFactor a (sSquared rmt g)‖).sum := by
  unfold raw
  rw [Real.sqrt_sq (norm_nonneg _), structureFactor_eq]
  have hg : ∀ ps : List V3, ‖geometric g ps‖ ≤ ps.length := by
    intro ps
    unfold geometric
    induction ps with
    | nil => simp
    | cons r rs ih =>
      rw [List.map_cons, List.sum_cons, List.length_cons]
      refine (norm_add_le _ _).trans ?_
      rw [phase_eq, turn_norm]
      push_cast
      linarith
  induction atoms with
  | nil => simp
  | cons a as ih =>
    rw [List.map_cons, List.sum_cons, List.map_cons, List.sum_cons]
    refine (norm_add_le _ _).trans (add_le_add ?_ ih)
    rw [norm_mul, norm_mul, norm_mul, Complex.norm_real, Complex.norm_real, Real.norm_eq_abs, Real.norm_eq_abs]
    have ht : |temperature a.disp g (sSquared rmt g)| = temperature a.disp g (sSquared rmt g) := by
      apply abs_of_pos
      cases a.disp <;> exact Real.exp_pos _
    rw [ht]
    have hpos : 0 ≤ temperature a.disp g (sSquared rmt g) := by rw [← ht]; exact abs_nonneg _
    calc ‖formFactor a (sSquared rmt g)‖ * (|a.occ| * temperature a.disp g (sSquared rmt g)) * ‖geometric g a.pos‖
        ≤ ‖formFactor a (sSquared rmt g)‖ * (|a.occ| * temperature a.disp g (sSquared rmt g)) * a.pos.length := by
          gcongr
          exact hg _
      _ = _ := by ring

/-- Equal intensities of equivalent atoms: the intensity is in proportion to the weight of the wavelength and the multiplicity. -/
theorem intensity_zero_iff (w m : ℝ) (hw : w ≠ 0) (hm : m ≠ 0) (rmt : M3) (atoms : List Site) (g : V3) :
    intensity w m rmt atoms g = 0 ↔ structureFactor rmt atoms g = 0 := by
  unfold intensity raw
  simp [hw, hm]

/-! ## The positions that the unit cell computes -/

/-- An injective map of a list without repetition into itself permutes it. -/
theorem perm_of_inj {α : Type} (l : List α) (hn : l.Nodup) (f : α → α) (hf : ∀ x ∈ l, f x ∈ l)
    (hi : ∀ x ∈ l, ∀ y ∈ l, f x = f y → x = y) : (l.map f).Perm l := by
  have hn' : (l.map f).Nodup := List.Nodup.map_on hi hn
  have hs : (l.map f) ⊆ l := by
    intro y hy
    obtain ⟨x, hx, rfl⟩ := List.mem_map.mp hy
    exact hf x hx
  exact (List.subperm_of_subset hn' hs).perm_of_length_le (by simp)

/-- The orbit of an atom keeps its place under every operator of the group. -/
theorem orbit_keeps (L : Cell) (ops : List Op) (hg : Spec.IsGroup Op.comp Op.one ops) (v : V3) (hv : InCell v) (hr : Resolved L ops v)
    (p : Op) (hp : p ∈ ops) : Keeps p (calcOrbit L ops v) := by
  obtain ⟨hn, hm⟩ := orbit_exact L ops hg.one_mem v hv hr
  refine ⟨(calcOrbit L ops v).map fun w i => Int.fract (applyOp p w i), perm_of_inj _ hn _ ?_ ?_, ?_⟩
  · intro w hw
    have hw' := (hm w).mp hw
    refine (hm _).mpr ((images_of_copy ops hg v w hw' _).mp (image_fract ops w p hp))
  · intro x hx y hy hxy
    obtain ⟨q, hq, hqp⟩ := hg.inv_mem p hp
    have hc : Congruent (applyOp p x) (applyOp p y) := by
      intro i
      have := congrFun hxy i
      simp only [Int.fract] at this
      exact ⟨⌊applyOp p x i⌋ - ⌊applyOp p y i⌋, by push_cast; linarith⟩
    have back : ∀ w : V3, Congruent (applyOp q (applyOp p w)) w := by
      intro w
      have := applyOp_comp q p w
      rw [hqp.2, applyOp_one] at this
      exact this.symm
    have h1 : Congruent x y := ((back x).symm.trans (applyOp_congr q hc)).trans (back y)
    exact congruent_cell h1 ((hm x).mp hx).1 ((hm y).mp hy).1
  · rw [List.forall₂_map_left_iff, List.forall₂_map_right_iff]
    apply List.forall₂_same.mpr
    intro w _ i
    exact ⟨⌊applyOp p w i⌋, by unfold Int.fract; ring⟩

/-- The sites of a crystal: each type of atom sits on the orbit that the unit cell computed for a position in the cell. -/
def Crystal (L : Cell) (ops : List Op) (atoms : List Site) : Prop :=
  ∀ a ∈ atoms, ∃ v, InCell v ∧ Resolved L ops v ∧ a.pos = calcOrbit L ops v

theorem crystal_keeps (L : Cell) (ops : List Op) (hg : Spec.IsGroup Op.comp Op.one ops) (atoms : List Site) (hc : Crystal L ops atoms) :
    ∀ p ∈ ops, ∀ a ∈ atoms, Keeps p a.pos := by
  intro p hp a ha
  obtain ⟨v, hv, hr, e⟩ := hc a ha
  rw [e]
  exact orbit_keeps L ops hg v hv hr p hp

/-- C113, absences: in a crystal of any of the space groups every reflection that the group extinguishes has no intensity, whatever the
atoms, their positions, occupancies, displacements and absorption. -/
theorem crystal_absent (sg setting : Nat) (h1 : 1 ≤ sg) (h2 : sg ≤ 237) :
    ∃ S, generateSGSym sg setting = some S ∧ ∀ (L : Cell) (atoms : List Site), Crystal L S.ops atoms →
      ∀ h : Vec, Spec.Extinct S.ops h → raw L.rmt atoms (ofVec h) = 0 := by
  obtain ⟨S, e, hg, -, -⟩ := operators_form_group sg setting h1 h2
  exact ⟨S, e, fun L atoms hc h he => absent_zero _ _ _ (crystal_keeps L _ hg atoms hc) h he⟩

/-- C113, equivalent reflections: in a crystal whose lattice parameters fit its space group and whose displacements are isotropic, the
reflections that an operator of the group makes of one another have the same intensity. -/
theorem crystal_equivalent (sg setting : Nat) (h1 : 1 ≤ sg) (h2 : sg ≤ 230) :
    ∃ S lt, generateSGSym sg setting = some S ∧ latticeTypeZ sg = some lt ∧ ∀ (L : Cell) (atoms : List Site), Crystal L S.ops atoms →
      0 < L.dmt.det → SpaceGroup.Spec.MetricConditions 90 120 lt L.a L.b L.c L.alpha L.beta L.gamma → (∀ a ∈ atoms, Isotropic a) →
        ∀ p ∈ S.ops, ∀ h : Vec, raw L.rmt atoms (ofVec (turned p h)) = raw L.rmt atoms (ofVec h) := by
  obtain ⟨S, e, hg, -, -⟩ := operators_form_group sg setting h1 (by omega)
  obtain ⟨S', lt, e', el, hm⟩ := metric_fits_operators sg setting h1 h2
  obtain ⟨S'', e'', -, -, hpg⟩ := pointGroup_forms_group sg setting h1 (by omega)
  rw [e] at e' e''
  obtain rfl := Option.some.inj e'
  obtain rfl := Option.some.inj e''
  refine ⟨S, lt, e, el, fun L atoms hc hL hmc hiso p hp h => ?_⟩
  exact equivalent_equal L hL atoms hiso p (fun a ha => crystal_keeps L _ hg atoms hc p hp a ha)
    (hm L hmc p.r ((hpg p.r).mpr ⟨p, hp, rfl⟩)) h

/-! ## Concrete cases -/

/-- An atom that scatters one electron's worth, and absorbs `f2`. -/
def plain (f1 f2 : ℝ) (pos : List V3) : Site :=
  { occ := 1, pos := pos, disp := .iso 0, amp := 0, const := 0, rate := 0, fNT := 0, frel := 0, z := 0, f1 := f1, f2 := f2 }

theorem plain_formFactor (f1 f2 : ℝ) (pos : List V3) (s : ℝ) : formFactor (plain f1 f2 pos) s = ⟨f1, f2⟩ := by
  simp [formFactor, plain]

theorem turn_quarter : turn (1 / 4) = ⟨0, -1⟩ := by
  unfold turn
  rw [show 2 * Real.pi * (1 / 4) = Real.pi / 2 by ring, Real.cos_pi_div_two, Real.sin_pi_div_two]

theorem turn_minus_quarter : turn (-(1 / 4)) = ⟨0, 1⟩ := by
  rw [turn_neg, turn_quarter]
  apply Complex.ext <;> simp

/-- With absorption Friedel's law fails: of two opposite reflections of two atoms, one of which absorbs, one has an intensity and the
other has none. -/
theorem friedel_needs_no_absorption (rmt : M3) :
    raw rmt [plain 1 0 [0], plain 0 1 [![1 / 4, 0, 0]]] ![1, 0, 0] = 4 ∧
    raw rmt [plain 1 0 [0], plain 0 1 [![1 / 4, 0, 0]]] (-![1, 0, 0]) = 0 := by
  have hp : (![1, 0, 0] : V3) ⬝ᵥ ![1 / 4, 0, 0] = 1 / 4 := by simp [dotProduct, Fin.sum_univ_three]
  have hm : (-![1, 0, 0] : V3) ⬝ᵥ ![1 / 4, 0, 0] = -(1 / 4) := by rw [neg_dotProduct, hp]
  constructor
  · unfold raw
    rw [structureFactor_eq]
    simp only [List.map_cons, List.map_nil, List.sum_cons, List.sum_nil, plain_formFactor]
    simp only [plain, geometric, phase_eq, List.map_cons, List.map_nil, List.sum_cons, List.sum_nil]
    rw [hp, turn_quarter, dotProduct_zero, turn_zero]
    simp only [temperature]
    have : ((⟨1, 0⟩ : ℂ) * (((1 : ℝ) : ℂ) * ((Real.exp (-8 * Real.pi ^ 2 * 0 * sSquared rmt ![1, 0, 0]) : ℝ) : ℂ)) * (1 + 0) +
        ((⟨0, 1⟩ : ℂ) * (((1 : ℝ) : ℂ) * ((Real.exp (-8 * Real.pi ^ 2 * 0 * sSquared rmt ![1, 0, 0]) : ℝ) : ℂ)) *
          ((⟨0, -1⟩ : ℂ) + 0) + 0)) = 2 := by
      apply Complex.ext <;> simp <;> norm_num
    rw [this]
    norm_num
  · unfold raw
    rw [structureFactor_eq]
    simp only [List.map_cons, List.map_nil, List.sum_cons, List.sum_nil, plain_formFactor]
    simp only [plain, geometric, phase_eq, List.map_cons, List.map_nil, List.sum_cons, List.sum_nil]
    rw [hm, turn_minus_quarter, dotProduct_zero, turn_zero]
    simp only [temperature]
    have : ((⟨1, 0⟩ : ℂ) * (((1 : ℝ) : ℂ) * ((Real.exp (-8 * Real.pi ^ 2 * 0 * sSquared rmt (-![1, 0, 0])) : ℝ) : ℂ)) * (1 + 0) +
        ((⟨0, 1⟩ : ℂ) * (((1 : ℝ) : ℂ) * ((Real.exp (-8 * Real.pi ^ 2 * 0 * sSquared rmt (-![1, 0, 0])) : ℝ) : ℂ)) *
          ((⟨0, 1⟩ : ℂ) + 0) + 0)) = 0 := by
      apply Complex.ext <;> simp
    rw [this]
    norm_num

/-- Concrete case of `crystal_absent` and `crystal_equivalent`: the atom pair of `orbit_exact`'s example is a crystal of space group 2. -/
example : Crystal ⟨1, 1, 1, 90, 90, 90⟩ [Op.one, inversion]
    [plain 1 0 (calcOrbit ⟨1, 1, 1, 90, 90, 90⟩ [Op.one, inversion] fun _ => 1 / 4)] := by
  intro a ha
  rw [List.mem_singleton] at ha
  subst ha
  exact ⟨fun _ => 1 / 4, quarter_crystal.1, quarter_crystal.2, rfl⟩

/-- The operators of a body-centred cell. -/
def centring : Op := ⟨Op.one.r, ⟨12, 12, 12⟩⟩

/-- Concrete case of `absent_zero`: two atoms in a body-centred cell. (100) has no intensity and (110) has the square of two. -/
theorem body_centred (rmt : M3) :
    (∀ p ∈ [Op.one, centring], ∀ a ∈ [plain 1 0 [0, fun _ => 1 / 2]], Keeps p a.pos) ∧
    Spec.Extinct [Op.one, centring] ⟨1, 0, 0⟩ ∧ raw rmt [plain 1 0 [0, fun _ => 1 / 2]] (ofVec ⟨1, 0, 0⟩) = 0 ∧
    raw rmt [plain 1 0 [0, fun _ => 1 / 2]] (ofVec ⟨1, 1, 0⟩) = 4 := by
  have hk : ∀ p ∈ [Op.one, centring], ∀ a ∈ [plain 1 0 [0, fun _ => 1 / 2]], Keeps p a.pos := by
    intro p hp a ha
    rw [List.mem_singleton] at ha
    subst ha
    simp only [List.mem_cons, List.not_mem_nil, or_false] at hp
    rcases hp with rfl | rfl
    · refine ⟨[0, fun _ => 1 / 2], List.Perm.refl _, ?_⟩
      simp only [plain, List.map_cons, List.map_nil, applyOp_one]
      exact .cons (fun i => ⟨0, by simp⟩) (.cons (fun i => ⟨0, by simp⟩) .nil)
    · refine ⟨[fun _ => 1 / 2, 0], List.Perm.swap _ _ _, ?_⟩
      simp only [plain, List.map_cons, List.map_nil]
      refine .cons (fun i => ⟨0, ?_⟩) (.cons (fun i => ⟨1, ?_⟩) .nil)
      · fin_cases i <;> simp [applyOp, centring, toReal, Op.one, Fin.sum_univ_three] <;> norm_num
      · fin_cases i <;> simp [applyOp, centring, toReal, Op.one, dotProduct, Fin.sum_univ_three] <;> norm_num
  have he : Spec.Extinct [Op.one, centring] ⟨1, 0, 0⟩ := by
    refine ⟨centring, by simp, by simp [Spec.Fixes, centring, Op.one], ?_⟩
    simp only [Spec.WholePhase, centring]
    decide
  refine ⟨hk, he, absent_zero _ _ _ hk _ he, ?_⟩
  unfold raw
  rw [structureFactor_eq]
  have hd : ofVec ⟨1, 1, 0⟩ ⬝ᵥ (fun _ => 1 / 2) = ((1 : ℤ) : ℝ) := by
    simp [ofVec, dotProduct, Fin.sum_univ_three]; norm_num
  simp only [List.map_cons, List.map_nil, List.sum_cons, List.sum_nil, plain_formFactor]
  simp only [plain, geometric, phase_eq, List.map_cons, List.map_nil, List.sum_cons, List.sum_nil]
  rw [hd, turn_int, dotProduct_zero, turn_zero]
  simp only [temperature]
  have : (⟨1, 0⟩ : ℂ) * (((1 : ℝ) : ℂ) * ((Real.exp (-8 * Real.pi ^ 2 * 0 * sSquared rmt (ofVec ⟨1, 1, 0⟩)) : ℝ) : ℂ)) *
      (1 + (1 + 0)) + 0 = 2 := by
    apply Complex.ext <;> simp <;> norm_num
  rw [this]
  norm_num

/-- A quarter turn about the third axis. -/
def quarterTurn : Op := ⟨⟨0, -1, 0, 1, 0, 0, 0, 0, 1⟩, ⟨0, 0, 0⟩⟩

/-- Four atoms that a quarter turn takes into one another. -/
noncomputable def fourPos : List V3 := [![1 / 6, 0, 0], ![0, 1 / 6, 0], ![-(1 / 6), 0, 0], ![0, -(1 / 6), 0]]

/-- Four equivalent atoms with one and the same anisotropic displacement, as the code takes them. -/
noncomputable def fourSite : Site :=
  { plain 1 0 fourPos with disp := .aniso !![1, 0, 0; 0, 0, 0; 0, 0, 0] }

theorem turn_sixths : turn (1 / 6) + turn (-(1 / 6)) = 1 := by
  apply Complex.ext
  · simp only [turn, Complex.add_re, Complex.one_re]
    rw [show 2 * Real.pi * -(1 / 6) = -(2 * Real.pi * (1 / 6)) by ring, Real.cos_neg, show 2 * Real.pi * (1 / 6) = Real.pi / 3 by ring,
      Real.cos_pi_div_three]
    norm_num
  · simp only [turn, Complex.add_im, Complex.one_im]
    rw [show 2 * Real.pi * -(1 / 6) = -(2 * Real.pi * (1 / 6)) by ring, Real.sin_neg]
    ring

/-- With anisotropic displacements equivalent reflections get different intensities: the displacement of the first atom is used for all
the equivalent atoms, whose displacements should be turned with them. -/
theorem anisotropic_differs (rmt : M3) :
    Keeps quarterTurn fourSite.pos ∧ turned quarterTurn ⟨0, 1, 0⟩ = ⟨1, 0, 0⟩ ∧
    raw rmt [fourSite] (ofVec ⟨1, 0, 0⟩) = 9 * Real.exp (-1) ^ 2 ∧ raw rmt [fourSite] (ofVec ⟨0, 1, 0⟩) = 9 := by
  have hf : ∀ s, formFactor fourSite s = 1 := by
    intro s
    have := plain_formFactor 1 0 fourPos s
    exact this
  refine ⟨?_, by decide, ?_, ?_⟩
  · refine ⟨[![0, 1 / 6, 0], ![-(1 / 6), 0, 0], ![0, -(1 / 6), 0], ![1 / 6, 0, 0]], ?_, ?_⟩
    · exact List.perm_append_comm (l₁ := [![0, 1 / 6, 0], ![-(1 / 6), 0, 0], ![0, -(1 / 6), 0]]) (l₂ := [![1 / 6, 0, 0]])
    · simp only [fourSite, plain, fourPos, List.map_cons, List.map_nil]
      refine .cons ?_ (.cons ?_ (.cons ?_ (.cons ?_ .nil))) <;> intro i <;> refine ⟨0, ?_⟩ <;> fin_cases i <;>
        simp [applyOp, quarterTurn, toReal]
  · have hg : geometric (ofVec ⟨1, 0, 0⟩) fourSite.pos = 3 := by
      simp only [fourSite, plain, fourPos, geometric, phase_eq, List.map_cons, List.map_nil, List.sum_cons, List.sum_nil]
      simp only [ofVec, dotProduct, Fin.sum_univ_three]
      simp
      rw [turn_zero]
      have := turn_sixths
      norm_num at this
      norm_num
      linear_combination this
    unfold raw
    rw [structureFactor_eq]
    simp only [List.map_cons, List.map_nil, List.sum_cons, List.sum_nil, hf, hg]
    have ht : temperature fourSite.disp (ofVec ⟨1, 0, 0⟩) (sSquared rmt (ofVec ⟨1, 0, 0⟩)) = Real.exp (-1) := by
      simp [temperature, fourSite, ofVec]
    have ho : fourSite.occ = 1 := rfl
    rw [ht, ho, add_zero, one_mul, Complex.ofReal_one, one_mul, norm_mul, Complex.norm_real, Real.norm_eq_abs,
      abs_of_pos (Real.exp_pos _)]
    norm_num
    ring
  · have hg : geometric (ofVec ⟨0, 1, 0⟩) fourSite.pos = 3 := by
      simp only [fourSite, plain, fourPos, geometric, phase_eq, List.map_cons, List.map_nil, List.sum_cons, List.sum_nil]
      simp only [ofVec, dotProduct, Fin.sum_univ_three]
      simp
      rw [turn_zero]
      have := turn_sixths
      norm_num at this
      norm_num
      linear_combination this
    unfold raw
    rw [structureFactor_eq]
    simp only [List.map_cons, List.map_nil, List.sum_cons, List.sum_nil, hf, hg]
    have ht : temperature fourSite.disp (ofVec ⟨0, 1, 0⟩) (sSquared rmt (ofVec ⟨0, 1, 0⟩)) = 1 := by
      simp [temperature, fourSite, ofVec]
    have ho : fourSite.occ = 1 := rfl
    rw [ht, ho]
    norm_num

end Hexrd.StructFac
