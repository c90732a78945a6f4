import Verif.Lemmas.HklList

/-! The monoclinic counterexample, and the operators as groups. -/
namespace Hexrd.Hkls

open Hexrd.SpaceGroup Hexrd.UnitCell Hexrd.UnitCell.Cell

theorem allowed_not_extinct (sg setting : Nat) (h1 : 1 ≤ sg) (h2 : sg ≤ 230) (l : List Vec) :
    ∃ S l', generateSGSym sg setting = some S ∧ allowedHKLs sg l = some l' ∧ l'.Sublist l ∧
      ∀ h ∈ l', ¬ SpaceGroup.Spec.Extinct S.ops h := by
  by_cases h : sg = 205
  · subst h
    obtain ⟨S, l', e, ea, hs, hm⟩ := allowed_205 setting l
    exact ⟨S, l', e, ea, hs, fun x hx => ((hm x).1 hx).2.1⟩
  · obtain ⟨S, l', e, ea, hs, hm⟩ := allowed_iff_not_extinct_partial sg setting h1 h2 h l
    exact ⟨S, l', e, ea, hs, fun x hx => ((hm x).1 hx).2⟩

theorem recip_isGroup (sg setting : Nat) (h1 : 1 ≤ sg) (h2 : sg ≤ 230) :
    ∃ S lt, generateSGSym sg setting = some S ∧ latticeTypeZ sg = some lt ∧
      ∀ L : Cell, SpaceGroup.Spec.MetricConditions 90 120 lt L.a L.b L.c L.alpha L.beta L.gamma →
        0 < L.dmt.det → ∀ G, (G = S.pg ∨ G = S.laue) →
          SpaceGroup.Spec.IsGroup Mat.mul Mat.one (recipSym L G) ∧ (recipSym L G).head? = some Mat.one := by
  obtain ⟨S, lt, e, el, hrec⟩ := reciprocal_operators sg setting h1 h2
  refine ⟨S, lt, e, el, ?_⟩
  intro L hL hd G hG
  have hf := hrec L hL hd G hG
  obtain ⟨S', e', hgl, _⟩ := laueGroup_forms_group sg setting h1 (by omega)
  rw [e] at e'; cases e'
  obtain ⟨S', e', hgp, _⟩ := pointGroup_forms_group sg setting h1 (by omega)
  rw [e] at e'; cases e'
  have hGg : SpaceGroup.Spec.IsGroup Mat.mul Mat.one G := by rcases hG with rfl | rfl <;> assumption
  have hh : G.head? = some Mat.one := by
    have := pg_head sg setting h1 h2 S e
    rcases hG with rfl | rfl
    · exact this.1
    · exact this.2
  have hhead : (recipSym L G).head? = some Mat.one := by
    cases G with
    | nil => cases hh
    | cons g gs => simpa [recipSym] using hh
  have hc := recip_closed _ _ hGg hhead hf
  refine ⟨⟨?_, hc.one_mem, fun x _ => Mat.one_mul x, fun x _ => Mat.mul_one x, hc.mul,
    fun x _ y _ z _ => Mat.mul_assoc x y z, hc.inv⟩, hhead⟩
  exact nodup_of_forall₂ hGg.nodup hf

theorem mono_rmt : (Cell.mk 1 1 1 90 120 90).rmt = UnitCell.symm (4 / 3) 1 (4 / 3) 0 (2 / 3) 0 := by
  refine Matrix.inv_eq_right_inv ?_
  rw [dmt_symmForm]
  ext i j
  fin_cases i <;> fin_cases j <;>
    simp [UnitCell.symm, Matrix.mul_apply, Fin.sum_univ_three, ca, cb, cg, cos_90, cos_120] <;> norm_num

theorem mono_len : calcLength ⟨1, 1, 1, 90, 120, 90⟩ (vec ⟨8, 0, -4⟩) .r = 8 := by
  rw [calcLength, metric, mono_rmt]
  have : (vec ⟨8, 0, -4⟩) ⬝ᵥ (Matrix.mulVec (UnitCell.symm (4 / 3) 1 (4 / 3) 0 (2 / 3) 0) (vec ⟨8, 0, -4⟩)) = 8 ^ 2 := by
    simp [vec, UnitCell.symm, Matrix.mulVec, dotProduct, Fin.sum_univ_three]
    norm_num
  rw [this, Real.sqrt_sq (by norm_num)]

theorem mono_limit : maxIndex ⟨1, 1, 1, 90, 120, 90⟩ (1 / 8) (fun n => ⟨n, 0, 0⟩) ≤ 7 := by
  refine Nat.sInf_le ⟨by norm_num, ?_⟩
  rw [dspacing, calcLength, metric, mono_rmt]
  have : (vec ⟨(7 : Nat), 0, 0⟩) ⬝ᵥ (Matrix.mulVec (UnitCell.symm (4 / 3) 1 (4 / 3) 0 (2 / 3) 0) (vec ⟨(7 : Nat), 0, 0⟩))
      = 196 / 3 := by
    simp [vec, UnitCell.symm, Matrix.mulVec, dotProduct, Fin.sum_univ_three]
    norm_num
  rw [this]
  have h8 : (8 : ℝ) ≤ Real.sqrt (196 / 3) := Real.le_sqrt_of_sq_le (by norm_num)
  have : 1 / Real.sqrt (196 / 3) ≤ 1 / 8 := one_div_le_one_div_of_le (by norm_num) h8
  exact not_lt.2 this

theorem mono_not_extinct (setting : Nat) (S : SGSym) (e : generateSGSym 10 setting = some S) :
    ¬ SpaceGroup.Spec.Extinct S.ops ⟨8, 0, -4⟩ := by
  obtain ⟨S', A, e', eA, hh⟩ := conds_extinct 10 setting (by omega) (by omega)
  rw [e] at e'; cases e'
  refine (hh _).1 ?_
  have : (condsOf 10).map (fun A => decide (∀ k ∈ properConds 10 A, k.holds ⟨8, 0, -4⟩)) = some true := by
    decide +kernel
  rw [eA] at this
  simpa using this

theorem mono_family (setting : Nat) (S : SGSym) (e : generateSGSym 10 setting = some S) {v : Vec}
    (hv : Spec.Equivalent (recipSym ⟨1, 1, 1, 90, 120, 90⟩ S.laue) ⟨8, 0, -4⟩ v) : v.x.natAbs = 8 := by
  obtain ⟨S', lt, e', el, hrec⟩ := reciprocal_operators 10 setting (by omega) (by omega)
  rw [e] at e'; cases e'
  have hlt : latticeTypeZ 10 = some .monoclinic := by decide +kernel
  obtain rfl : lt = .monoclinic := by
    rw [show ((10 : Nat) : Int) = 10 from rfl, hlt] at el
    simpa using el.symm
  have hf := hrec ⟨1, 1, 1, 90, 120, 90⟩ ⟨rfl, rfl⟩ mono_cell.1 S.laue (Or.inr rfl)
  obtain ⟨r, hr, rfl⟩ := hv
  obtain ⟨g, hg, h1, h2⟩ := (forall2_mem hf).1 r hr
  have h4 := (mono_rots 10 setting (by omega) (by omega) S e).2 g hg
  have hrr : r = g := by
    have hgg : ∀ g ∈ fourRots, g.transpose.mul g = Mat.one ∧ g.mul g.transpose = Mat.one := by decide
    have := inv_unique h1 (hgg g h4).2
    have := congrArg Mat.transpose this
    rwa [Mat.transpose_transpose, Mat.transpose_transpose] at this
  subst hrr
  have : ∀ g ∈ fourRots, (g.act ⟨8, 0, -4⟩).x.natAbs = 8 := by decide
  exact this r h4

theorem closed_of_group {sym : List Mat} (hG : SpaceGroup.Spec.IsGroup Mat.mul Mat.one sym)
    (hh : sym.head? = some Mat.one) : Closed sym := ⟨hh, hG.mul_mem, hG.inv_mem⟩

/-- The family of `g` has no member within the index limits. -/
theorem outside_not_listed {L : Cell} {sg : Nat} {S : SGSym} {sym : List Mat} {dmin : ℝ} (hF : Fits L S sym)
    (l' : List Vec) (ha : allowedHKLs sg (candidates L dmin) = some l') (hs : l'.Sublist (candidates L dmin))
    (hm : ∀ h ∈ l', ¬ SpaceGroup.Spec.Extinct S.ops h) (g : Vec)
    (hg : ∀ v, Spec.Equivalent sym g v → v ∉ candidates L dmin) (l : List Vec)
    (hl : getHKLs L sg sym dmin = some l) : ∀ r ∈ l, ¬ Spec.Equivalent sym g r := by
  intro r hr er
  obtain ⟨w, hw, ew⟩ := (((getHKLs_spec hF l' ha hs hm).2 l hl).1 r hr).2
  exact hg w (equiv_trans hF.closed er (equiv_symm hF.closed ew)) (hs.subset hw)

end Hexrd.Hkls
