import Verif.Lemmas.HklFamily
import Verif.Lemmas.Absences
import Verif.Props.UnitCell

/-! The candidates of `getHKLs` cover every family in range. -/
namespace Hexrd.Hkls

open Hexrd.SpaceGroup Hexrd.UnitCell

/-! ### Extinction is the same for equivalent reflections -/

def dot (u v : Vec) : Int := u.x * v.x + u.y * v.y + u.z * v.z

theorem dot_act (h : Vec) (m : Mat) (t : Vec) : dot h (m.act t) = dot (m.transpose.act h) t := by
  simp only [dot, Mat.act, Mat.transpose]; ring

theorem dot_add (h s t : Vec) : dot h (s.add t) = dot h s + dot h t := by
  simp only [dot, Vec.add]; ring

theorem fixes_iff (p : Op) (h : Vec) : Spec.Fixes p h ↔ p.r.transpose.act h = h := by
  obtain ⟨x, y, z⟩ := h
  simp only [Spec.Fixes, Mat.act, Mat.transpose, Vec.mk.injEq]
  constructor <;> rintro ⟨h1, h2, h3⟩ <;> refine ⟨?_, ?_, ?_⟩ <;> linarith

theorem whole_iff (p : Op) (h : Vec) : Spec.WholePhase p h ↔ (24 : Int) ∣ dot h p.t := Iff.rfl

theorem frac_dvd (h t : Vec) : (24 : Int) ∣ dot h ⟨t.x % 24, t.y % 24, t.z % 24⟩ - dot h t := by
  refine ⟨-(h.x * (t.x / 24) + h.y * (t.y / 24) + h.z * (t.z / 24)), ?_⟩
  have e1 := Int.emod_add_mul_ediv t.x 24
  have e2 := Int.emod_add_mul_ediv t.y 24
  have e3 := Int.emod_add_mul_ediv t.z 24
  simp only [dot]
  linear_combination h.x * e1 + h.y * e2 + h.z * e3

theorem comp_dot (p q : Op) (h : Vec) :
    (24 : Int) ∣ dot h (p.comp q).t - (dot (p.r.transpose.act h) q.t + dot h p.t) := by
  have := frac_dvd h ((p.r.act q.t).add p.t)
  rw [dot_add, dot_act] at this
  exact this

theorem extinct_act (ops : List Op) (hg : Spec.IsGroup Op.comp Op.one ops) (q : Op) (hq : q ∈ ops) (r : Mat)
    (h2 : q.r.mul r.transpose = Mat.one) (h : Vec) (he : Spec.Extinct ops (r.act h)) :
    Spec.Extinct ops h := by
  obtain ⟨p, hp, hf, hw⟩ := he
  obtain ⟨q', hq', e1, e2⟩ := hg.inv_mem q hq
  have er : q'.r.mul q.r = Mat.one := congrArg Op.r e2
  have hr : q'.r = r.transpose := inv_unique er h2
  have hrt : q'.r.transpose = r := by rw [hr]; rfl
  rw [fixes_iff] at hf
  rw [whole_iff] at hw
  refine ⟨q'.comp (p.comp q), hg.mul_mem _ hq' _ (hg.mul_mem _ hp _ hq), ?_, ?_⟩
  · rw [fixes_iff]
    change (q'.r.mul (p.r.mul q.r)).transpose.act h = h
    rw [transpose_mul, transpose_mul, act_mul, act_mul, hrt, hf, ← act_mul]
    have : q.r.transpose.mul r = Mat.one := by
      have := congrArg Mat.transpose er
      rw [transpose_mul, hrt] at this
      exact this
    rw [this, act_one]
  · rw [whole_iff]
    intro hd
    refine hw ?_
    have a1 := comp_dot q' (p.comp q) h
    rw [hrt] at a1
    have a2 := comp_dot p q (r.act h)
    rw [hf] at a2
    have a3 := comp_dot q' q h
    rw [e2, hrt] at a3
    have a4 : dot h Op.one.t = 0 := by simp [dot, Op.one]
    rw [a4] at a3
    omega

theorem extinct_neg (ops : List Op) (h : Vec) (he : Spec.Extinct ops ⟨-h.x, -h.y, -h.z⟩) : Spec.Extinct ops h := by
  obtain ⟨p, hp, ⟨f1, f2, f3⟩, hw⟩ := he
  refine ⟨p, hp, ⟨by linarith, by linarith, by linarith⟩, fun hd => hw ?_⟩
  have : -h.x * p.t.x + -h.y * p.t.y + -h.z * p.t.z = -(h.x * p.t.x + h.y * p.t.y + h.z * p.t.z) := by ring
  unfold Spec.WholePhase at hd ⊢
  simp only [this]
  exact Int.dvd_neg.2 hd

/-- What the theorems use about the operators of a space group in a fitting cell. -/
structure Fits (L : Cell) (S : SGSym) (sym : List Mat) : Prop where
  closed : Closed sym
  extinct : ∀ u v, Spec.Equivalent sym u v → Spec.Extinct S.ops u → Spec.Extinct S.ops v
  length : ∀ u v, Spec.Equivalent sym u v → calcLength L (vec v) .r = calcLength L (vec u) .r
  mem : ∀ r : Mat, ∀ g ∈ S.laue, r.transpose.mul g = Mat.one → r ∈ sym

theorem vec_act (r : Mat) (g : Vec) : vec (r.act g) = (toReal r).mulVec (vec g) := by
  ext i
  fin_cases i <;> simp [vec, Mat.act, toReal, Matrix.mulVec, dotProduct, Fin.sum_univ_three]

theorem fits (sg setting : Nat) (h1 : 1 ≤ sg) (h2 : sg ≤ 230) :
    ∃ S lt, generateSGSym sg setting = some S ∧ latticeTypeZ sg = some lt ∧
      ∀ L : Cell, SpaceGroup.Spec.MetricConditions 90 120 lt L.a L.b L.c L.alpha L.beta L.gamma →
        0 < L.dmt.det → Fits L S (recipSym L S.laue) := by
  obtain ⟨S, lt, e, el, hiff⟩ := pg_invariant sg setting h1 h2
  refine ⟨S, lt, e, el, ?_⟩
  intro L hL hd
  have hinv := (hiff _ _ _ _ _ _).1 (conditions_form lt L hL)
  rw [← dmt_symmForm] at hinv
  have hf := recip_spec sg setting h1 h2 S e L hd hinv S.laue (Or.inr rfl)
  obtain ⟨S', e', hgl, hlm, _⟩ := laueGroup_forms_group sg setting h1 (by omega)
  rw [e] at e'; cases e'
  obtain ⟨S', e', hgo, _⟩ := operators_form_group sg setting h1 (by omega)
  rw [e] at e'; cases e'
  obtain ⟨S', e', _, _, hpg⟩ := pointGroup_forms_group sg setting h1 (by omega)
  rw [e] at e'; cases e'
  have hhead : (recipSym L S.laue).head? = some Mat.one := by
    have := (pg_head sg setting h1 h2 S e).2
    cases hl : S.laue with
    | nil => rw [hl] at this; cases this
    | cons g gs => rw [hl] at this; simpa [recipSym] using this
  obtain ⟨m1, m2⟩ := forall2_mem hf
  have hinvl : ∀ m ∈ S.laue, Invariant L.dmt m := by
    intro m hm
    rcases (hlm m).1 hm with h | h
    · exact hinv m h
    · have := invariant_neg _ _ (hinv _ h)
      rwa [Mat.neg_neg] at this
  refine ⟨recip_closed _ _ hgl hhead hf, ?_, ?_, ?_⟩
  · rintro u v ⟨r, hr, rfl⟩ hu
    have hc := recip_closed _ _ hgl hhead hf
    -- use the inverse operator
    obtain ⟨n, hn, _, hnr⟩ := hc.inv r hr
    have hu' : Spec.Extinct S.ops (n.act (r.act u)) := by rw [← act_mul, hnr, act_one]; exact hu
    generalize r.act u = w at hu' ⊢
    obtain ⟨g, hg, g1, g2⟩ := m1 n hn
    rcases (hlm g).1 hg with hp | hp
    · obtain ⟨q, hq, rfl⟩ := (hpg g).1 hp
      exact extinct_act S.ops hgo q hq n g2 w hu'
    · obtain ⟨q, hq, hqr⟩ := (hpg _).1 hp
      refine extinct_act S.ops hgo q hq n.neg ?_ w (extinct_neg _ _ ?_)
      · rw [hqr]
        have : n.neg.transpose = n.transpose.neg := rfl
        rw [this, Mat.neg_mul, Mat.mul_neg, Mat.neg_neg, g2]
      · have : (⟨-(n.neg.act w).x, -(n.neg.act w).y, -(n.neg.act w).z⟩ : Vec) = n.act w := by
          simp only [Mat.act, Mat.neg, Vec.mk.injEq]
          refine ⟨?_, ?_, ?_⟩ <;> ring
        rw [this]; exact hu'
  · rintro u v ⟨r, hr, rfl⟩
    obtain ⟨g, hg, g1, _⟩ := m1 r hr
    rw [vec_act]
    exact reciprocal_operators_isometric hd g r (hinvl g hg) g1 _
  · intro r g hg hr
    obtain ⟨r', hr', h1, h2⟩ := m2 g hg
    have : r.transpose = r'.transpose := inv_unique hr h2
    have := congrArg Mat.transpose this
    rw [Mat.transpose_transpose, Mat.transpose_transpose] at this
    exact this ▸ hr'

/-! ### The index limits -/

/-- The reciprocal metric has no mixed terms with `l`, and the term with `hk` is absent or
the hexagonal one. -/
structure Flat (L : Cell) (A B C U : ℝ) : Prop where
  eq : L.rmt = symm A B C U 0 0
  posA : 0 < A
  posB : 0 < B
  posC : 0 < C
  hex : U = 0 ∨ (A = B ∧ 2 * U = A)

theorem len_sq {L : Cell} {A B C U : ℝ} (hL : Flat L A B C U) (g : Vec) :
    calcLength L (vec g) .r = Real.sqrt (A * g.x ^ 2 + B * g.y ^ 2 + C * g.z ^ 2 + 2 * U * (g.x * g.y)) := by
  rw [calcLength, metric, hL.eq]
  congr 1
  simp [vec, UnitCell.symm, Matrix.mulVec, dotProduct, Fin.sum_univ_three]
  ring

theorem flat_of_form (lt : LatticeType) (L : Cell)
    (ha : L.a ≠ 0) (hb : L.b ≠ 0) (hc : L.c ≠ 0)
    (h : Form lt (L.a ^ 2) (L.b ^ 2) (L.c ^ 2) (L.a * L.b * L.cg) (L.a * L.c * L.cb) (L.b * L.c * L.ca))
    (hlt : (lt = .hexagonal ∨ lt = .trigonal) ∨
      (L.a * L.b * L.cg = 0 ∧ L.a * L.c * L.cb = 0 ∧ L.b * L.c * L.ca = 0)) :
    ∃ A B C U, Flat L A B C U ∧ (U = 0 ∨ lt = .hexagonal ∨ lt = .trigonal) := by
  have hinv : ∀ M : M3, L.dmt * M = 1 → L.rmt = M := fun M hM => Matrix.inv_eq_right_inv hM
  have pa : 0 < L.a ^ 2 := by positivity
  have pb : 0 < L.b ^ 2 := by positivity
  have pc : 0 < L.c ^ 2 := by positivity
  rcases hlt with hlt | ⟨z1, z2, z3⟩
  · have hf : L.a ^ 2 = L.b ^ 2 ∧ L.a * L.c * L.cb = 0 ∧ L.b * L.c * L.ca = 0 ∧ 2 * (L.a * L.b * L.cg) = -L.a ^ 2 := by
      rcases hlt with rfl | rfl <;> simpa [Form] using h
    obtain ⟨f1, f2, f3, f4⟩ := hf
    refine ⟨4 / (3 * L.a ^ 2), 4 / (3 * L.a ^ 2), 1 / L.c ^ 2, 2 / (3 * L.a ^ 2),
      ⟨hinv _ ?_, by positivity, by positivity, by positivity, Or.inr ⟨rfl, by field_simp; norm_num⟩⟩, Or.inr hlt⟩
    have f4' : L.a * L.b * L.cg = -L.a ^ 2 / 2 := by linarith
    rw [dmt_symmForm, f2, f3, f4', ← f1]
    ext i j
    fin_cases i <;> fin_cases j <;> simp [UnitCell.symm, Matrix.mul_apply, Fin.sum_univ_three] <;> field_simp <;> norm_num
  · refine ⟨1 / L.a ^ 2, 1 / L.b ^ 2, 1 / L.c ^ 2, 0,
      ⟨hinv _ ?_, by positivity, by positivity, by positivity, Or.inl rfl⟩, Or.inl rfl⟩
    rw [dmt_symmForm, z1, z2, z3]
    ext i j
    fin_cases i <;> fin_cases j <;> simp [UnitCell.symm, Matrix.mul_apply, Fin.sum_univ_three] <;> field_simp

/-- The index limit of an axis is large enough. -/
theorem maxIndex_bound (L : Cell) (dmin : ℝ) (hdm : 0 < dmin) (e : Nat → Vec) (A : ℝ) (hA : 0 < A)
    (he : ∀ n : Nat, calcLength L (vec (e n)) .r = n * Real.sqrt A) (x : Int) (Q : ℝ)
    (hx : A * (x : ℝ) ^ 2 ≤ Q) (hQ : 0 < Q) (hd : dmin ≤ 1 / Real.sqrt Q) : x.natAbs ≤ maxIndex L dmin e := by
  have hs : 0 < Real.sqrt A := Real.sqrt_pos.2 hA
  have hne : {n | 1 ≤ n ∧ ¬ dspacing L (e n) > dmin}.Nonempty := by
    obtain ⟨n, hn⟩ := exists_nat_gt (1 / (Real.sqrt A * dmin))
    have hn0 : (0 : ℝ) < n := lt_trans (by positivity) hn
    refine ⟨n, ?_, ?_⟩
    · have : 0 < n := by exact_mod_cast hn0
      exact this
    · rw [dspacing, he, gt_iff_lt, not_lt, div_le_iff₀ (by positivity)]
      rw [div_lt_iff₀ (by positivity)] at hn
      nlinarith
  have hmem : 1 ≤ maxIndex L dmin e ∧ ¬ dspacing L (e (maxIndex L dmin e)) > dmin := Nat.sInf_mem hne
  obtain ⟨n1, n2⟩ := hmem
  generalize maxIndex L dmin e = N at n1 n2 ⊢
  have hN : (0 : ℝ) < N := by exact_mod_cast n1
  rw [dspacing, he, gt_iff_lt, not_lt, div_le_iff₀ (by positivity)] at n2
  have hsq : 0 < Real.sqrt Q := Real.sqrt_pos.2 hQ
  rw [le_div_iff₀ hsq] at hd
  have hxs : |(x : ℝ)| * Real.sqrt A ≤ Real.sqrt Q := by
    refine Real.le_sqrt_of_sq_le ?_
    rw [mul_pow, sq_abs, Real.sq_sqrt hA.le]
    linarith
  have : |(x : ℝ)| * Real.sqrt A * dmin ≤ N * Real.sqrt A * dmin := by nlinarith
  have : |(x : ℝ)| ≤ N := by
    have h1 : |(x : ℝ)| * (Real.sqrt A * dmin) ≤ N * (Real.sqrt A * dmin) := by linarith
    exact le_of_mul_le_mul_right h1 (by positivity)
  have h3 : |x| ≤ (N : Int) := by exact_mod_cast this
  rw [Int.abs_eq_natAbs] at h3
  omega

theorem mem_box (ih ik il : Nat) (g : Vec) :
    g ∈ box ih ik il ↔ g.x.natAbs ≤ ih ∧ g.y.natAbs ≤ ik ∧ 0 ≤ g.z ∧ g.z.natAbs ≤ il := by
  obtain ⟨x, y, z⟩ := g
  simp only [box, List.mem_flatMap, List.mem_map, mem_pmrange, List.mem_range, Vec.mk.injEq]
  constructor
  · rintro ⟨h, hh, k, hk, l, ⟨i, hi, rfl⟩, rfl, rfl, rfl⟩
    exact ⟨hh, hk, by omega, by omega⟩
  · rintro ⟨h1, h2, h3, h4⟩
    exact ⟨x, h1, y, h2, z, ⟨(il - z.natAbs), by omega, by omega⟩, rfl, rfl, rfl⟩

theorem box_nodup (ih ik il : Nat) : (box ih ik il).Nodup := by
  have h1 : ((List.range (il + 1)).map fun (i : Nat) => (il : Int) - i).Nodup :=
    List.Nodup.map (fun a b hab => by have : (il : Int) - a = il - b := hab; omega) List.nodup_range
  rw [box, List.nodup_flatMap]
  refine ⟨fun h _ => ?_, ?_⟩
  · rw [List.nodup_flatMap]
    refine ⟨fun k _ => h1.map (fun a b hab => by simpa using hab), ?_⟩
    refine (pmrange_nodup ik).imp ?_
    intro a b hab v hv hv'
    simp only [List.mem_map] at hv hv'
    obtain ⟨_, _, rfl⟩ := hv
    obtain ⟨_, _, e⟩ := hv'
    exact hab ((Vec.mk.injEq .. ▸ e).2.1).symm
  · refine (pmrange_nodup ih).imp ?_
    intro a b hab v hv hv'
    simp only [List.mem_flatMap, List.mem_map] at hv hv'
    obtain ⟨_, _, _, _, rfl⟩ := hv
    obtain ⟨_, _, _, _, e⟩ := hv'
    exact hab ((Vec.mk.injEq .. ▸ e).1).symm

end Hexrd.Hkls
