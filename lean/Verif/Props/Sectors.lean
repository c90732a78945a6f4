import Verif.Props.Reduce
import Verif.Lemmas.IpfSector

/-!
C137: the sectors of the supergroups of the Laue groups hold one image of every direction; what is lost.
-/
namespace Hexrd.Ipf

open Matrix Hexrd.SpaceGroup Hexrd.UnitCell Hexrd.UnitCell.Cell Spec

/-- C137: every direction has an image in the sector. -/
theorem sector_reducible {g : PG} (hg : isSuper g) {L : Cell} (hu : Usable L) (hf : Fits L g) (v : V3) :
    ∃ G, superSyms L g = some G ∧ Reducible G (sector g) (some v) := by
  refine ⟨_, super_form hg hu hf, ?_⟩
  obtain ⟨m, hm, h⟩ := super_complete hg v
  obtain ⟨u1, u2⟩ := super_upper hg
  refine ⟨_, List.mem_map_of_mem hm, ?_⟩
  rw [Option.map_some, inside_upper _ u1 u2]
  exact h _ (by linarith [eps_pos])

/-- C137: two images of one direction that lie in the sector are the same if one of them is not next to the boundary. -/
theorem image_unique {g : PG} (hg : isSuper g) {L : Cell} (hu : Usable L) (hf : Fits L g) {G : List M3}
    (eG : superSyms L g = some G) {S T : M3} (hS : S ∈ G) (hT : T ∈ G) (v : V3)
    (h1 : Within (sector g) (3 * eps) (S *ᵥ v)) (h2 : inside (sector g) (some (T *ᵥ v)) = true) : T *ᵥ v = S *ᵥ v := by
  rw [super_form hg hu hf] at eG
  cases eG
  obtain ⟨m, hm, rfl⟩ := List.mem_map.1 hS
  obtain ⟨n, hn, rfl⟩ := List.mem_map.1 hT
  obtain ⟨m', hm', e1, e2⟩ := ops_inv hg m hm
  obtain ⟨u1, u2⟩ := super_upper hg
  rw [inside_upper _ u1 u2] at h2
  have key : cartOf g n *ᵥ v = cartOf g (n.mul m') *ᵥ (cartOf g m *ᵥ v) := by
    rw [cart_mul n hn m' hm', Matrix.mulVec_mulVec, Matrix.mul_assoc, ← cart_mul m' hm' m hm, e2, cart_one, Matrix.mul_one]
  rw [key] at h2 ⊢
  have := super_unique hg _ eps_pos.le h1 _ (ops_mul hg n hn m' hm') h2
  rw [this, cart_one, Matrix.one_mulVec]

/-- The operators of a supergroup keep lengths. -/
theorem super_norm {g : PG} (hg : isSuper g) {L : Cell} (hu : Usable L) (hf : Fits L g) {G : List M3}
    (eG : superSyms L g = some G) {S : M3} (hS : S ∈ G) (v : V3) : norm (S *ᵥ v) = norm v := by
  rw [super_form hg hu hf] at eG
  cases eG
  obtain ⟨m, hm, rfl⟩ := List.mem_map.1 hS
  unfold norm
  congr 1
  have h3 : √3 * √3 = 3 := Real.mul_self_sqrt (by norm_num)
  have hr : ∀ m ∈ ohOps, toReal m *ᵥ v ⬝ᵥ toReal m *ᵥ v = v ⬝ᵥ v := by
    intro m hm
    have hh : m.a * m.a + m.d * m.d + m.g * m.g = 1 ∧ m.b * m.b + m.e * m.e + m.h * m.h = 1 ∧
        m.c * m.c + m.f * m.f + m.i * m.i = 1 ∧ m.a * m.b + m.d * m.e + m.g * m.h = 0 ∧
        m.a * m.c + m.d * m.f + m.g * m.i = 0 ∧ m.b * m.c + m.e * m.f + m.h * m.i = 0 := by revert m; decide
    obtain ⟨q1, q2, q3, q4, q5, q6⟩ := hh
    replace q1 : (m.a * m.a + m.d * m.d + m.g * m.g : ℝ) = 1 := by exact_mod_cast q1
    replace q2 : (m.b * m.b + m.e * m.e + m.h * m.h : ℝ) = 1 := by exact_mod_cast q2
    replace q3 : (m.c * m.c + m.f * m.f + m.i * m.i : ℝ) = 1 := by exact_mod_cast q3
    replace q4 : (m.a * m.b + m.d * m.e + m.g * m.h : ℝ) = 0 := by exact_mod_cast q4
    replace q5 : (m.a * m.c + m.d * m.f + m.g * m.i : ℝ) = 0 := by exact_mod_cast q5
    replace q6 : (m.b * m.c + m.e * m.f + m.h * m.i : ℝ) = 0 := by exact_mod_cast q6
    rw [act_toReal]
    simp only [dotProduct, Fin.sum_univ_three, Matrix.cons_val_zero, Matrix.cons_val_one, Matrix.cons_val]
    linear_combination (v 0 ^ 2) * q1 + (v 1 ^ 2) * q2 + (v 2 ^ 2) * q3 + (2 * v 0 * v 1) * q4 + (2 * v 0 * v 2) * q5 +
      (2 * v 1 * v 2) * q6
  rcases hg with rfl | rfl | rfl | rfl
  · rw [cartOf, if_neg (by decide)]
    exact hr m (by clear hS; revert m; decide)
  · rw [cartOf, if_neg (by decide)]
    exact hr m (by clear hS; revert m; decide)
  · rw [cartOf, if_pos rfl]
    have hh : 2 * m.a * m.a - 2 * m.a * m.d + 2 * m.d * m.d = 2 ∧ 2 * m.b * m.b - 2 * m.b * m.e + 2 * m.e * m.e = 2 ∧
        2 * m.a * m.b - m.a * m.e - m.b * m.d + 2 * m.d * m.e = -1 ∧ m.i * m.i = 1 := by clear hS; revert m; decide
    obtain ⟨q1, q2, q3, q4⟩ := hh
    replace q1 : (2 * m.a * m.a - 2 * m.a * m.d + 2 * m.d * m.d : ℝ) = 2 := by exact_mod_cast q1
    replace q2 : (2 * m.b * m.b - 2 * m.b * m.e + 2 * m.e * m.e : ℝ) = 2 := by exact_mod_cast q2
    replace q3 : (2 * m.a * m.b - m.a * m.e - m.b * m.d + 2 * m.d * m.e : ℝ) = -1 := by exact_mod_cast q3
    replace q4 : (m.i * m.i : ℝ) = 1 := by exact_mod_cast q4
    rw [act_hex]
    simp only [dotProduct, Fin.sum_univ_three, Matrix.cons_val_zero, Matrix.cons_val_one, Matrix.cons_val]
    set A : ℝ := (m.a : ℝ) with hA
    set B : ℝ := (m.b : ℝ) with hB
    set D : ℝ := (m.d : ℝ) with hD
    set E : ℝ := (m.e : ℝ) with hE
    have r1 : (A - D / 2) ^ 2 + 3 * (D / 2) ^ 2 = 1 := by linear_combination q1 / 2
    have r2 : (A + 2 * B - D / 2 - E) ^ 2 / 3 + (D / 2 + E) ^ 2 = 1 := by linear_combination q1 / 6 + q2 * 2 / 3 + q3 * 2 / 3
    have r3 : (A - D / 2) * (A + 2 * B - D / 2 - E) / 3 + (D / 2) * (D / 2 + E) = 0 := by linear_combination q1 / 6 + q3 / 3
    linear_combination (v 0 ^ 2) * r1 + (v 1 ^ 2) * r2 + (v 2 ^ 2) * q4 + (2 * √3 * v 0 * v 1) * r3 +
      ((D / 2) ^ 2 * v 0 ^ 2 + ((A + 2 * B - D / 2 - E) / 3) ^ 2 * v 1 ^ 2) * h3
  · rw [cartOf, if_neg (by decide)]
    exact hr m hm

/-- The normalised rows: all as they are, or all divided by their lengths. -/
theorem normalize_rows (rows : List V3) (hn : ∀ r ∈ rows, norm r ≠ 0) (hb : ∃ r ∈ rows, eps < norm r) :
    ∃ ns, normalize rows = some ns ∧ ((∀ r ∈ rows, |norm r - 1| < eps) ∧ ns = rows.map some ∨
      ns = rows.map fun r => some ((norm r)⁻¹ • r)) := by
  unfold normalize
  split_ifs with h1 h2
  · exact ⟨_, rfl, Or.inl ⟨h1, rfl⟩⟩
  · refine ⟨_, rfl, Or.inr ?_⟩
    apply List.map_congr_left
    intro r hr
    rw [if_neg (hn r hr)]
  · exfalso
    apply h2
    obtain ⟨r, hr, hb⟩ := hb
    refine lt_of_lt_of_le hb ?_
    unfold norm
    apply Real.sqrt_le_sqrt
    refine List.single_le_sum ?_ _ (List.mem_map_of_mem (f := fun r : V3 => r ⬝ᵥ r) hr)
    intro x hx
    obtain ⟨y, -, rfl⟩ := List.mem_map.1 hx
    simp only [dotProduct, Fin.sum_univ_three]
    nlinarith [mul_self_nonneg (y 0), mul_self_nonneg (y 1), mul_self_nonneg (y 2)]

/-- C137: directions that are not null are all reduced, in their order: each row of the result is an image of the
direction under an operator, up to its length, and lies in the sector. -/
theorem reduce_super {g : PG} (hg : isSuper g) {L : Cell} (hu : Usable L) (hf : Fits L g) (rows : List V3)
    (hn : ∀ r ∈ rows, norm r ≠ 0) (hb : ∃ r ∈ rows, eps < norm r) :
    ∃ G out, superSyms L g = some G ∧ reduce G (sector g) rows = some out ∧ out.length = rows.length ∧
      ∀ (i : Nat) (r : V3), rows[i]? = some r → ∃ S ∈ G, ∃ c : ℝ, (c = 1 ∧ |norm r - 1| < eps ∨ c = (norm r)⁻¹) ∧
        out[i]? = some (some (S *ᵥ (c • r))) ∧ Within (sector g) (-eps) (S *ᵥ (c • r)) := by
  obtain ⟨ns, en, hns⟩ := normalize_rows rows hn hb
  obtain ⟨u1, u2⟩ := super_upper hg
  have eG := super_form hg hu hf
  have hsome : ∀ (i : Nat) (r : V3), rows[i]? = some r → ∃ c : ℝ, (c = 1 ∧ |norm r - 1| < eps ∨ c = (norm r)⁻¹) ∧
      ns[i]? = some (some (c • r)) := by
    intro i r hr
    rcases hns with ⟨h1, rfl⟩ | rfl
    · exact ⟨1, Or.inl ⟨rfl, h1 r (List.mem_of_getElem? hr)⟩, by rw [List.getElem?_map, hr, one_smul]; rfl⟩
    · exact ⟨(norm r)⁻¹, Or.inr rfl, by rw [List.getElem?_map, hr]; rfl⟩
  have hred : ∀ r ∈ ns, Reducible ((opsOf g).map (cartOf g)) (sector g) r := by
    intro r hr
    obtain ⟨v, rfl⟩ : ∃ v, r = some v := by
      rcases hns with ⟨h1, rfl⟩ | rfl <;> obtain ⟨y, -, rfl⟩ := List.mem_map.1 hr <;> exact ⟨_, rfl⟩
    obtain ⟨G, e, h⟩ := sector_reducible hg hu hf v
    rw [eG] at e
    cases e
    exact h
  have hne : rows ≠ [] := by
    rintro rfl
    obtain ⟨r, hr, -⟩ := hb
    cases hr
  obtain ⟨out, eo, hl, ho⟩ := reduce_first _ _ rows en hne hred
  refine ⟨_, out, eG, eo, hl, ?_⟩
  intro i r hr
  obtain ⟨c, hc, e⟩ := hsome i r hr
  have hlt : i < out.length := by rw [hl]; exact (List.getElem?_eq_some_iff.1 hr).1
  obtain ⟨before, S, after, es, e', hin, -⟩ := ho i _ out[i] e (List.getElem?_eq_getElem hlt)
  refine ⟨S, by rw [es]; simp, c, hc, ?_, ?_⟩
  · rw [List.getElem?_eq_getElem hlt, e']; rfl
  · rw [e', Option.map_some, inside_upper _ u1 u2] at hin
    exact hin

/-- C137: equivalent directions are reduced to the same direction, unless it is next to the boundary of the sector. -/
theorem reduce_equivalent {g : PG} (hg : isSuper g) {L : Cell} (hu : Usable L) (hf : Fits L g) {G : List M3}
    (eG : superSyms L g = some G) (rows rows' : List V3) (h1 : ∀ r ∈ rows, norm r = 1) (h1' : ∀ r ∈ rows', norm r = 1)
    {i j : Nat} {r : V3} {T : M3} (hT : T ∈ G) (hr : rows[i]? = some r) (hr' : rows'[j]? = some (T *ᵥ r)) {w : V3}
    {out out' : List (Option V3)} (e : reduce G (sector g) rows = some out) (e' : reduce G (sector g) rows' = some out')
    (hw : out[i]? = some (some w)) (hd : Within (sector g) (3 * eps) w) : out'[j]? = some (some w) := by
  have hb : eps < 1 := by unfold eps Cell.eps; norm_num
  obtain ⟨G1, o1, q1, q2, -, q4⟩ := reduce_super hg hu hf rows (fun r hr => by rw [h1 r hr]; norm_num)
    ⟨r, List.mem_of_getElem? hr, by rw [h1 r (List.mem_of_getElem? hr)]; exact hb⟩
  obtain ⟨G2, o2, p1, p2, -, p4⟩ := reduce_super hg hu hf rows' (fun r hr => by rw [h1' r hr]; norm_num)
    ⟨_, List.mem_of_getElem? hr', by rw [h1' _ (List.mem_of_getElem? hr')]; exact hb⟩
  rw [eG] at q1 p1
  cases q1; cases p1
  rw [e] at q2
  rw [e'] at p2
  cases q2; cases p2
  obtain ⟨S, hS, c, hc, es, -⟩ := q4 i r hr
  obtain ⟨S', hS', c', hc', es', hin⟩ := p4 j _ hr'
  have ec : c = 1 := by
    rcases hc with ⟨h, -⟩ | h
    · exact h
    · rw [h, h1 r (List.mem_of_getElem? hr), inv_one]
  have ec' : c' = 1 := by
    rcases hc' with ⟨h, -⟩ | h
    · exact h
    · rw [h, h1' _ (List.mem_of_getElem? hr'), inv_one]
  subst ec ec'
  rw [one_smul] at es es' hin
  rw [hw] at es
  have ew : w = S *ᵥ r := Option.some.inj (Option.some.inj es)
  obtain ⟨u1, u2⟩ := super_upper hg
  have hmul : S' * T ∈ G := by
    have eG' := eG
    rw [super_form hg hu hf] at eG'
    cases eG'
    obtain ⟨m, hm, rfl⟩ := List.mem_map.1 hS'
    obtain ⟨n, hn, rfl⟩ := List.mem_map.1 hT
    exact List.mem_map.2 ⟨m.mul n, ops_mul hg m hm n hn, cart_mul m hm n hn⟩
  rw [Matrix.mulVec_mulVec] at es' hin
  rw [es']
  congr 2
  rw [ew] at hd ⊢
  exact image_unique hg hu hf eG hS hmul r hd ((inside_upper _ u1 u2 _).2 hin)

/-- C137, disagreement: a null direction among others is not refused; its row is missing from the result. -/
theorem null_row_lost {g : PG} (hg : isSuper g) (syms : List M3) (rows : List V3) (h0 : (0 : V3) ∈ rows)
    (hb : ∃ r ∈ rows, eps < norm r) {out : List (Option V3)} (h : reduce syms (sector g) rows = some out) :
    out.length < rows.length := by
  have hn0 : norm (0 : V3) = 0 := by unfold norm; simp
  have e : ∃ ns, normalize rows = some ns ∧ none ∈ ns := by
    have hnot : ¬ ∀ r ∈ rows, |norm r - 1| < eps := by
      intro h
      have := h 0 h0
      rw [hn0] at this
      unfold eps Cell.eps at this
      norm_num at this
    have hs : √((rows.map fun r => r ⬝ᵥ r).sum) > eps := by
      obtain ⟨r, hr, hb⟩ := hb
      refine lt_of_lt_of_le hb ?_
      unfold norm
      apply Real.sqrt_le_sqrt
      refine List.single_le_sum ?_ _ (List.mem_map_of_mem (f := fun r : V3 => r ⬝ᵥ r) hr)
      intro x hx
      obtain ⟨y, -, rfl⟩ := List.mem_map.1 hx
      simp only [dotProduct, Fin.sum_univ_three]
      nlinarith [mul_self_nonneg (y 0), mul_self_nonneg (y 1), mul_self_nonneg (y 2)]
    unfold normalize
    rw [if_neg hnot, if_pos hs]
    refine ⟨_, rfl, List.mem_map.2 ⟨0, h0, ?_⟩⟩
    rw [if_pos hn0]
  obtain ⟨ns, en, hmem⟩ := e
  refine reduce_lost syms (sector g) rows en hmem ?_ h
  rintro ⟨S, -, hS⟩
  rw [Option.map_none, inside_none _ (super_upper hg).1] at hS
  cases hS

/-! ### Directions without an image -/

theorem within_d3d (t : ℝ) (x : V3) : Within (sector .d3d) t x ↔
    2 * t < x 0 + √3 * x 1 ∧ 2 * t < x 0 - √3 * x 1 ∧ 2 * t < √3 * x 2 := by
  have e1 : triple (vertex (sector .d3d) 0) (vertex (sector .d3d) 1) x = (x 0 + √3 * x 1) / 2 := by
    simp [sector, vertex, triple, cross, dotProduct, Fin.sum_univ_three]
    ring
  have e2 : triple (vertex (sector .d3d) 0) x (vertex (sector .d3d) 2) = (x 0 - √3 * x 1) / 2 := by
    simp [sector, vertex, triple, cross, dotProduct, Fin.sum_univ_three]
    ring
  have e3 : triple x (vertex (sector .d3d) 1) (vertex (sector .d3d) 2) = (√3 * x 2) / 2 := by
    simp [sector, vertex, triple, cross, dotProduct, Fin.sum_univ_three]
    ring
  unfold Within
  rw [e1, e2, e3, lt_div_iff₀ (by norm_num), lt_div_iff₀ (by norm_num), lt_div_iff₀ (by norm_num), mul_comm t]

/-- The Laue operators of the space groups of the class -31m. -/
def ops31m : List Mat :=
  [⟨1, 0, 0, 0, 1, 0, 0, 0, 1⟩, ⟨-1, 0, 0, 0, -1, 0, 0, 0, -1⟩, ⟨0, -1, 0, 1, -1, 0, 0, 0, 1⟩, ⟨0, -1, 0, -1, 0, 0, 0, 0, -1⟩,
   ⟨0, 1, 0, -1, 1, 0, 0, 0, -1⟩, ⟨0, 1, 0, 1, 0, 0, 0, 0, 1⟩, ⟨-1, 1, 0, -1, 0, 0, 0, 0, 1⟩, ⟨1, 0, 0, 1, -1, 0, 0, 0, -1⟩,
   ⟨1, -1, 0, 1, 0, 0, 0, 0, -1⟩, ⟨-1, 0, 0, -1, 1, 0, 0, 0, 1⟩, ⟨-1, 1, 0, 0, 1, 0, 0, 0, -1⟩, ⟨1, -1, 0, 0, -1, 0, 0, 0, 1⟩]

/-- The space groups of the Laue class -31m. -/
def groups31m : List Nat := [149, 151, 153, 157, 159, 162, 163]

set_option maxRecDepth 100000 in
theorem laue_31m : ∀ sg ∈ groups31m, ((generateSGSym sg 0).any fun S => S.laue.all fun m => ops31m.contains m) = true := by
  decide +kernel

/-- C137, disagreement: for the space groups 149, 151, 153, 157, 159, 162 and 163 the sector does not fit the operators of
the Laue group: no image of the direction `(1, 1, 1)` lies in it. -/
theorem trigonal_lost_fails (sg : Nat) (hs : sg ∈ groups31m) {L : Cell} (hu : Usable L) (hf : Fits L .d6h) :
    ∃ S, generateSGSym sg 0 = some S ∧ ¬ Reducible (S.laue.map (cartSym L)) (sector .d3d) (some ![1, 1, 1]) := by
  have key := laue_31m sg hs
  cases hS : generateSGSym sg 0 with
  | none => rw [hS] at key; cases key
  | some S =>
    rw [hS] at key
    refine ⟨S, rfl, ?_⟩
    rintro ⟨T, hT, hin⟩
    obtain ⟨m, hm, rfl⟩ := List.mem_map.1 hT
    simp only [Option.any_some, List.all_eq_true, List.contains_iff_mem] at key
    replace hm := key m hm
    have h6 : m ∈ d6hOps := by clear hT hin; revert m; decide
    obtain ⟨ha, hb, hc, hn⟩ := hu
    obtain ⟨k1, k2, k3, k4⟩ := hf
    rw [Option.map_some, inside_upper _ rfl rfl, cart_hex ha hc hn k1 k2 k3 k4 m h6, act_hex, within_d3d] at hin
    have he : eps < 1 / 100 := by unfold eps Cell.eps; norm_num
    have h3 : √3 * √3 = 3 := Real.mul_self_sqrt (by norm_num)
    have hl : (17 : ℝ) / 10 ≤ √3 := Real.le_sqrt_of_sq_le (by norm_num)
    have hu' : √3 ≤ 2 := by nlinarith
    obtain ⟨a1, a2, a3⟩ := hin
    clear hT key hS h6
    simp only [ops31m, List.mem_cons, List.not_mem_nil, or_false] at hm
    simp only [Matrix.cons_val_zero, Matrix.cons_val_one, Matrix.cons_val] at a1 a2 a3
    rcases hm with rfl | rfl | rfl | rfl | rfl | rfl | rfl | rfl | rfl | rfl | rfl | rfl <;> push_cast at a1 a2 a3 <;> nlinarith

theorem insideTriangle_opposite (s : Sector) (c : Nat × Nat × Nat) (hu : s.upper = false) (x : V3)
    (h3 : SignType.sign (snapDet (triple x (vertex s c.2.1) (vertex s c.2.2))) = 1)
    (h : SignType.sign (snapDet (triple (vertex s c.1) (vertex s c.2.1) x)) = -1 ∨
      SignType.sign (snapDet (triple (vertex s c.1) x (vertex s c.2.2))) = -1) : insideTriangle s c (some x) = false := by
  have key : ∀ a b : SignType, (a = -1 ∨ b = -1) → ([a, b, 1].dedup.length = 2 ∧ 0 ∉ [a, b, 1].dedup) ∨ 3 ≤ [a, b, 1].dedup.length := by
    decide
  unfold insideTriangle
  simp only [hu, Bool.false_eq_true, if_false, h3]
  rcases key _ _ h with ⟨k1, k2⟩ | k
  · split
    · rename_i e; have := e.symm.trans ((by convert k1)); omega
    · simpa using k2
    · rfl
  · split
    · rename_i e; exact absurd k (by convert (show ¬ 3 ≤ 1 by omega))
    · rename_i e; exact absurd k (by convert (show ¬ 3 ≤ 2 by omega))
    · rfl

/-- C137, disagreement: with the point groups instead of the Laue groups, the supergroup `c3v` of the space groups 143 to 146
and 156 to 161 lacks an operator, and the direction `(1, 1, 1)` has no image in its sector. -/
theorem c3v_lost_fails {L : Cell} (hu : Usable L) (hf : Fits L .d6h) :
    ∃ G, superSyms L .c3v = some G ∧ ¬ Reducible G (sector .c3v) (some ![1, 1, 1]) := by
  have key : ((generatePG .c3v).any fun l => l.all fun m =>
      [(⟨0, -1, 0, -1, 0, 0, 0, 0, 1⟩ : Mat), ⟨0, -1, 0, 1, -1, 0, 0, 0, 1⟩, ⟨1, 0, 0, 0, 1, 0, 0, 0, 1⟩, ⟨-1, 1, 0, 0, 1, 0, 0, 0, 1⟩,
        ⟨-1, 1, 0, -1, 0, 0, 0, 0, 1⟩].contains m) = true := by decide +kernel
  unfold superSyms
  cases hS : generatePG .c3v with
  | none => rw [hS] at key; cases key
  | some l =>
    rw [hS] at key
    refine ⟨_, rfl, ?_⟩
    rintro ⟨T, hT, hin⟩
    obtain ⟨m, hm, rfl⟩ := List.mem_map.1 hT
    simp only [Option.any_some, List.all_eq_true, List.contains_iff_mem] at key
    replace hm := key m hm
    have h6 : m ∈ d6hOps := by clear hT hin; revert m; decide
    obtain ⟨ha, hb, hc, hn⟩ := hu
    obtain ⟨k1, k2, k3, k4⟩ := hf
    rw [Option.map_some, cart_hex ha hc hn k1 k2 k3 k4 m h6, act_hex] at hin
    have he : eps < 1 / 100 := by unfold eps Cell.eps; norm_num
    have h3 : √3 * √3 = 3 := Real.mul_self_sqrt (by norm_num)
    have hl : (17 : ℝ) / 10 ≤ √3 := Real.le_sqrt_of_sq_le (by norm_num)
    have hu' : √3 ≤ 2 := by nlinarith
    clear hT key hS h6
    unfold inside at hin
    simp only [sector, List.any_cons, List.any_nil, Bool.or_false] at hin
    have e1 : ∀ x : V3, triple ![0, 0, 1] ![√3 / 2, -1 / 2, 0] x = (x 0 + √3 * x 1) / 2 := by
      intro x
      simp [triple, cross, dotProduct, Fin.sum_univ_three]
      ring
    have e2 : ∀ x : V3, triple ![0, 0, 1] x ![√3 / 2, 1 / 2, 0] = (x 0 - √3 * x 1) / 2 := by
      intro x
      simp [triple, cross, dotProduct, Fin.sum_univ_three]
      ring
    have e3 : ∀ x : V3, triple x ![√3 / 2, -1 / 2, 0] ![√3 / 2, 1 / 2, 0] = (√3 * x 2) / 2 := by
      intro x
      simp [triple, cross, dotProduct, Fin.sum_univ_three]
      ring
    have hpos : ∀ d : ℝ, 1 / 100 ≤ d → SignType.sign (snapDet d) = 1 := by
      intro d hd
      unfold snapDet
      rw [if_neg (by rw [not_lt, abs_of_nonneg (by linarith)]; linarith)]
      exact sign_pos (by linarith)
    have hneg : ∀ d : ℝ, d ≤ -(1 / 100) → SignType.sign (snapDet d) = -1 := by
      intro d hd
      unfold snapDet
      rw [if_neg (by rw [not_lt, abs_of_nonpos (by linarith)]; linarith)]
      exact sign_neg (by linarith)
    simp only [List.mem_cons, List.not_mem_nil, or_false] at hm
    rw [insideTriangle_opposite] at hin
    · cases hin
    · rfl
    all_goals simp only [vertex, List.getD_cons_zero, List.getD_cons_succ, e1, e2, e3]
    · apply hpos
      rcases hm with rfl | rfl | rfl | rfl | rfl <;> simp <;> linarith
    · rcases hm with rfl | rfl | rfl | rfl | rfl
      · left; apply hneg; simp; nlinarith
      · left; apply hneg; simp; nlinarith
      · right; apply hneg; simp; nlinarith
      · right; apply hneg; simp; nlinarith
      · left; apply hneg; simp; nlinarith

/-! ### Cases -/

theorem usable_cube : Usable ⟨1, 1, 1, 90, 90, 90⟩ ∧ ∀ g, g = .d2h ∨ g = .d4h ∨ g = .oh → Fits ⟨1, 1, 1, 90, 90, 90⟩ g := by
  refine ⟨⟨by norm_num, by norm_num, by norm_num, unit_cube.2⟩, ?_⟩
  rintro g (rfl | rfl | rfl)
  · exact ⟨rfl, rfl, rfl⟩
  · exact ⟨rfl, rfl, rfl, rfl⟩
  · exact ⟨rfl, rfl, rfl, rfl, rfl⟩

theorem usable_hex : Usable ⟨1, 1, 1, 90, 90, 120⟩ ∧ Fits ⟨1, 1, 1, 90, 90, 120⟩ .d6h := by
  refine ⟨⟨by norm_num, by norm_num, by norm_num, ?_⟩, rfl, rfl, rfl, rfl⟩
  have h3 : √3 * √3 = 3 := Real.mul_self_sqrt (by norm_num)
  have hl : (1 : ℝ) ≤ √3 := Real.le_sqrt_of_sq_le (by norm_num)
  have hu' : √3 ≤ 2 := by nlinarith
  obtain ⟨hd, hD⟩ := dsm0_hex (L := ⟨1, 1, 1, 90, 90, 120⟩) (by norm_num) (by norm_num) rfl rfl rfl rfl
  have hca : (Cell.mk 1 1 1 90 90 120).ca = 0 := by rw [ca, cos_90]
  have hcb : (Cell.mk 1 1 1 90 90 120).cb = 0 := by rw [cb, cos_90]
  have hcg : (Cell.mk 1 1 1 90 90 120).cg = -1 / 2 := by rw [cg, cos_120]
  have hsg : (Cell.mk 1 1 1 90 90 120).sg = √3 / 2 := by rw [sg, sin_120]
  have htg : (Cell.mk 1 1 1 90 90 120).tg = -√3 := by
    rw [tg, Real.tan_eq_sin_div_cos, sin_120, cos_120]; ring
  have hv : (Cell.mk 1 1 1 90 90 120).vol = √3 / 2 := by
    have := congrFun (congrFun hD 2) 2
    simp [dsm0, hsg] at this
    field_simp at this
    linarith
  have e1 : (√3)⁻¹ = √3 / 3 := by field_simp; linarith
  intro i j
  rw [hD]
  have he : Cell.eps ≤ 1 / 4 := by rw [Cell.eps]; norm_num
  have ab : ∀ t : ℝ, 1 / 4 ≤ t → Cell.eps ≤ |t| := fun t ht => by rw [abs_of_nonneg (by linarith)]; linarith
  have abn : ∀ t : ℝ, t ≤ -(1 / 4) → Cell.eps ≤ |t| := fun t ht => by rw [abs_of_nonpos (by linarith)]; linarith
  constructor
  · fin_cases i <;> fin_cases j <;> first
      | exact Or.inl rfl
      | (right; apply ab; simp; done)
      | (right; apply ab; simp; linarith)
      | (right; apply abn; simp; norm_num)
      | (right; apply ab; simp; norm_num)
  · fin_cases i <;> fin_cases j <;> simp only [rsm0, hca, hcb, hcg, hsg, htg, hv] <;> first
      | exact Or.inl rfl
      | (left; simp; done)
      | (right; apply ab; simp [e1]; linarith)
      | (right; apply ab; simp [e1]; done)
      | (right; apply ab; norm_num; done)
      | (right; apply ab; simp; rw [div_self (by positivity)]; norm_num)
      | (right; apply ab; simp; rw [le_div_iff₀ (by positivity)]; linarith)

example : ∃ G out, superSyms ⟨1, 1, 1, 90, 90, 90⟩ .oh = some G ∧ reduce G (sector .oh) [![1, 2, -3], ![-3, 1 / 2, 1]] = some out ∧
    out.length = 2 := by
  obtain ⟨G, out, h1, h2, h3, -⟩ := reduce_super (g := .oh) (Or.inr (Or.inr (Or.inr rfl))) usable_cube.1 (usable_cube.2 _ (by simp))
    [![1, 2, -3], ![-3, 1 / 2, 1]] (by
      intro r hr
      have : ∀ r : V3, r ⬝ᵥ r > 0 → norm r ≠ 0 := fun r h => by unfold norm; positivity
      simp only [List.mem_cons, List.not_mem_nil, or_false] at hr
      rcases hr with rfl | rfl <;> apply this <;> simp [dotProduct, Fin.sum_univ_three] <;> norm_num)
    ⟨![1, 2, -3], by simp, by
      have : (1 : ℝ) ≤ norm ![1, 2, -3] := by
        unfold norm
        apply Real.le_sqrt_of_sq_le
        simp [dotProduct, Fin.sum_univ_three]; norm_num
      unfold eps Cell.eps
      linarith [show (1 : ℝ) / 2 ^ 26 < 1 by norm_num]⟩
  exact ⟨G, out, h1, h2, h3⟩

/-- A direction deep inside the cubic sector. -/
example : Within (sector .oh) (3 * eps) ![2 / 7, 1 / 7, 4 / 7] := by
  rw [within_oh]
  obtain ⟨b1, b2, b3, b4, b5, b6⟩ := sqrt_bounds
  have he : eps < 1 / 1000 := by unfold eps Cell.eps; norm_num
  have hp := eps_pos
  simp only [Matrix.cons_val_zero, Matrix.cons_val_one, Matrix.cons_val]
  refine ⟨by nlinarith, by nlinarith, by nlinarith⟩

end Hexrd.Ipf
