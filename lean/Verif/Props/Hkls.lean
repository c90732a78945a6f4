import Verif.Lemmas.HklMono

/-!
# Properties of the generation of reflections (C21, C22, C23)

`getHKLs L sg sym dmin` models `unitcell.getHKLs`, with `sym` the reciprocal operators of the
Laue group, which is `recipSym L S.laue` (C58). `chooseSymmetric` models `ChooseSymmetric`,
`hklsBySS` models `_getHKLsBySS`.
-/
namespace Hexrd.Hkls

open Hexrd.SpaceGroup Hexrd.UnitCell Hexrd.UnitCell.Cell

/-- C22: `_getHKLsBySS(ss)` lists every triple of integers whose squares sum to `ss`, and
each exactly once. -/
theorem bySS_exact (ss : Nat) :
    (hklsBySS ss).Nodup ∧ ∀ h k l : Int, (⟨h, k, l⟩ : Vec) ∈ hklsBySS ss ↔ h ^ 2 + k ^ 2 + l ^ 2 = ss := by
  refine ⟨hklsBySS_nodup ss, fun h k l => ?_⟩
  rw [mem_hklsBySS, pow_two, pow_two, pow_two]

/-- Concrete case: the sum 7 has no triple, the sum 1 has six. -/
example : hklsBySS 7 = [] ∧ hklsBySS 1 = [⟨1,0,0⟩, ⟨0,1,0⟩, ⟨0,0,1⟩, ⟨0,0,-1⟩, ⟨0,-1,0⟩, ⟨-1,0,0⟩] := by decide +kernel

/-- C23: for every group of integer matrices with the identity first and every list without
repetitions: no two reflections of the result are equivalent, every reflection of the list
is equivalent to one of the result, every reflection of the result is equivalent to one of
the list, and none of its equivalents has a larger sum of indices. -/
theorem one_per_family (sym : List Mat) (hG : SpaceGroup.Spec.IsGroup Mat.mul Mat.one sym)
    (hh : sym.head? = some Mat.one) (l : List Vec) (hn : l.Nodup) :
    (chooseSymmetric sym l).Pairwise (fun a b => ¬ Spec.Equivalent sym a b) ∧
    (∀ g ∈ l, ∃ r ∈ chooseSymmetric sym l, Spec.Equivalent sym g r) ∧
    (∀ r ∈ chooseSymmetric sym l, (∃ g ∈ l, Spec.Equivalent sym g r) ∧
      ∀ v, Spec.Equivalent sym r v → v.x + v.y + v.z ≤ r.x + r.y + r.z) :=
  choose_spec (closed_of_group hG hh) l hn

/-- C23: the operators `unitcell` uses satisfy the hypotheses, for every space group and
every fitting cell, with and without the inversion. -/
theorem unitcell_operators_form_group (sg setting : Nat) (h1 : 1 ≤ sg) (h2 : sg ≤ 230) :
    ∃ S lt, generateSGSym sg setting = some S ∧ latticeTypeZ sg = some lt ∧
      ∀ L : Cell, SpaceGroup.Spec.MetricConditions 90 120 lt L.a L.b L.c L.alpha L.beta L.gamma →
        0 < L.dmt.det → ∀ G, (G = S.pg ∨ G = S.laue) →
          SpaceGroup.Spec.IsGroup Mat.mul Mat.one (recipSym L G) ∧ (recipSym L G).head? = some Mat.one :=
  recip_isGroup sg setting h1 h2

/-- C23 needs the list to be free of repetitions: a reflection given twice is kept twice. -/
theorem repeated_kept_twice :
    ∃ sym l, SpaceGroup.Spec.IsGroup Mat.mul Mat.one sym ∧ sym.head? = some Mat.one ∧
      chooseSymmetric sym l = [⟨1, 1, 1⟩, ⟨1, 1, 1⟩] := by
  refine ⟨[Mat.one], [⟨1, 1, 1⟩, ⟨1, 1, 1⟩], ⟨by decide, by decide, ?_, ?_, ?_, ?_, ?_⟩, rfl, by decide⟩
  all_goals simp only [List.mem_singleton, forall_eq, exists_eq_left]
  all_goals decide

/-- Concrete case: of `[(1 0 0), (-1 0 0), (0 2 0)]` under inversion, `(1 0 0)` and `(0 2 0)`
remain. -/
example : chooseSymmetric [Mat.one, Mat.minusOne] [⟨-1, 0, 0⟩, ⟨1, 0, 0⟩, ⟨0, 2, 0⟩] = [⟨1, 0, 0⟩, ⟨0, 2, 0⟩] := by
  decide

/-- C21, all space groups: what is listed is right. Every listed reflection is within the
range, no two are equivalent, each has the largest sum of indices in its family, and they
are in order of increasing length (rounded to 8 digits) and then of their indices. -/
theorem reflections_sound (sg setting : Nat) (h1 : 1 ≤ sg) (h2 : sg ≤ 230) :
    ∃ S lt, generateSGSym sg setting = some S ∧ latticeTypeZ sg = some lt ∧
      ∀ L : Cell, SpaceGroup.Spec.MetricConditions 90 120 lt L.a L.b L.c L.alpha L.beta L.gamma →
        0 < L.dmt.det → ∀ dmin : ℝ, 0 < dmin → ∀ l, getHKLs L sg (recipSym L S.laue) dmin = some l →
          (∀ r ∈ l, Spec.InRange L S.ops dmin r) ∧
          l.Pairwise (fun a b => ¬ Spec.Equivalent (recipSym L S.laue) a b) ∧
          (∀ r ∈ l, ∀ v, Spec.Equivalent (recipSym L S.laue) r v → v.x + v.y + v.z ≤ r.x + r.y + r.z) ∧
          l.Pairwise (Spec.Before fun g => round8 (Spec.glen L g)) := by
  obtain ⟨S, lt, e, el, hfits⟩ := fits sg setting h1 h2
  refine ⟨S, lt, e, el, ?_⟩
  intro L hL hd dmin _ l hl
  have hF := hfits L hL hd
  obtain ⟨S', l', e', ea, hs, hm⟩ := allowed_not_extinct sg setting h1 h2 (candidates L dmin)
  rw [e] at e'; cases e'
  obtain ⟨p1, p2, p3, p4, p5⟩ := (getHKLs_spec hF l' ea hs hm).2 l hl
  exact ⟨fun r hr => (p1 r hr).1, p3, p4, p5⟩

/-- C21 (partial: orthorhombic, tetragonal, trigonal, hexagonal and cubic groups): the list
is complete. The call fails exactly if nothing is in range, and otherwise a reflection is
in range exactly if it is equivalent to a listed one. -/
theorem reflections_complete_partial (sg setting : Nat) (h1 : 16 ≤ sg) (h2 : sg ≤ 230) :
    ∃ S lt, generateSGSym sg setting = some S ∧ latticeTypeZ sg = some lt ∧
      ∀ L : Cell, SpaceGroup.Spec.MetricConditions 90 120 lt L.a L.b L.c L.alpha L.beta L.gamma →
        0 < L.dmt.det → ∀ dmin : ℝ, 0 < dmin →
          (getHKLs L sg (recipSym L S.laue) dmin = none ↔ ∀ g, ¬ Spec.InRange L S.ops dmin g) ∧
          ∀ l, getHKLs L sg (recipSym L S.laue) dmin = some l →
            ∀ g, Spec.InRange L S.ops dmin g ↔ ∃ r ∈ l, Spec.Equivalent (recipSym L S.laue) g r := by
  obtain ⟨S, lt, e, el, hfits⟩ := fits sg setting (by omega) h2
  refine ⟨S, lt, e, el, ?_⟩
  intro L hL hd dmin hdm
  have hF := hfits L hL hd
  obtain ⟨l', ea, hs, hm, hcov⟩ := cover_allowed sg setting h1 h2 S e lt el L hL hd hF hdm
  obtain ⟨q, hq⟩ := getHKLs_spec hF l' ea hs hm
  refine ⟨q.trans ⟨fun h g hg => ?_, fun h g _ => h g⟩, ?_⟩
  · obtain ⟨g', hg', eg⟩ := hcov g hg
    exact h g' hg' (inRange_equiv hF (equiv_symm hF.closed eg) hg)
  · intro l hl g
    obtain ⟨p1, p2, _⟩ := hq l hl
    constructor
    · intro hg
      obtain ⟨g', hg', eg⟩ := hcov g hg
      obtain ⟨r, hr, er⟩ := p2 g' hg' (inRange_equiv hF (equiv_symm hF.closed eg) hg)
      exact ⟨r, hr, equiv_trans hF.closed (equiv_symm hF.closed eg) er⟩
    · rintro ⟨r, hr, er⟩
      exact inRange_equiv hF (equiv_symm hF.closed er) (p1 r hr).1

/-- C21 fails for monoclinic cells: in P2/m (10) with a = b = c = 1 and beta = 120 degrees
the reflection (8 0 -4) has lattice spacing 1/8, and no equivalent of it is listed for
`dmin = 1/8`, because `h` is searched only up to 7. -/
theorem reflections_incomplete (setting : Nat) :
    ∃ S, generateSGSym 10 setting = some S ∧ latticeTypeZ 10 = some .monoclinic ∧
      SpaceGroup.Spec.MetricConditions (90 : ℝ) 120 .monoclinic 1 1 1 90 120 90 ∧
      0 < (Cell.mk 1 1 1 90 120 90).dmt.det ∧
      Spec.InRange ⟨1, 1, 1, 90, 120, 90⟩ S.ops (1 / 8) ⟨8, 0, -4⟩ ∧
      ∀ l, getHKLs ⟨1, 1, 1, 90, 120, 90⟩ 10 (recipSym ⟨1, 1, 1, 90, 120, 90⟩ S.laue) (1 / 8) = some l →
        ∀ r ∈ l, ¬ Spec.Equivalent (recipSym ⟨1, 1, 1, 90, 120, 90⟩ S.laue) ⟨8, 0, -4⟩ r := by
  obtain ⟨S, lt, e, el, hfits⟩ := fits 10 setting (by omega) (by omega)
  have hlt : latticeTypeZ 10 = some .monoclinic := by decide +kernel
  obtain rfl : lt = .monoclinic := by
    rw [show ((10 : Nat) : Int) = 10 from rfl, hlt] at el
    simpa using el.symm
  have hM : SpaceGroup.Spec.MetricConditions (90 : ℝ) 120 .monoclinic 1 1 1 90 120 90 := ⟨rfl, rfl⟩
  have hF := hfits ⟨1, 1, 1, 90, 120, 90⟩ hM mono_cell.1
  refine ⟨S, e, hlt, hM, mono_cell.1, ⟨by decide, mono_not_extinct setting S e, ?_⟩, ?_⟩
  · rw [glen_eq, mono_len]
  · obtain ⟨S', l', e', ea, hs, hm⟩ := allowed_not_extinct 10 setting (by omega) (by omega)
      (candidates ⟨1, 1, 1, 90, 120, 90⟩ (1 / 8))
    rw [e] at e'; cases e'
    refine fun l hl => outside_not_listed hF l' ea hs hm _ ?_ l hl
    intro v hv hc
    have hx := mono_family setting S e hv
    rw [candidates, mem_box] at hc
    have := hc.1
    have hi := mono_limit
    omega

/-- Concrete case for the completeness theorem: the hypotheses hold for the unit cube in
every cubic group, and (1 0 0) is in range there for Pm-3m (221) and `dmin = 1`. -/
example : SpaceGroup.Spec.MetricConditions (90 : ℝ) 120 .cubic 1 1 1 90 90 90 ∧
    0 < (Cell.mk 1 1 1 90 90 90).dmt.det ∧ (1 : ℝ) ≤ 1 / Spec.glen ⟨1, 1, 1, 90, 90, 90⟩ ⟨1, 0, 0⟩ := by
  refine ⟨⟨rfl, rfl, rfl, rfl, rfl⟩, unit_cube.1, ?_⟩
  have : (Cell.mk 1 1 1 90 90 90).dmt = 1 := by
    rw [dmt_symmForm]
    ext i j
    fin_cases i <;> fin_cases j <;> simp [UnitCell.symm, ca, cb, cg, cos_90]
  rw [Spec.glen, this]
  simp [dotProduct, Fin.sum_univ_three]

end Hexrd.Hkls
