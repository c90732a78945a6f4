import Verif.Spec.Jcpds
import Verif.Props.UnitCell
import Mathlib.Tactic.NormNum

/-!
C112: JCPDS cards.
-/

namespace Hexrd.Jcpds

/-- Cards of version 2, 3 and 4: a card that is read has a cell as its crystal system requires, and its numbers are those of the line. -/
theorem readOld_spec (n : ℕ) (xs : List ℝ) (k : Card) (h : readOld n xs = some k) :
    (k.sym ≠ .manual → Conforms k.sym k.lat ∧ reduce k.sym k.lat <+: xs) ∧ k.sym ≠ .trigonal ∧ (1 ≤ n ∧ n ≤ 7) := by
  unfold readOld at h
  obtain ⟨l, hl, rfl⟩ := Option.map_eq_some_iff.mp h
  unfold oldLat at hl
  split at hl <;> first | (simp at hl; done) | skip
  all_goals
    simp only [Option.some.injEq] at hl
    subst hl
    refine ⟨fun hm => ⟨?_, ?_⟩, by simp [systemSym], by decide⟩
    all_goals first
      | (exact absurd rfl hm)
      | (simp [Conforms, systemSym]; done)
      | (simp [reduce, systemSym]; done)

/-- Every conforming cell of a material that is not trigonal is written in some such card. -/
theorem readOld_onto (s : Sym) (l : Lat) (h : Conforms s l) (ht : s ≠ .trigonal) :
    ∃ n, readOld n (reduce s l) = some ⟨s, l⟩ := by
  obtain ⟨a, b, c, al, be, ga⟩ := l
  cases s <;> simp only [Conforms] at h <;> first | (exact absurd rfl ht) | skip
  · obtain ⟨rfl, rfl, rfl, rfl, rfl⟩ := h; exact ⟨1, rfl⟩
  · obtain ⟨rfl, rfl, rfl, rfl⟩ := h; exact ⟨2, rfl⟩
  · obtain ⟨rfl, rfl, rfl, rfl⟩ := h; exact ⟨3, rfl⟩
  · obtain ⟨rfl, rfl, rfl⟩ := h; exact ⟨4, rfl⟩
  · obtain ⟨rfl, rfl⟩ := h; exact ⟨5, rfl⟩
  · exact ⟨6, rfl⟩

/-- What the lines leave, before the symmetry is applied. -/
theorem foldl_last {β : Type} (f : Line → Option β) (g : Card → β) (hs : ∀ k l, g (setLine k l) = (f l).getD (g k)) (lines : List Line) (k : Card) :
    g (lines.foldl setLine k) = ((lines.filterMap f).getLast?).getD (g k) := by
  induction lines generalizing k with
  | nil => simp
  | cons l ls ih =>
    rw [List.foldl_cons, ih, hs]
    cases hf : f l with
    | none => rw [List.filterMap_cons_none hf]; rfl
    | some x =>
      rw [List.filterMap_cons_some hf]
      cases hl : ls.filterMap f with
      | nil => simp
      | cons y ys =>
        rw [List.getLast?_cons_cons]
        obtain ⟨z, hz⟩ : ∃ z, (y :: ys).getLast? = some z := ⟨_, List.getLast?_eq_some_getLast (by simp)⟩
        simp [hz]

/-- The symmetry of a newer card is that of its last line for it. -/
theorem foldl_sym (lines : List Line) (k : Card) :
    (lines.foldl setLine k).sym = ((lines.filterMap fun l => match l with | .symmetry s => some s | _ => none).getLast?).getD k.sym := by
  exact foldl_last (fun l => match l with | .symmetry s => some s | _ => none) (fun k => k.sym) (fun k l => by cases l <;> rfl) lines k

/-- Newer cards: the symmetry is the last one given; for a symmetry of a material the cell is as that symmetry requires; the length of
the first axis is the last one given, and so are the other parameters as far as the symmetry leaves them free. The order of lines for
different parameters does not matter. -/
theorem readNew_spec (lines : List Line) :
    (readNew lines).sym = ((lines.filterMap fun l => match l with | .symmetry s => some s | _ => none).getLast?).getD .other ∧
      ((readNew lines).sym ≠ .manual → (readNew lines).sym ≠ .other → Conforms (readNew lines).sym (readNew lines).lat ∧
        reduce (readNew lines).sym (readNew lines).lat = reduce (readNew lines).sym
          ⟨lastOf (fun l => match l with | .a x => some x | _ => none) lines,
           lastOf (fun l => match l with | .b x => some x | _ => none) lines,
           lastOf (fun l => match l with | .c x => some x | _ => none) lines,
           lastOf (fun l => match l with | .alpha x => some x | _ => none) lines,
           lastOf (fun l => match l with | .beta x => some x | _ => none) lines,
           lastOf (fun l => match l with | .gamma x => some x | _ => none) lines⟩) := by
  have hc : ∀ k : Card, (complete k).sym = k.sym := fun k => rfl
  refine ⟨by rw [readNew, hc, foldl_sym], ?_⟩
  have ha := foldl_last (fun l => match l with | .a x => some x | _ => none) (fun k => k.lat.a) (fun k l => by cases l <;> rfl) lines ⟨.other, ⟨0, 0, 0, 0, 0, 0⟩⟩
  have hb := foldl_last (fun l => match l with | .b x => some x | _ => none) (fun k => k.lat.b) (fun k l => by cases l <;> rfl) lines ⟨.other, ⟨0, 0, 0, 0, 0, 0⟩⟩
  have hcc := foldl_last (fun l => match l with | .c x => some x | _ => none) (fun k => k.lat.c) (fun k l => by cases l <;> rfl) lines ⟨.other, ⟨0, 0, 0, 0, 0, 0⟩⟩
  have hal := foldl_last (fun l => match l with | .alpha x => some x | _ => none) (fun k => k.lat.al) (fun k l => by cases l <;> rfl) lines ⟨.other, ⟨0, 0, 0, 0, 0, 0⟩⟩
  have hbe := foldl_last (fun l => match l with | .beta x => some x | _ => none) (fun k => k.lat.be) (fun k l => by cases l <;> rfl) lines ⟨.other, ⟨0, 0, 0, 0, 0, 0⟩⟩
  have hga := foldl_last (fun l => match l with | .gamma x => some x | _ => none) (fun k => k.lat.ga) (fun k l => by cases l <;> rfl) lines ⟨.other, ⟨0, 0, 0, 0, 0, 0⟩⟩
  rw [readNew, hc]
  simp only [lastOf]
  simp only at ha hb hcc hal hbe hga
  rw [← ha, ← hb, ← hcc, ← hal, ← hbe, ← hga]
  generalize lines.foldl setLine ⟨.other, ⟨0, 0, 0, 0, 0, 0⟩⟩ = k
  intro hm ho
  obtain ⟨s, l⟩ := k
  cases s <;> first | (exact absurd rfl hm) | (exact absurd rfl ho) | (constructor <;> simp [complete, Conforms, reduce])

/-- A conforming cell is not changed by the material, and what the material makes of any cell is conforming. -/
theorem resetLat_spec (m m' : Mat) (h : resetLat m = some m') :
    m'.sym = m.sym ∧ Conforms m.sym m'.lat ∧ reduce m.sym m'.lat = reduce m.sym m.lat ∧ (Conforms m.sym m.lat → m'.lat = m.lat) := by
  unfold resetLat at h
  obtain ⟨l, hl, rfl⟩ := Option.map_eq_some_iff.mp h
  obtain ⟨s, ⟨a, b, c, al, be, ga⟩, v⟩ := m
  cases s <;> simp only [reduce, expand, Option.some.injEq, reduceCtorEq] at hl <;> subst hl <;> simp [Conforms, reduce] <;> grind

/-- The volume of a card is the volume of the unit cell. -/
theorem volume_cell (l : Lat) (ha : 0 ≤ l.a) (hb : 0 ≤ l.b) (hc : 0 ≤ l.c) :
    volume l = (⟨l.a, l.b, l.c, l.al, l.be, l.ga⟩ : UnitCell.Cell).vol := by
  unfold volume UnitCell.Cell.vol
  have hr : ∀ x : ℝ, x * (Real.pi / 180) = UnitCell.radians x := fun x => by unfold UnitCell.radians; ring
  simp only [hr]
  rw [← Real.sqrt_sq (mul_nonneg (mul_nonneg ha hb) hc), ← Real.sqrt_mul (sq_nonneg _)]
  congr 1
  simp [UnitCell.Cell.dmt, Matrix.det_fin_three, UnitCell.Cell.ca, UnitCell.Cell.cb, UnitCell.Cell.cg]
  ring

/-- Comparison with a material: an exception exactly if the symmetries differ, `False` exactly if some parameter differs by more than
the tolerance, and otherwise no value at all; the answer `True` is never given. -/
theorem matches_spec (isClose : ℝ → ℝ → Bool) (k : Card) (s : Sym) (l : Lat) :
    (matchesMaterial isClose k s l = none ↔ s ≠ k.sym) ∧
      (matchesMaterial isClose k s l = some (some false) ↔ s = k.sym ∧ ¬(isClose l.a k.lat.a ∧ isClose l.b k.lat.b ∧ isClose l.c k.lat.c ∧
        isClose l.al k.lat.al ∧ isClose l.be k.lat.be ∧ isClose l.ga k.lat.ga)) ∧
      matchesMaterial isClose k s l ≠ some (some true) := by
  unfold matchesMaterial
  by_cases h : s = k.sym
  · cases h1 : isClose l.a k.lat.a <;> cases h2 : isClose l.b k.lat.b <;> cases h3 : isClose l.c k.lat.c <;>
      cases h4 : isClose l.al k.lat.al <;> cases h5 : isClose l.be k.lat.be <;> cases h6 : isClose l.ga k.lat.ga <;>
      simp [h, h1, h2, h3, h4, h5, h6]
  · simp [h]

/-- Full agreement gives no answer. -/
theorem matches_silent (isClose : ℝ → ℝ → Bool) (hr : ∀ x, isClose x x) (k : Card) : matchesMaterial isClose k k.sym k.lat = some none := by
  simp [matchesMaterial, hr]

/-- A trigonal material never matches a card of version 2, 3 or 4: there is no number for its system. -/
theorem old_trigonal (isClose : ℝ → ℝ → Bool) (n : ℕ) (xs : List ℝ) (k : Card) (h : readOld n xs = some k) (l : Lat) :
    matchesMaterial isClose k .trigonal l = none :=
  (matches_spec isClose k .trigonal l).1.mpr fun e => (readOld_spec n xs k h).2.1 e.symm

/-- Writing to a material: refused exactly if the symmetries differ; otherwise the material has the cell of the card, keeps its
symmetry, its reference volume is the volume of the card, and comparing finds no difference. -/
theorem write_spec (k : Card) (m : Mat) :
    (writeLat k m = none ↔ m.sym ≠ k.sym) ∧
      ∀ m', writeLat k m = some m' → m'.sym = m.sym ∧ m'.lat = k.lat ∧ (0 ≤ k.lat.a → 0 ≤ k.lat.b → 0 ≤ k.lat.c → m'.v0 = volume k.lat) ∧
        ∀ isClose : ℝ → ℝ → Bool, (∀ x, isClose x x) → matchesMaterial isClose k m'.sym m'.lat ≠ some (some false) := by
  unfold writeLat
  by_cases h : m.sym = k.sym
  · refine ⟨by simp [h], fun m' hm => ?_⟩
    simp only [h, ne_eq, not_true_eq_false, if_false, Option.some.injEq] at hm
    subst hm
    refine ⟨h.symm, rfl, fun ha hb hc => (volume_cell k.lat ha hb hc).symm, fun isClose hr => ?_⟩
    simp only
    rw [matches_silent isClose hr]
    simp
  · simp [h]

/-- Reading a card of a material and writing it back: the material is valid. -/
theorem write_valid (n : ℕ) (xs : List ℝ) (k : Card) (h : readOld n xs = some k) (m m' : Mat) (hm : m.sym ≠ .manual)
    (hw : writeLat k m = some m') : Conforms m'.sym m'.lat := by
  have hs : m.sym = k.sym := by
    by_contra hne
    rw [((write_spec k m).1).mpr hne] at hw
    simp at hw
  obtain ⟨h1, h2, -⟩ := (write_spec k m).2 m' hw
  rw [h1, h2, hs]
  exact ((readOld_spec n xs k h).1 (hs ▸ hm)).1

/-! ## Concrete cases -/

/-- A hexagonal card. -/
noncomputable def hcp : Card := ⟨.hexagonal, ⟨3, 3, 5, 90, 90, 120⟩⟩

theorem hcp_old : readOld 2 [3, 5] = some hcp := rfl

theorem hcp_new : readNew [.c 5, .other, .symmetry .hexagonal, .a 4, .gamma 90, .a 3] = hcp := rfl

theorem hcp_volume : volume hcp.lat = 45 * (√3 / 2) := by
  unfold volume hcp
  have h1 : (90 : ℝ) * (Real.pi / 180) = Real.pi / 2 := by ring
  have h2 : (120 : ℝ) * (Real.pi / 180) = Real.pi - Real.pi / 3 := by ring
  simp only [h1, h2, Real.cos_pi_div_two, Real.cos_pi_sub, Real.cos_pi_div_three]
  have : √(1 - 0 ^ 2 - 0 ^ 2 - (-(1 / 2)) ^ 2 + 2 * 0 * 0 * -(1 / 2) : ℝ) = √3 / 2 := by
    rw [show (1 - 0 ^ 2 - 0 ^ 2 - (-(1 / 2)) ^ 2 + 2 * 0 * 0 * -(1 / 2) : ℝ) = 3 / 2 ^ 2 by norm_num, Real.sqrt_div (by norm_num),
      Real.sqrt_sq (by norm_num)]
  rw [this]
  ring

end Hexrd.Jcpds
