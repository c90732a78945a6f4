import Verif.Lemmas.SGSymbols

/-!
# Properties of the space-group tables (C20) and of the lattice parameters (C25)
-/
namespace Hexrd.SpaceGroup

/-- C20: for every number 1 to 230 and every origin setting, `SpaceGroup(n)` and the unit
cell succeed, and report the same point group, Laue group and lattice type; these are the
classes of the operators actually generated, and the lattice type is the crystal system
their axes determine, whichever of the four tables it is read from. -/
theorem tables_consistent (n : Int) (setting : Nat) (h1 : 1 ≤ n) (h2 : n ≤ 230) :
    ∃ I U, spaceGroup n = some I ∧ unitcellSgnum n setting = some U ∧
      U.pointGroup = I.pointGroup ∧ U.laueGroup = I.laueGroup ∧ U.latticeType = I.latticeType ∧
      Spec.census U.sym.pg = Spec.classCensus I.pointGroup ∧
      Spec.census U.sym.laue = Spec.classCensus I.laueGroup ∧
      I.latticeType = Spec.system (Spec.census U.sym.pg) ∧
      I.latticeType = Spec.system (Spec.census U.sym.laue) ∧
      ltypeOfLaueGroup I.laueGroup = some I.latticeType ∧
      latticeTypeZ n = some I.latticeType := by
  obtain ⟨k, rfl⟩ : ∃ k : Nat, (k : Int) = n := ⟨n.toNat, by omega⟩
  obtain ⟨S, p, eS, ep, hc, hl⟩ := classes k setting (by omega) (by omega)
  have ht := List.all_eq_true.1 tablesRun k (List.mem_range'_1.2 (by omega))
  unfold tablesAt at ht
  rw [ep] at ht
  cases e1 : getNum hallStr k with
  | none => rw [e1] at ht; cases ht
  | some hall =>
  cases e2 : getNum hmStr k with
  | none => rw [e1, e2] at ht; cases ht
  | some hm =>
  cases e3 : lookupRange pgDictUC k with
  | none => rw [e1, e2, e3] at ht; cases ht
  | some q =>
  cases e4 : latticeTypeZ k with
  | none => rw [e1, e2, e3, e4] at ht; cases ht
  | some lt =>
  rw [e1, e2, e3, e4] at ht
  simp only [decide_eq_true_eq] at ht
  obtain ⟨a1, a2, a3, a4, a5, a6, a7⟩ := ht
  refine ⟨{ hall := hall, hm := hm, pointGroup := p.1, laueGroup := p.2, latticeType := lt, reqParams := rqpIdx lt },
    { pointGroup := q.1, laueGroup := q.2.1, supergroup := q.2.2.1, supergroupLaue := q.2.2.2,
             latticeType := lt, sym := S }, ?_, ?_, a1, a2, rfl, hc, hl, ?_, ?_, a4, rfl⟩
  · simp only [spaceGroup, lookupHall, lookupHM, numToSym_first, e1, e2, ep, a3, Option.bind_eq_bind, Option.bind_some,
      Option.map_some, Option.pure_def]
  · rw [unitcellSgnum, if_pos ⟨h1, h2⟩]
    simp only [Int.toNat_natCast, eS, e4, e3, Option.bind_eq_bind, Option.bind_some, Option.pure_def]
  · rw [hc]; exact a5.symm
  · rw [hl]; exact a6.symm

/-- C20: the class of the operators determines the Schoenflies symbol, so the previous
theorem leaves no freedom in the tables. -/
theorem class_determined (p q : PG) (h : Spec.classCensus p = Spec.classCensus q) : p = q := by
  revert h
  cases p <;> cases q <;> decide

/-- C20: every other integer is refused, both by `SpaceGroup` and by the unit cell. -/
theorem other_integers_refused (n : Int) (setting : Nat) (h : n < 1 ∨ 230 < n) :
    spaceGroup n = none ∧ unitcellSgnum n setting = none := by
  constructor
  · rw [spaceGroup, lookupHall, numToSym_first, getNum_outside hallStr hall_inTable n h]
    rfl
  · rw [unitcellSgnum, if_neg (by omega)]

/-- C20: no number belongs to two ranges of a table. -/
theorem ranges_disjoint (n : Int) :
    (pgDictSG.filter fun e => e.1.has n).length ≤ 1 ∧ (pgDictUC.filter fun e => e.1.has n).length ≤ 1 := by
  by_cases h : 1 ≤ n ∧ n ≤ 230
  · have run : (List.range' 1 230).all (fun k =>
        decide ((pgDictSG.filter fun e => e.1.has (k : Int)).length ≤ 1 ∧
          (pgDictUC.filter fun e => e.1.has (k : Int)).length ≤ 1)) = true := by
      decide +kernel
    have := List.all_eq_true.1 run n.toNat (List.mem_range'_1.2 (by omega))
    rw [decide_eq_true_eq, Int.toNat_of_nonneg (by omega)] at this
    exact this
  · have key : ∀ {α : Type} (d : List (SGRange × α)), (∀ e ∈ d, 1 ≤ e.1.min ∧ e.1.max ≤ 230) →
        (d.filter fun e => e.1.has n).length ≤ 1 := by
      intro α d hd
      have : d.filter (fun e => e.1.has n) = [] := by
        rw [List.filter_eq_nil_iff]
        intro e he
        have := hd e he
        simp only [SGRange.has, Bool.and_eq_true, decide_eq_true_eq]
        omega
      rw [this]
      exact Nat.zero_le 1
    exact ⟨key _ (by decide), key _ (by decide)⟩

/-- C20: the Hall and Hermann-Mauguin symbols of a number lead back to it. -/
theorem symbols_roundtrip (n : Int) (h1 : 1 ≤ n) (h2 : n ≤ 230) :
    ∃ hall hm, lookupHall n = some hall ∧ lookupHM n = some hm ∧
      hallToSgnum hall = some n.toNat ∧ hmToSgnum hm = some n.toNat := by
  obtain ⟨I, _, e, _⟩ := tables_consistent n 0 h1 h2
  obtain ⟨eh, em⟩ := spaceGroup_symbols n I e
  refine ⟨I.hall, I.hm, eh, em, ?_, ?_⟩
  · rw [lookupHall, numToSym_first] at eh
    obtain ⟨k, hk, hmem⟩ := getNum_mem _ _ _ eh
    exact (symToNum_eq hallStr (same_num _ _ hallCodes_eq hall_noClash) k _ hmem).trans (congrArg some (by omega))
  · rw [lookupHM, numToSym_first] at em
    obtain ⟨k, hk, hmem⟩ := getNum_mem _ _ _ em
    exact (symToNum_eq hmStr (same_num _ _ hmCodes_eq hm_noClash) k _ hmem).trans (congrArg some (by omega))

/-- C20: every alternative symbol listed for a number also leads back to it: no symbol is
listed for two numbers. -/
theorem every_symbol_found (n : Nat) (h : List Char) :
    ((n, h) ∈ hallStr → hallToSgnum h = some n) ∧ ((n, h) ∈ hmStr → hmToSgnum h = some n) :=
  ⟨fun hm => symToNum_eq hallStr (same_num _ _ hallCodes_eq hall_noClash) n h hm,
   fun hm => symToNum_eq hmStr (same_num _ _ hmCodes_eq hm_noClash) n h hm⟩

/-- C20: the crystal-system codes stored in material files are read back as written. -/
theorem crystal_system_code (lt : LatticeType) : xtalDict (xtalSys lt) = some lt := by
  cases lt <;> rfl

/-- C20, a table that does not refuse: `symmetry.latticeType` takes every number below 1
for triclinic (numbers above 230 are refused). -/
theorem latticeType_below_one (n : Int) : (n < 1 → latticeTypeZ n = some .triclinic) ∧
    (230 < n → latticeTypeZ n = none) := by
  constructor
  · intro h
    rw [latticeTypeZ, if_pos (by omega)]
  · intro h
    simp only [latticeTypeZ]
    split_ifs <;> first | rfl | omega

/-! ### Lattice parameters -/

section
variable {V : Type} (ninety onetwenty : V)

/-- C25: as many reduced values as the crystal system requires expand to six values that
satisfy the conditions of the system, and reducing those gives the values back. -/
theorem expand_reduce (lt : LatticeType) (p : List V) (hp : p.length = (rqpIdx lt).length) :
    ∃ a b c al be ga, rqpFun ninety onetwenty lt p = some [a, b, c, al, be, ga] ∧
      Spec.MetricConditions ninety onetwenty lt a b c al be ga ∧
      reduceLP lt [a, b, c, al, be, ga] = some p := by
  cases lt
  · match p, hp with
    | [a, b, c, al, be, ga], _ => exact ⟨a, b, c, al, be, ga, rfl, trivial, rfl⟩
  · match p, hp with
    | [a, b, c, be], _ => exact ⟨a, b, c, _, be, _, rfl, ⟨rfl, rfl⟩, rfl⟩
  · match p, hp with
    | [a, b, c], _ => exact ⟨a, b, c, _, _, _, rfl, ⟨rfl, rfl, rfl⟩, rfl⟩
  · match p, hp with
    | [a, c], _ => exact ⟨a, a, c, _, _, _, rfl, ⟨rfl, rfl, rfl, rfl⟩, rfl⟩
  · match p, hp with
    | [a, c], _ => exact ⟨a, a, c, _, _, _, rfl, ⟨rfl, rfl, rfl, rfl⟩, rfl⟩
  · match p, hp with
    | [a, c], _ => exact ⟨a, a, c, _, _, _, rfl, ⟨rfl, rfl, rfl, rfl⟩, rfl⟩
  · match p, hp with
    | [a], _ => exact ⟨a, a, a, _, _, _, rfl, ⟨rfl, rfl, rfl, rfl, rfl⟩, rfl⟩

/-- C25: six values that satisfy the conditions are what their reduction expands to; so
nothing is lost by storing the reduced values only, and resetting the parameters after a
change of space group changes nothing if they already fit. -/
theorem reduce_expand (lt : LatticeType) (a b c al be ga : V)
    (h : Spec.MetricConditions ninety onetwenty lt a b c al be ga) :
    resetLP ninety onetwenty lt [a, b, c, al, be, ga] = some [a, b, c, al, be, ga] := by
  cases lt
  · rfl
  · obtain ⟨rfl, rfl⟩ := h; rfl
  · obtain ⟨rfl, rfl, rfl⟩ := h; rfl
  · obtain ⟨rfl, rfl, rfl, rfl⟩ := h; rfl
  · obtain ⟨rfl, rfl, rfl, rfl⟩ := h; rfl
  · obtain ⟨rfl, rfl, rfl, rfl⟩ := h; rfl
  · obtain ⟨rfl, rfl, rfl, rfl, rfl⟩ := h; rfl

/-- C25: whatever six values are held, resetting them for a crystal system yields values
that satisfy its conditions and keep the required parameters. -/
theorem reset_conditions (lt : LatticeType) (a b c al be ga : V) :
    ∃ a' b' c' al' be' ga', resetLP ninety onetwenty lt [a, b, c, al, be, ga] = some [a', b', c', al', be', ga'] ∧
      Spec.MetricConditions ninety onetwenty lt a' b' c' al' be' ga' ∧
      ∀ i ∈ rqpIdx lt, [a', b', c', al', be', ga'][i]? = [a, b, c, al, be, ga][i]? := by
  cases lt
  · exact ⟨_, _, _, _, _, _, rfl, trivial, by simp⟩
  · exact ⟨_, _, _, _, _, _, rfl, ⟨rfl, rfl⟩, by simp [rqpIdx]⟩
  · exact ⟨_, _, _, _, _, _, rfl, ⟨rfl, rfl, rfl⟩, by simp [rqpIdx]⟩
  · exact ⟨_, _, _, _, _, _, rfl, ⟨rfl, rfl, rfl, rfl⟩, by simp [rqpIdx]⟩
  · exact ⟨_, _, _, _, _, _, rfl, ⟨rfl, rfl, rfl, rfl⟩, by simp [rqpIdx]⟩
  · exact ⟨_, _, _, _, _, _, rfl, ⟨rfl, rfl, rfl, rfl⟩, by simp [rqpIdx]⟩
  · exact ⟨_, _, _, _, _, _, rfl, ⟨rfl, rfl, rfl, rfl, rfl⟩, by simp [rqpIdx]⟩

/-- C25: assigning a parameter succeeds exactly for the reduced ones; afterwards it has the
assigned value, the other reduced parameters keep theirs, and the six satisfy the
conditions of the system. -/
theorem assign_parameter (lt : LatticeType) (a b c al be ga val : V) (name : LPName) :
    (name.index ∉ rqpIdx lt → setLP ninety onetwenty lt [a, b, c, al, be, ga] name val = none) ∧
    (name.index ∈ rqpIdx lt →
      ∃ a' b' c' al' be' ga',
        setLP ninety onetwenty lt [a, b, c, al, be, ga] name val = some [a', b', c', al', be', ga'] ∧
        Spec.MetricConditions ninety onetwenty lt a' b' c' al' be' ga' ∧
        [a', b', c', al', be', ga'][name.index]? = some val ∧
        ∀ i ∈ rqpIdx lt, i ≠ name.index → [a', b', c', al', be', ga'][i]? = [a, b, c, al, be, ga][i]?) := by
  constructor
  · intro h
    rw [setLP, isEditable, decide_eq_false h]
    rfl
  · intro h
    have hlen : ∃ a₁ b₁ c₁ al₁ be₁ ga₁, [a, b, c, al, be, ga].set name.index val = [a₁, b₁, c₁, al₁, be₁, ga₁] := by
      cases name <;> exact ⟨_, _, _, _, _, _, rfl⟩
    obtain ⟨a₁, b₁, c₁, al₁, be₁, ga₁, hset⟩ := hlen
    obtain ⟨a', b', c', al', be', ga', e, hm, hk⟩ := reset_conditions ninety onetwenty lt a₁ b₁ c₁ al₁ be₁ ga₁
    refine ⟨a', b', c', al', be', ga', ?_, hm, ?_, ?_⟩
    · rw [setLP, isEditable, decide_eq_true h, if_pos rfl, fillCorrect, hset]
      exact e
    · rw [hk _ h, ← hset, List.getElem?_set_self]
      cases name <;> exact Nat.lt_of_lt_of_eq (by decide : _ < 6) rfl
    · intro i hi hne
      rw [hk _ hi, ← hset, List.getElem?_set_ne (Ne.symm hne)]

/-- C25: a material given fewer than six parameters holds six that satisfy the conditions
of its crystal system. -/
theorem material_expands (lt : LatticeType) (p : List V) (hp : p.length = (rqpIdx lt).length) (h6 : p.length ≠ 6) :
    ∃ a b c al be ga, matSetLP ninety onetwenty lt p = some [a, b, c, al, be, ga] ∧
      Spec.MetricConditions ninety onetwenty lt a b c al be ga ∧ reduceLP lt [a, b, c, al, be, ga] = some p := by
  rw [matSetLP, if_pos h6]
  exact expand_reduce ninety onetwenty lt p hp

end

/-- C25 fails for the material setter with six values: they are taken as they are, so a
cubic material can be given three different edges. -/
theorem material_six_unchecked :
    ∃ a b c al be ga : Nat, matSetLP 90 120 .cubic [a, b, c, al, be, ga] = some [a, b, c, al, be, ga] ∧
      ¬ Spec.MetricConditions 90 120 .cubic a b c al be ga :=
  ⟨1, 2, 3, 90, 90, 90, rfl, by simp [Spec.MetricConditions]⟩

/-- Concrete cases: silicon's group has class `oh` with 48 operations; quartz (154) expands
two parameters; editing `c` of a tetragonal cell keeps `a`. -/
example : lookupRange pgDictSG 227 = some (.oh, .oh) ∧ lookupRange pgDictSG 154 = some (.d3, .d3d) := by decide
example : rqpFun 90 120 .trigonal [4, 5] = some [4, 4, 5, 90, 90, 120] := by decide
example : setLP 90 120 .tetragonal [4, 4, 5, 90, 90, 90] .c 6 = some [4, 4, 6, 90, 90, 90] := by decide
example : setLP 90 120 .tetragonal [4, 4, 5, 90, 90, 90] .b 6 = none := by decide

end Hexrd.SpaceGroup
