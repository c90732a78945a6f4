import Verif.Model.GrainCalib
import Verif.Props.CalibNames
import Verif.Props.CalibRigid
import Mathlib.Tactic.Linarith

/-! C132: the parameters of several calibrators do not interfere, are read back, and are fixed as asked. -/
namespace Hexrd.Calib
open Hexrd.Transforms Hexrd.Transforms.Spec

/-! ### Forcing a value -/

/-- C132: after a value is forced it is the value, it is within the bounds, the bounds have only been widened and are
still a proper interval, and nothing else has changed. -/
theorem force_spec (p : Param) (v : ℝ) (hb : ∀ lo hi, p.lo = some lo → p.hi = some hi → lo < hi) :
    (force p v).value = v ∧ (force p v).name = p.name ∧ (force p v).vary = p.vary ∧
    (∀ lo, (force p v).lo = some lo → lo ≤ v ∧ ∃ lo', p.lo = some lo' ∧ lo ≤ lo') ∧
    (∀ hi, (force p v).hi = some hi → v ≤ hi ∧ ∃ hi', p.hi = some hi' ∧ hi' ≤ hi) ∧
    ∀ lo hi, (force p v).lo = some lo → (force p v).hi = some hi → lo < hi := by
  unfold force
  simp only
  split
  · rename_i h
    obtain ⟨lo, h1, h2⟩ := h
    refine ⟨rfl, rfl, rfl, ?_, ?_, ?_⟩
    · intro lo' h'
      simp only [Option.some.injEq] at h'
      exact ⟨by linarith, lo, h1, by linarith⟩
    · intro hi h'
      have := hb lo hi h1 h'
      exact ⟨by linarith, hi, h', le_rfl⟩
    · intro lo' hi h' h''
      simp only [Option.some.injEq] at h'
      have := hb lo hi h1 h''
      linarith
  · rename_i h
    push Not at h
    split
    · rename_i h3
      obtain ⟨hi, h1, h2⟩ := h3
      refine ⟨rfl, rfl, rfl, ?_, ?_, ?_⟩
      · intro lo h'; exact ⟨h lo h', lo, h', le_rfl⟩
      · intro hi' h'
        simp only [Option.some.injEq] at h'
        exact ⟨by linarith, hi, h1, by linarith⟩
      · intro lo hi' h' h''
        simp only [Option.some.injEq] at h''
        have := h lo h'
        linarith
    · rename_i h3
      push Not at h3
      exact ⟨rfl, rfl, rfl, fun lo h' => ⟨h lo h', lo, h', le_rfl⟩, fun hi h' => ⟨h3 hi h', hi, h', le_rfl⟩, hb⟩

theorem force_name (p : Param) (v : ℝ) : (force p v).name = p.name := by
  unfold force; simp only; split
  · rfl
  · split <;> rfl

theorem force_value (p : Param) (v : ℝ) : (force p v).value = v := by
  unfold force; simp only; split
  · rfl
  · split <;> rfl

/-! ### The names -/

/-- The parameters that a calibrator has made. -/
def calNames : Cal → List Name
  | .grain c => c.paramNames
  | .powder _ ns => ns

theorem grainParams_names (names : List Name) (values : List ℝ) (r : Option (Fin 12 → Bool))
    (h : names.length = values.length) : (grainParams names values r).map Param.name = names := by
  unfold grainParams
  apply List.ext_getElem
  · simp [h]
  · intro i h1 h2
    simp

theorem eulerValues_length (L : RotLib) (c : Conv) (g : GrainP) : (eulerValues L c g).length = 12 := rfl

theorem createGrain_spec (L : RotLib) (cal : GrainCal) (current : List Name) :
    (createGrain L cal current).1.map Param.name = (createGrain L cal current).2.paramNames ∧
    (createGrain L cal current).2.paramNames.length = 12 ∧
    (createGrain L cal current).2.paramNames.Nodup ∧
    (∀ n ∈ (createGrain L cal current).2.paramNames, n ∉ current) := by
  obtain ⟨h1, h2, h3⟩ := rename_unique current (grainNames cal.name)
  have hl : (grainNames cal.name).length = 12 := by simp [grainNames]
  refine ⟨grainParams_names _ _ _ ?_, h1.trans hl, h2, h3⟩
  rw [h1, hl]; rfl

/-- A calibrator before the parameters are made: what its material contributes has distinct names. -/
def Sound : Cal → Prop
  | .grain _ => True
  | .powder mat _ => (mat.map Param.name).Nodup

theorem createCal_spec (L : RotLib) (current : List Name) (c : Cal) (hc : Sound c) :
    (createCal L current c).1.map Param.name = calNames (createCal L current c).2 ∧
    (calNames (createCal L current c).2).Nodup ∧ (∀ n ∈ calNames (createCal L current c).2, n ∉ current) := by
  cases c with
  | grain g =>
    obtain ⟨h1, -, h3, h4⟩ := createGrain_spec L g current
    exact ⟨h1, h3, h4⟩
  | powder mat ns =>
    refine ⟨rfl, ?_, ?_⟩
    · exact (List.filter_sublist.map Param.name).nodup hc
    · intro n hn
      obtain ⟨p, hp, rfl⟩ := List.mem_map.1 hn
      simpa using (List.mem_filter.1 hp).2

/-- C132: the parameters of an instrument calibration are those of the instrument followed by those of each calibrator,
and all their names are different, whatever the names of grains and materials. -/
theorem params_distinct (L : RotLib) (base : List Param) (cs : List Cal) (hb : (base.map Param.name).Nodup)
    (hs : ∀ c ∈ cs, Sound c) :
    (createAll L base cs).1.map Param.name = base.map Param.name ++ (createAll L base cs).2.flatMap calNames ∧
    ((createAll L base cs).1.map Param.name).Nodup := by
  induction cs generalizing base with
  | nil => simp [createAll, hb]
  | cons c cs ih =>
    obtain ⟨h1, h2, h3⟩ := createCal_spec L (base.map Param.name) c (hs c (by simp))
    have hnd : ((base ++ (createCal L (base.map Param.name) c).1).map Param.name).Nodup := by
      rw [List.map_append, h1, List.nodup_append]
      refine ⟨hb, h2, ?_⟩
      rintro a ha b hb rfl
      exact h3 a hb ha
    obtain ⟨h4, h5⟩ := ih _ hnd (fun c hc => hs c (by simp [hc]))
    refine ⟨?_, h5⟩
    show (createAll L _ cs).1.map Param.name = _
    rw [h4, List.map_append, h1, List.append_assoc]
    rfl

/-- Where a calibrator of the list ends up, with its own parameters in the whole. -/
theorem created (L : RotLib) (base : List Param) (cs : List Cal) (i : Nat) (g : GrainCal)
    (hi : cs[i]? = some (.grain g)) :
    ∃ current, (createAll L base cs).2[i]? = some (.grain (createGrain L g current).2) ∧
      ∀ p ∈ (createGrain L g current).1, p ∈ (createAll L base cs).1 := by
  have hsub : ∀ (base : List Param) (cs : List Cal), ∀ p ∈ base, p ∈ (createAll L base cs).1 := by
    intro base cs
    induction cs generalizing base with
    | nil => intro p hp; exact hp
    | cons c cs ih => intro p hp; exact ih _ p (by simp [hp])
  induction cs generalizing base i with
  | nil => simp at hi
  | cons c cs ih =>
    cases i with
    | zero =>
      simp only [List.getElem?_cons_zero, Option.some.injEq] at hi
      subst hi
      exact ⟨base.map Param.name, rfl, fun p hp => hsub _ cs p (by simp [createCal, hp])⟩
    | succ i =>
      rw [List.getElem?_cons_succ] at hi
      obtain ⟨cur, h1, h2⟩ := ih (base ++ (createCal L (base.map Param.name) c).1) i hi
      exact ⟨cur, by simpa [createAll] using h1, h2⟩

/-! ### Reading -/

/-- The same parameters with other values, as the fit leaves them. -/
def withValues (f : Name → ℝ) (ps : List Param) : List Param := ps.map fun p => { p with value := f p.name }

theorem withValues_names (f : Name → ℝ) (ps : List Param) : (withValues f ps).map Param.name = ps.map Param.name := by
  simp [withValues, List.map_map, Function.comp_def]

theorem val_withValues {f : Name → ℝ} {ps : List Param} (hn : (ps.map Param.name).Nodup) {n : Name}
    (h : n ∈ ps.map Param.name) : val (withValues f ps) n = some (f n) := by
  obtain ⟨p, hp, rfl⟩ := List.mem_map.1 h
  exact val_of_mem (p := { p with value := f p.name }) (by rw [withValues_names]; exact hn)
    (List.mem_map.2 ⟨p, hp, rfl⟩)

theorem mapM_val_map {ps : List Param} {ns : List Name} {f : Name → ℝ} (h : ∀ n ∈ ns, val ps n = some (f n)) :
    ns.mapM (val ps) = some (ns.map f) := by
  induction ns with
  | nil => rfl
  | cons n ns ih => rw [List.mapM_cons, h n (by simp), ih (fun m hm => h m (by simp [hm]))]; rfl

/-- A list of twelve names. -/
theorem twelve {l : List Name} (h : l.length = 12) :
    ∃ a b c d e f g i j k m n, l = [a, b, c, d, e, f, g, i, j, k, m, n] := by
  match l, h with
  | [a, b, c, d, e, f, g, i, j, k, m, n], _ => exact ⟨a, b, c, d, e, f, g, i, j, k, m, n, rfl⟩

/-- The grain that twelve named values describe. -/
def grainOf (L : RotLib) (c : Conv) (names : List Name) (f : Name → ℝ) (g : GrainP) : Prop :=
  ∃ a b c' d e k l m n o p q, names = [a, b, c', d, e, k, l, m, n, o, p, q] ∧
    g.orient = setAngles L c ![f a, f b, f c'] ∧ g.trans = ![f d, f e, f k] ∧
    g.stretch = ![f l, f m, f n, f o, f p, f q]

/-- C132: whatever values the fit gives the parameters, each grain calibrator takes exactly its own twelve. -/
theorem grain_reads_own (L : RotLib) (base : List Param) (cs : List Cal) (hb : (base.map Param.name).Nodup)
    (hs : ∀ c ∈ cs, Sound c) {i : Nat} {g : GrainCal} (hi : cs[i]? = some (.grain g)) (f : Name → ℝ) :
    ∃ c c', (createAll L base cs).2[i]? = some (.grain c) ∧ c.grain = g.grain ∧ c.conv = g.conv ∧
      updateGrain L c (withValues f (createAll L base cs).1) = some c' ∧
      grainOf L g.conv c.paramNames f c'.grain ∧ c'.paramNames = c.paramNames := by
  obtain ⟨cur, h1, h2⟩ := created L base cs i g hi
  obtain ⟨h3, h4, h5, h6⟩ := createGrain_spec L g cur
  obtain ⟨-, hnd⟩ := params_distinct L base cs hb hs
  have hm : ∀ n ∈ (createGrain L g cur).2.paramNames, val (withValues f (createAll L base cs).1) n = some (f n) := by
    intro n hn
    refine val_withValues hnd ?_
    rw [← h3] at hn
    obtain ⟨p, hp, rfl⟩ := List.mem_map.1 hn
    exact List.mem_map_of_mem (h2 p hp)
  obtain ⟨a, b, c', d, e, k, l, m, n, o, p, q, hl⟩ := twelve h4
  refine ⟨_, { (createGrain L g cur).2 with grain := ⟨setAngles L g.conv ![f a, f b, f c'], ![f d, f e, f k],
    ![f l, f m, f n, f o, f p, f q]⟩ }, h1, rfl, rfl, ?_, ⟨a, b, c', d, e, k, l, m, n, o, p, q, hl, rfl, rfl, rfl⟩, rfl⟩
  have := congrArg (List.map f) hl
  rw [updateGrain, mapM_val_map hm, this]
  rfl

/-- C132: and with the values that they were made with, the grain is the same: the same rotation, position and
stretch. -/
theorem grain_round_trip {L : RotLib} (hL : L.Lawful) (base : List Param) (cs : List Cal)
    (hb : (base.map Param.name).Nodup) (hs : ∀ c ∈ cs, Sound c) {i : Nat} {g : GrainCal}
    (hi : cs[i]? = some (.grain g)) :
    ∃ c c', (createAll L base cs).2[i]? = some (.grain c) ∧ updateGrain L c (createAll L base cs).1 = some c' ∧
      expmapRmat c'.grain.orient = expmapRmat g.grain.orient ∧ c'.grain.trans = g.grain.trans ∧
      c'.grain.stretch = g.grain.stretch := by
  obtain ⟨cur, h1, h2⟩ := created L base cs i g hi
  obtain ⟨h3, h4, h5, h6⟩ := createGrain_spec L g cur
  obtain ⟨-, hnd⟩ := params_distinct L base cs hb hs
  have hv : (createGrain L g cur).2.paramNames.mapM (val (createAll L base cs).1) =
      some (eulerValues L g.conv g.grain) := by
    have hval : ∀ p ∈ (createGrain L g cur).1, val (createAll L base cs).1 p.name = some p.value :=
      fun p hp => val_of_mem hnd (h2 p hp)
    have aux : ∀ l : List Param, (∀ p ∈ l, val (createAll L base cs).1 p.name = some p.value) →
        (l.map Param.name).mapM (val (createAll L base cs).1) = some (l.map Param.value) := by
      intro l
      induction l with
      | nil => intro _; rfl
      | cons p l ih =>
        intro h
        rw [List.map_cons, List.mapM_cons, h p (by simp), ih (fun q hq => h q (by simp [hq]))]
        rfl
    rw [← h3, aux _ hval, Option.some.injEq]
    show (grainParams (createGrain L g cur).2.paramNames (eulerValues L g.conv g.grain) g.refinements).map Param.value = _
    unfold grainParams
    apply List.ext_getElem
    · simp [h4, eulerValues_length]
    · intro i h1 h2
      simp
  refine ⟨_, { (createGrain L g cur).2 with grain := ⟨setAngles L g.conv (detectorAngles L g.conv g.grain.orient),
    g.grain.trans, g.grain.stretch⟩ }, h1, ?_, ?_, rfl, rfl⟩
  · rw [updateGrain, hv]
    have e3 : ∀ v : V, ![v 0, v 1, v 2] = v := by intro v; ext i; fin_cases i <;> rfl
    have e6 : ∀ v : Fin 6 → ℝ, ![v 0, v 1, v 2, v 3, v 4, v 5] = v := by intro v; ext i; fin_cases i <;> rfl
    simp only [eulerValues, ofEuler, Option.bind_eq_bind, Option.bind_some, Option.pure_def, e3, e6]
    rfl
  · exact setAngles_detectorAngles hL g.conv g.grain.orient

/-! ### Fixing -/

/-- What fixing does to one parameter. -/
noncomputable def fixBy (pairs : List (Name × ℝ)) (p : Param) : Param :=
  match pairs.lookup p.name with
  | some v => { force p v with vary := false }
  | none => p

theorem fixBy_name (pairs : List (Name × ℝ)) (p : Param) : (fixBy pairs p).name = p.name := by
  unfold fixBy
  split
  · exact force_name _ _
  · rfl

theorem lookup_none_of {pairs : List (Name × ℝ)} {n : Name} (h : n ∉ pairs.map Prod.fst) : pairs.lookup n = none := by
  induction pairs with
  | nil => rfl
  | cons p pairs ih =>
    simp only [List.map_cons, List.mem_cons, not_or] at h
    rw [List.lookup_cons, ih h.2]
    have : (n == p.1) = false := by simpa using h.1
    rw [this]

theorem fix_all (pairs : List (Name × ℝ)) (ps : List Param) (hn : (pairs.map Prod.fst).Nodup)
    (hm : ∀ n ∈ pairs.map Prod.fst, n ∈ ps.map Param.name) :
    pairs.foldlM fixOne ps = some (ps.map (fixBy pairs)) := by
  induction pairs generalizing ps with
  | nil =>
    have : fixBy [] = id := by funext p; rfl
    rw [List.foldlM_nil, this, List.map_id]; rfl
  | cons nv pairs ih =>
    rw [List.map_cons, List.nodup_cons] at hn
    rw [List.foldlM_cons, fixOne, if_pos (hm nv.1 (by simp)), Option.bind_eq_bind, Option.bind_some, ih _ hn.2]
    · rw [Option.some.injEq, List.map_map]
      apply List.map_congr_left
      intro p _
      simp only [Function.comp_apply]
      by_cases h : p.name = nv.1
      · rw [if_pos h]
        have e1 : ({ force p nv.2 with vary := false } : Param).name = nv.1 := (force_name _ _).trans h
        rw [fixBy, e1, lookup_none_of hn.1, fixBy, h, List.lookup_cons]
        simp [force_name, h]
      · rw [if_neg h, fixBy, fixBy, List.lookup_cons]
        have : (p.name == nv.1) = false := by simpa using h
        rw [this]
    · intro n hn'
      have h1 := hm n (by simp [List.mem_map.1 hn'])
      obtain ⟨p, hp, rfl⟩ := List.mem_map.1 h1
      refine List.mem_map.2 ⟨_, List.mem_map.2 ⟨p, hp, rfl⟩, ?_⟩
      split
      · exact force_name _ _
      · rfl

theorem get_fixed {pairs : List (Name × ℝ)} {ps : List Param} (hn : (ps.map Param.name).Nodup) {p : Param}
    (hp : p ∈ ps) : get (ps.map (fixBy pairs)) p.name = some (fixBy pairs p) := by
  have : ((ps.map (fixBy pairs)).map Param.name).Nodup := by
    rw [List.map_map, show Param.name ∘ fixBy pairs = Param.name from funext (fixBy_name pairs)]; exact hn
  have := get_of_mem this (List.mem_map_of_mem (f := fixBy pairs) hp)
  rwa [fixBy_name] at this

theorem val_fixed {pairs : List (Name × ℝ)} {ps : List Param} (hn : (ps.map Param.name).Nodup) {n : Name}
    (hm : n ∈ ps.map Param.name) : val (ps.map (fixBy pairs)) n = (pairs.lookup n).or (val ps n) := by
  obtain ⟨p, hp, rfl⟩ := List.mem_map.1 hm
  rw [val, get_fixed hn hp, val, get_of_mem hn hp, fixBy]
  cases h : pairs.lookup p.name with
  | none => rfl
  | some v => simp [force_value]

/-- The effect of fixing the named parameters of `pairs`: they have the values asked for, within their bounds, and are
not varied; every other parameter is as it was. -/
structure Fixed (pairs : List (Name × ℝ)) (ps ps' : List Param) : Prop where
  names : ps'.map Param.name = ps.map Param.name
  fixed : ∀ n v, (n, v) ∈ pairs → ∃ q, get ps' n = some q ∧ q.value = v ∧ q.vary = false ∧
    (∀ lo, q.lo = some lo → lo ≤ v) ∧ ∀ hi, q.hi = some hi → v ≤ hi
  others : ∀ n, n ∉ pairs.map Prod.fst → get ps' n = get ps n

theorem lookup_of_mem {pairs : List (Name × ℝ)} (hn : (pairs.map Prod.fst).Nodup) {n : Name} {v : ℝ}
    (h : (n, v) ∈ pairs) : pairs.lookup n = some v := by
  induction pairs with
  | nil => simp at h
  | cons p pairs ih =>
    rw [List.map_cons, List.nodup_cons] at hn
    rw [List.lookup_cons]
    rcases List.mem_cons.1 h with rfl | h
    · simp
    · have : (n == p.1) = false := by
        rw [beq_eq_false_iff_ne]
        rintro rfl
        exact hn.1 (List.mem_map.2 ⟨_, h, rfl⟩)
      rw [this]; exact ih hn.2 h

theorem fixed_of (pairs : List (Name × ℝ)) (ps : List Param) (hp : (pairs.map Prod.fst).Nodup)
    (hn : (ps.map Param.name).Nodup) (hm : ∀ n ∈ pairs.map Prod.fst, n ∈ ps.map Param.name)
    (hb : ∀ p ∈ ps, ∀ lo hi, p.lo = some lo → p.hi = some hi → lo < hi) :
    Fixed pairs ps (ps.map (fixBy pairs)) where
  names := by rw [List.map_map, show Param.name ∘ fixBy pairs = Param.name from funext (fixBy_name pairs)]
  fixed := by
    intro n v h
    obtain ⟨p, hp', rfl⟩ := List.mem_map.1 (hm n (List.mem_map_of_mem (f := Prod.fst) h))
    refine ⟨_, get_fixed hn hp', ?_⟩
    obtain ⟨f1, -, -, f4, f5, -⟩ := force_spec p v (hb p hp')
    simp only [fixBy, lookup_of_mem hp h]
    exact ⟨f1, trivial, fun lo hlo => (f4 lo hlo).1, fun hi hhi => (f5 hi hhi).1⟩
  others := by
    intro n hnn
    by_cases hmem : n ∈ ps.map Param.name
    · obtain ⟨p, hp', rfl⟩ := List.mem_map.1 hmem
      rw [get_fixed hn hp', get_of_mem hn hp', fixBy, lookup_none_of hnn]
    · have : ∀ qs : List Param, n ∉ qs.map Param.name → get qs n = none := by
        intro qs hq
        unfold get
        rw [List.find?_eq_none]
        intro q hqm he
        exact hq (List.mem_map.2 ⟨q, by simpa using hqm, of_decide_eq_true he⟩)
      rw [this _ hmem, this]
      rwa [List.map_map, show Param.name ∘ fixBy pairs = Param.name from funext (fixBy_name pairs)]

/-- Parameters in which a grain calibrator finds its own. -/
structure Holds (cal : GrainCal) (ps : List Param) : Prop where
  length : cal.paramNames.length = 12
  own : cal.paramNames.Nodup
  nodup : (ps.map Param.name).Nodup
  mem : ∀ n ∈ cal.paramNames, n ∈ ps.map Param.name
  bounds : ∀ p ∈ ps, ∀ lo hi, p.lo = some lo → p.hi = some hi → lo < hi

theorem val_some {ps : List Param} {n : Name} (hn : (ps.map Param.name).Nodup) (h : n ∈ ps.map Param.name) :
    ∃ v, val ps n = some v := by
  obtain ⟨p, hp, rfl⟩ := List.mem_map.1 h
  exact ⟨_, val_of_mem hn hp⟩

/-- The twelve values. -/
theorem update_values {L : RotLib} {cal : GrainCal} {ps : List Param} {n : Name}
    {n0 n1 n2 n3 n4 n5 n6 n7 n8 n9 n10 : Name} {f : Name → ℝ}
    (hl : cal.paramNames = [n0, n1, n2, n3, n4, n5, n6, n7, n8, n9, n10, n])
    (hv : ∀ m ∈ cal.paramNames, val ps m = some (f m)) :
    updateGrain L cal ps = some { cal with grain := ⟨setAngles L cal.conv ![f n0, f n1, f n2], ![f n3, f n4, f n5],
      ![f n6, f n7, f n8, f n9, f n10, f n]⟩ } := by
  have := congrArg (List.map f) hl
  rw [updateGrain, mapM_val_map hv, this]
  rfl

theorem fix_effect {cal : GrainCal} {ps : List Param} (h : Holds cal ps) (pairs : List (Name × ℝ))
    (hp : (pairs.map Prod.fst).Nodup) (hsub : ∀ n ∈ pairs.map Prod.fst, n ∈ cal.paramNames) :
    pairs.foldlM fixOne ps = some (ps.map (fixBy pairs)) ∧ Fixed pairs ps (ps.map (fixBy pairs)) ∧
      ∀ n ∈ cal.paramNames, val (ps.map (fixBy pairs)) n = (pairs.lookup n).or (val ps n) :=
  ⟨fix_all pairs ps hp fun n hn => h.mem n (hsub n hn),
    fixed_of pairs ps hp h.nodup (fun n hn => h.mem n (hsub n hn)) h.bounds, fun n hn => val_fixed h.nodup (h.mem n hn)⟩

/-- C132: fixing the strain gives the grain the identity as stretch, which is not varied, and leaves its orientation and
position and the parameters of everything else alone. -/
theorem fix_strain (L : RotLib) {cal cal' : GrainCal} {ps : List Param} (h : Holds cal ps)
    (hu : updateGrain L cal ps = some cal') :
    ∃ ps' cal'', fixStrain cal ps = some ps' ∧ Fixed ((cal.paramNames.drop 6).zip [1, 1, 1, 0, 0, 0]) ps ps' ∧
      updateGrain L cal ps' = some cal'' ∧ cal''.grain.stretch = ![1, 1, 1, 0, 0, 0] ∧
      cal''.grain.orient = cal'.grain.orient ∧ cal''.grain.trans = cal'.grain.trans := by
  obtain ⟨a, b, c, d, e, f, g, i, j, k, m, n, hl⟩ := twelve h.length
  have hnd := h.own
  rw [hl] at hnd
  have hpairs : (cal.paramNames.drop 6).zip [(1 : ℝ), 1, 1, 0, 0, 0] = [(g, 1), (i, 1), (j, 1), (k, 0), (m, 0), (n, 0)] := by
    rw [hl]; rfl
  obtain ⟨h1, h2, h3⟩ := fix_effect h ((cal.paramNames.drop 6).zip [1, 1, 1, 0, 0, 0])
    (by rw [hpairs]; simp only [List.nodup_cons, List.mem_cons, not_or] at hnd ⊢; simp; tauto)
    (by rw [hpairs, hl]; intro x hx; simp at hx ⊢; tauto)
  choose! w hw using fun x (hx : x ∈ cal.paramNames) => val_some h.nodup (h.mem x hx)
  have hu2 := update_values (L := L) hl hw
  rw [hu, Option.some.injEq] at hu2
  subst hu2
  have hv : ∀ x ∈ cal.paramNames, val (ps.map (fixBy ((cal.paramNames.drop 6).zip [1, 1, 1, 0, 0, 0]))) x =
      some (((((cal.paramNames.drop 6).zip [(1 : ℝ), 1, 1, 0, 0, 0])).lookup x).getD (w x)) := by
    intro x hx
    rw [h3 x hx, hw x hx]
    cases ((cal.paramNames.drop 6).zip [(1 : ℝ), 1, 1, 0, 0, 0]).lookup x <;> rfl
  refine ⟨_, _, h1, h2, update_values hl hv, ?_, ?_, ?_⟩
  · simp only [hpairs]
    simp only [List.nodup_cons, List.mem_cons, List.not_mem_nil, or_false, not_or] at hnd
    rw [lookup_of_mem (v := 1), lookup_of_mem (n := i) (v := 1), lookup_of_mem (n := j) (v := 1),
      lookup_of_mem (n := k) (v := 0), lookup_of_mem (n := m) (v := 0), lookup_of_mem (n := n) (v := 0)]
    · rfl
    all_goals grind
  · simp only [hpairs]
    simp only [List.nodup_cons, List.mem_cons, List.not_mem_nil, or_false, not_or] at hnd
    rw [lookup_none_of (n := a), lookup_none_of (n := b), lookup_none_of (n := c)]
    · rfl
    all_goals grind
  · simp only [hpairs]
    simp only [List.nodup_cons, List.mem_cons, List.not_mem_nil, or_false, not_or] at hnd
    rw [lookup_none_of (n := d), lookup_none_of (n := e), lookup_none_of (n := f)]
    · rfl
    all_goals grind

/-- C132: fixing the translation puts the grain at the origin and leaves the rest alone. -/
theorem fix_translation (L : RotLib) {cal cal' : GrainCal} {ps : List Param} (h : Holds cal ps)
    (hu : updateGrain L cal ps = some cal') :
    ∃ ps' cal'', fixTranslation cal ps = some ps' ∧ Fixed (((cal.paramNames.drop 3).take 3).zip [0, 0, 0]) ps ps' ∧
      updateGrain L cal ps' = some cal'' ∧ cal''.grain.trans = ![0, 0, 0] ∧
      cal''.grain.orient = cal'.grain.orient ∧ cal''.grain.stretch = cal'.grain.stretch := by
  obtain ⟨a, b, c, d, e, f, g, i, j, k, m, n, hl⟩ := twelve h.length
  have hnd := h.own
  rw [hl] at hnd
  have hpairs : ((cal.paramNames.drop 3).take 3).zip [(0 : ℝ), 0, 0] = [(d, 0), (e, 0), (f, 0)] := by
    rw [hl]; rfl
  obtain ⟨h1, h2, h3⟩ := fix_effect h (((cal.paramNames.drop 3).take 3).zip [0, 0, 0])
    (by rw [hpairs]; simp only [List.nodup_cons, List.mem_cons, not_or] at hnd ⊢; simp; tauto)
    (by rw [hpairs, hl]; intro x hx; simp at hx ⊢; tauto)
  choose! w hw using fun x (hx : x ∈ cal.paramNames) => val_some h.nodup (h.mem x hx)
  have hu2 := update_values (L := L) hl hw
  rw [hu, Option.some.injEq] at hu2
  subst hu2
  have hv : ∀ x ∈ cal.paramNames, val (ps.map (fixBy (((cal.paramNames.drop 3).take 3).zip [0, 0, 0]))) x =
      some ((((((cal.paramNames.drop 3).take 3).zip [(0 : ℝ), 0, 0])).lookup x).getD (w x)) := by
    intro x hx
    rw [h3 x hx, hw x hx]
    cases (((cal.paramNames.drop 3).take 3).zip [(0 : ℝ), 0, 0]).lookup x <;> rfl
  refine ⟨_, _, h1, h2, update_values hl hv, ?_, ?_, ?_⟩
  · simp only [hpairs]
    simp only [List.nodup_cons, List.mem_cons, List.not_mem_nil, or_false, not_or] at hnd
    rw [lookup_of_mem (n := d) (v := 0), lookup_of_mem (n := e) (v := 0), lookup_of_mem (n := f) (v := 0)]
    · rfl
    all_goals grind
  · simp only [hpairs]
    simp only [List.nodup_cons, List.mem_cons, List.not_mem_nil, or_false, not_or] at hnd
    rw [lookup_none_of (n := a), lookup_none_of (n := b), lookup_none_of (n := c)]
    · rfl
    all_goals grind
  · simp only [hpairs]
    simp only [List.nodup_cons, List.mem_cons, List.not_mem_nil, or_false, not_or] at hnd
    rw [lookup_none_of (n := g), lookup_none_of (n := i), lookup_none_of (n := j), lookup_none_of (n := k),
      lookup_none_of (n := m), lookup_none_of (n := n)]
    · rfl
    all_goals grind

/-- C132: fixing y puts the grain at height zero and leaves the rest alone. -/
theorem fix_y (L : RotLib) {cal cal' : GrainCal} {ps : List Param} (h : Holds cal ps)
    (hu : updateGrain L cal ps = some cal') :
    ∃ ps' cal'' n, fixY cal ps = some ps' ∧ cal.paramNames[4]? = some n ∧ Fixed [(n, 0)] ps ps' ∧
      updateGrain L cal ps' = some cal'' ∧ cal''.grain.trans = ![cal'.grain.trans 0, 0, cal'.grain.trans 2] ∧
      cal''.grain.orient = cal'.grain.orient ∧ cal''.grain.stretch = cal'.grain.stretch := by
  obtain ⟨a, b, c, d, e, f, g, i, j, k, m, n, hl⟩ := twelve h.length
  have hnd := h.own
  rw [hl] at hnd
  obtain ⟨h1, h2, h3⟩ := fix_effect h [(e, 0)] (by simp) (by rw [hl]; intro x hx; simp at hx ⊢; tauto)
  choose! w hw using fun x (hx : x ∈ cal.paramNames) => val_some h.nodup (h.mem x hx)
  have hu2 := update_values (L := L) hl hw
  rw [hu, Option.some.injEq] at hu2
  subst hu2
  have hv : ∀ x ∈ cal.paramNames, val (ps.map (fixBy [(e, 0)])) x =
      some ((([(e, (0 : ℝ))] : List (Name × ℝ)).lookup x).getD (w x)) := by
    intro x hx
    rw [h3 x hx, hw x hx]
    cases ([(e, (0 : ℝ))] : List (Name × ℝ)).lookup x <;> rfl
  have h1' : fixY cal ps = some (ps.map (fixBy [(e, 0)])) := by
    rw [fixY, hl]
    rw [List.foldlM_cons] at h1
    simpa using h1
  simp only [List.nodup_cons, List.mem_cons, List.not_mem_nil, or_false, not_or] at hnd
  refine ⟨_, _, e, h1', by rw [hl]; rfl, h2, update_values hl hv, ?_, ?_, ?_⟩
  · simp only
    rw [lookup_of_mem (n := e) (v := 0), lookup_none_of (n := d), lookup_none_of (n := f)]
    · rfl
    all_goals grind
  · simp only
    rw [lookup_none_of (n := a), lookup_none_of (n := b), lookup_none_of (n := c)]
    · rfl
    all_goals grind
  · simp only
    rw [lookup_none_of (n := g), lookup_none_of (n := i), lookup_none_of (n := j), lookup_none_of (n := k),
      lookup_none_of (n := m), lookup_none_of (n := n)]
    · rfl
    all_goals grind

/-! ### The hypotheses are met -/

/-- The bounds of the parameters of a material leave room. -/
def Roomy : Cal → Prop
  | .grain _ => True
  | .powder mat _ => ∀ p ∈ mat, ∀ lo hi, p.lo = some lo → p.hi = some hi → lo < hi

theorem grainParams_bounds {names : List Name} {values : List ℝ} {r : Option (Fin 12 → Bool)} {p : Param}
    (hp : p ∈ grainParams names values r) : p.lo = some (p.value - 2) ∧ p.hi = some (p.value + 2) := by
  unfold grainParams at hp
  obtain ⟨i, hi, rfl⟩ := List.mem_iff_getElem.1 hp
  simp

theorem createAll_bounds (L : RotLib) (base : List Param) (cs : List Cal) (hr : ∀ c ∈ cs, Roomy c)
    (hb : ∀ p ∈ base, ∀ lo hi, p.lo = some lo → p.hi = some hi → lo < hi) :
    ∀ p ∈ (createAll L base cs).1, ∀ lo hi, p.lo = some lo → p.hi = some hi → lo < hi := by
  induction cs generalizing base with
  | nil => exact hb
  | cons c cs ih =>
    refine ih _ (fun c hc => hr c (by simp [hc])) ?_
    intro p hp
    rcases List.mem_append.1 hp with hp | hp
    · exact hb p hp
    · cases c with
      | grain g =>
        intro lo hi h1 h2
        obtain ⟨h3, h4⟩ := grainParams_bounds hp
        rw [h3, Option.some.injEq] at h1
        rw [h4, Option.some.injEq] at h2
        linarith
      | powder mat ns => exact hr (.powder mat ns) (by simp) p (List.mem_filter.1 hp).1

/-- C132: what the fixing theorems assume holds of every grain calibrator of an instrument calibration. -/
theorem holds_created (L : RotLib) (base : List Param) (cs : List Cal) (hn : (base.map Param.name).Nodup)
    (hs : ∀ c ∈ cs, Sound c) (hr : ∀ c ∈ cs, Roomy c)
    (hb : ∀ p ∈ base, ∀ lo hi, p.lo = some lo → p.hi = some hi → lo < hi) {i : Nat} {g : GrainCal}
    (hi : cs[i]? = some (.grain g)) :
    ∃ c, (createAll L base cs).2[i]? = some (.grain c) ∧ Holds c (createAll L base cs).1 := by
  obtain ⟨cur, h1, h2⟩ := created L base cs i g hi
  obtain ⟨h3, h4, h5, -⟩ := createGrain_spec L g cur
  refine ⟨_, h1, h4, h5, (params_distinct L base cs hn hs).2, ?_, createAll_bounds L base cs hr hb⟩
  intro n hm
  rw [← h3] at hm
  obtain ⟨p, hp, rfl⟩ := List.mem_map.1 hm
  exact List.mem_map_of_mem (h2 p hp)

/-- C132: a powder calibrator of a material whose parameters are there already adds none. -/
theorem same_material (L : RotLib) (current : List Name) (mat : List Param) (ns : List Name)
    (h : ∀ p ∈ mat, p.name ∈ current) : (createCal L current (.powder mat ns)).1 = [] := by
  show mat.filter _ = []
  rw [List.filter_eq_nil_iff]
  intro p hp
  simp [h p hp]

/-- Two grains with the same name, and a powder of which a parameter is named like a grain parameter. -/
noncomputable def demoCals : List Cal :=
  let g : GrainCal := ⟨['g'], ⟨![0, 0, 0], ![1, 2, 3], ![1, 1, 1, 0, 0, 0]⟩, none, .xyz, []⟩
  [.grain g, .powder [⟨['a'], 4, true, none, none⟩] [], .grain g]

example (L : RotLib) : ((createAll L [⟨['e'], 65, true, some 1, some 300⟩] demoCals).1.map Param.name).Nodup := by
  refine (params_distinct L _ _ (by simp) ?_).2
  intro c hc
  simp only [demoCals, List.mem_cons, List.not_mem_nil, or_false] at hc
  rcases hc with rfl | rfl | rfl <;> simp [Sound]

example (L : RotLib) : ∃ c, (createAll L [⟨['e'], 65, true, some 1, some 300⟩] demoCals).2[2]? = some (.grain c) ∧
    Holds c (createAll L [⟨['e'], 65, true, some 1, some 300⟩] demoCals).1 := by
  refine holds_created L _ _ (by simp) ?_ ?_ ?_ (i := 2) rfl
  · intro c hc
    simp only [demoCals, List.mem_cons, List.not_mem_nil, or_false] at hc
    rcases hc with rfl | rfl | rfl <;> simp [Sound]
  · intro c hc
    simp only [demoCals, List.mem_cons, List.not_mem_nil, or_false] at hc
    rcases hc with rfl | rfl | rfl <;> simp [Roomy]
  · simp only [List.mem_singleton, forall_eq, Option.some.injEq]
    rintro lo hi rfl rfl
    norm_num

end Hexrd.Calib
