import Verif.Model.MaterialFile
import Mathlib.Tactic.Linarith
import Mathlib.Tactic.FieldSimp
import Mathlib.Tactic.Ring
import Mathlib.Tactic.NormNum
import Mathlib.Tactic.FinCases

/-! Properties of files of materials. -/

namespace Hexrd.MaterialFile

variable {C : Type}

/-- What single precision does to a material. -/
def Mat.single (f32 : ℝ → ℝ) (m : Mat C) : Mat C :=
  { m with atoms := m.atoms.map fun a => { a with pos := fun i => f32 (a.pos i) }, u := m.u.round f32 }

/-- A material as the program makes it: the lattice parameters fit the lattice, there is a flag for every reflection, and no reflection
is listed twice. -/
structure Sound (lib : Lib) (m : Mat C) : Prop where
  lparms : lib.reset m.sgnum m.lparms = m.lparms
  flags : m.excluded.length = (reflections lib m).length
  nodup : (reflections lib m).Nodup

theorem atomsOf_parts (f : Atom C → Fin 4 → ℝ) (l : List (Atom C)) :
    atomsOf (l.map (·.z)) (l.map (·.charge)) (l.map f) = l.map fun a => { a with pos := f a } := by
  induction l with
  | nil => rfl
  | cons a l ih => simp [atomsOf, ih]

/-- The flags are those of the enabled reflections. -/
theorem flags_of_active (r : List HKL) (e : List Bool) (hl : e.length = r.length) (hn : r.Nodup) :
    (r.map fun h => !decide (h ∈ (r.zip e).filterMap fun p => if p.2 then none else some p.1)) = e := by
  induction r generalizing e with
  | nil => cases e <;> simp_all
  | cons h r ih =>
    cases e with
    | nil => simp at hl
    | cons b e =>
      obtain ⟨hh, hn⟩ := List.nodup_cons.mp hn
      have hl' : e.length = r.length := by simpa using hl
      have hmem : ∀ x, x ∈ ((r.zip e).filterMap fun p => if p.2 then none else some p.1) → x ∈ r := by
        intro x hx
        obtain ⟨p, hp, hq⟩ := List.mem_filterMap.mp hx
        split at hq
        · cases hq
        · cases hq; exact (List.of_mem_zip hp).1
      have hnot : h ∉ ((r.zip e).filterMap fun p => if p.2 then none else some p.1) := fun hx => hh (hmem h hx)
      have ih' := ih e hl' hn
      cases b with
      | true =>
        simp only [List.zip_cons_cons, List.filterMap_cons, if_true, List.map_cons]
        rw [ih']
        simp only [hnot, decide_false, Bool.not_false]
      | false =>
        simp only [List.zip_cons_cons, List.filterMap_cons, List.map_cons, List.mem_cons, true_or, decide_true, Bool.not_true,
          Bool.false_eq_true, if_false]
        congr 1
        rw [← ih']
        apply List.map_congr_left
        intro x hx
        have hne : x ≠ h := fun e => hh (e ▸ hx)
        rw [ih']
        simp only [hne, false_or]

/-- **C152** a material that is saved and loaded again is the same material, with its positions and Debye–Waller factors in single
precision: lattice parameters, space group and setting, atoms, charges, stiffness, the numbers of the equation of state, smallest
spacing, energy, width of the lines and the enabled reflections, provided at least one is enabled. -/
theorem load_dump (lib : Lib) (f32 : ℝ → ℝ) (m : Mat C) (hs : Sound lib m) (hu : m.u.empty = false) (ha : active lib m ≠ []) :
    (dump lib f32 m).map (load lib) = some (m.single f32) := by
  have hlp : (fun i : Fin 6 => if i.val < 3 then (if i.val < 3 then m.lparms i / 10 else m.lparms i) * 10
      else (if i.val < 3 then m.lparms i / 10 else m.lparms i)) = m.lparms := by
    funext i
    by_cases h : i.val < 3
    · simp only [h, if_true]; ring
    · simp only [h, if_false]
  have hd : m.dmin / 10 * 10 = m.dmin := by ring
  have hw : (m.width.map fun w => w * 180 / Real.pi).map (fun w => w * Real.pi / 180) = m.width := by
    cases m.width with
    | none => rfl
    | some w => simp only [Option.map_some]; congr 1; field_simp [Real.pi_ne_zero]
  have he : (active lib m).isEmpty = false := by
    cases h : active lib m with
    | nil => exact absurd h ha
    | cons a l => rfl
  unfold dump
  simp only [hu, Bool.false_eq_true, if_false, Option.map_some, load, he, hlp, hs.lparms, hd, hw, atomsOf_parts, Mat.single, exclusions]
  congr 2
  exact flags_of_active _ _ hs.flags hs.nodup

/-- **C152** saving a material that has been loaded from a file writes the same group again. -/
theorem dump_stable (lib : Lib) (f32 : ℝ → ℝ) (h32 : ∀ x, f32 (f32 x) = f32 x) (m : Mat C) (hs : Sound lib m) (hu : m.u.empty = false)
    (ha : active lib m ≠ []) : ((dump lib f32 m).map (load lib)).bind (dump lib f32) = dump lib f32 m := by
  rw [load_dump lib f32 m hs hu ha, Option.bind_some]
  have hact : active lib (m.single f32) = active lib m := rfl
  have hu' : (m.single f32).u.empty = m.u.empty := by
    unfold Mat.single DW.round DW.empty; cases m.u <;> simp
  have hr : (m.single f32).u.round f32 = m.u.round f32 := by
    unfold Mat.single DW.round; cases m.u <;> simp [h32, Function.comp_def]
  unfold dump
  rw [hu', hact, hr]
  simp [Mat.single, hu, Function.comp_def, h32]

/-- **C152 is false** when no reflection is enabled: the first five are enabled after loading, for every material that has any. -/
theorem none_enabled_fails (lib : Lib) (f32 : ℝ → ℝ) (m : Mat C) (hs : Sound lib m) (hu : m.u.empty = false) (ha : active lib m = [])
    (hr : reflections lib m ≠ []) :
    ∃ m', (dump lib f32 m).map (load lib) = some m' ∧ m'.excluded ≠ m.excluded ∧
      ∀ (i : ℕ), i < (reflections lib m).length → m'.excluded[i]? = some (!decide (i < 5)) := by
  have hlp : (fun i : Fin 6 => if i.val < 3 then (if i.val < 3 then m.lparms i / 10 else m.lparms i) * 10
      else (if i.val < 3 then m.lparms i / 10 else m.lparms i)) = m.lparms := by
    funext i
    by_cases h : i.val < 3
    · simp only [h, if_true]; ring
    · simp only [h, if_false]
  have hd : m.dmin / 10 * 10 = m.dmin := by ring
  unfold dump
  simp only [hu, Bool.false_eq_true, if_false, Option.map_some, ha, List.isEmpty_nil, if_true]
  refine ⟨_, rfl, ?_, ?_⟩
  · simp only [load, hlp, hs.lparms, hd, exclusions]
    intro h
    have h0 : m.excluded[0]? = some false := by
      rw [← h, List.getElem?_map, List.getElem?_range]
      · simp
      · exact List.length_pos_iff.mpr hr
    have hlen : 0 < (reflections lib m).length := List.length_pos_iff.mpr hr
    obtain ⟨r0, rs, hrr⟩ := List.exists_cons_of_ne_nil hr
    cases hx : m.excluded with
    | nil => rw [hx] at h0; cases h0
    | cons b e =>
      rw [hx] at h0
      have hb : b = false := by simpa using h0
      unfold active at ha
      rw [hrr, hx, hb] at ha
      simp at ha
  · intro i hi
    simp only [load, hlp, hs.lparms, hd, exclusions]
    rw [List.getElem?_map, List.getElem?_range]
    · rfl
    · exact hi

/-! ### Files -/

/-- **C152** writing a material leaves the other materials of the file as they are and replaces one of the same name. -/
theorem write_frame (lib : Lib) (f32 : ℝ → ℝ) (f : File C) (name n : String) (m : Mat C) (h : n ≠ name) :
    readOne lib (write lib f32 f name m) n = readOne lib f n := by
  simp only [readOne, write, h, if_false]

theorem read_write (lib : Lib) (f32 : ℝ → ℝ) (f : File C) (name : String) (m : Mat C) (hs : Sound lib m) (hu : m.u.empty = false)
    (ha : active lib m ≠ []) : readOne lib (write lib f32 f name m) name = some (m.single f32) := by
  have h := load_dump lib f32 m hs hu ha
  simp only [readOne, write, if_true]
  cases hd : dump lib f32 m with
  | none => rw [hd] at h; cases h
  | some g => rw [hd] at h; exact h

/-- Reading after saving several materials: a name that none of them has. -/
theorem saveAll_frame (lib : Lib) (f32 : ℝ → ℝ) (n : String) (ms : List (String × String × Mat C)) :
    ∀ f : File C, (∀ e ∈ ms, n ≠ e.2.1) → readOne lib (saveAll lib f32 f ms) n = readOne lib f n := by
  induction ms with
  | nil => intro f _; rfl
  | cons e ms ih =>
    intro f h
    obtain ⟨k, name, m⟩ := e
    rw [saveAll, ih _ fun e he => h e (List.mem_cons_of_mem _ he)]
    exact write_frame lib f32 f name n m (h _ List.mem_cons_self)

/-- **C152** a dictionary of materials with different names can be read back, each under its own name, whatever the file held; the other
materials of the file are as before. -/
theorem saveAll_read (lib : Lib) (f32 : ℝ → ℝ) (ms : List (String × String × Mat C))
    (hok : ∀ e ∈ ms, Sound lib e.2.2 ∧ e.2.2.u.empty = false ∧ active lib e.2.2 ≠ []) (hn : (ms.map fun e => e.2.1).Nodup) :
    ∀ f : File C, (∀ e ∈ ms, readOne lib (saveAll lib f32 f ms) e.2.1 = some (e.2.2.single f32)) ∧
      ∀ n, n ∉ ms.map (fun e => e.2.1) → readOne lib (saveAll lib f32 f ms) n = readOne lib f n := by
  intro f
  refine ⟨?_, ?_⟩
  · induction ms generalizing f with
    | nil => intro e he; cases he
    | cons e0 ms ih =>
      intro e he
      obtain ⟨k, name, m⟩ := e0
      rw [List.map_cons, List.nodup_cons] at hn
      rcases List.mem_cons.mp he with rfl | he
      · rw [saveAll, saveAll_frame]
        · obtain ⟨h1, h2, h3⟩ := hok _ List.mem_cons_self
          exact read_write lib f32 f name m h1 h2 h3
        · intro e' he' heq
          exact hn.1 (heq ▸ List.mem_map_of_mem (f := fun e : String × String × Mat C => e.2.1) he')
      · exact ih (fun e he => hok e (List.mem_cons_of_mem _ he)) hn.2 _ e he
  · intro n hnn
    exact saveAll_frame lib f32 n ms f fun e he heq => hnn (heq ▸ List.mem_map_of_mem (f := fun e : String × String × Mat C => e.2.1) he)

/-- **C152 is false** for the keys of the dictionary: a material is saved under its own name and nothing can be read under a key that is
not the name of a material. -/
theorem keys_fail (lib : Lib) (f32 : ℝ → ℝ) (key name : String) (m : Mat C) (h : key ≠ name) :
    readOne lib (saveAll lib f32 (fun _ => none) [(key, name, m)]) key = none := by
  rw [saveAll_frame lib f32 key _ _ (by intro e he; simp only [List.mem_singleton] at he; subst he; exact h)]
  rfl

/-- **C152 is false** for two materials with one name under different keys: the last one remains. -/
theorem same_name_fails (lib : Lib) (f32 : ℝ → ℝ) (f : File C) (k₁ k₂ name : String) (m₁ m₂ : Mat C) (hs : Sound lib m₂)
    (hu : m₂.u.empty = false) (ha : active lib m₂ ≠ []) :
    readOne lib (saveAll lib f32 f [(k₁, name, m₁), (k₂, name, m₂)]) name = some (m₂.single f32) :=
  read_write lib f32 _ name m₂ hs hu ha

/-- **C152 is false** for a material without atoms: saving it raises after the group with its name has been deleted, so a material that
was there cannot be read any more. -/
theorem no_atoms_fails (lib : Lib) (f32 : ℝ → ℝ) (f : File C) (name : String) (m : Mat C) (hu : m.u.empty = true) :
    readOne lib (write lib f32 f name m) name = none := by
  simp only [readOne, write, if_true, dump, hu]

/-! ### The dialogue -/

/-- What the names of the questions promise: the lengths and angles that are asked for are used as they are. -/
def Asked : System → List (Answers → ℝ)
  | .cubic => [Answers.a]
  | .tetragonal => [Answers.a, Answers.c]
  | .orthorhombic => [Answers.a, Answers.b, Answers.c]
  | .hexagonal => [Answers.a, Answers.c]
  | .rhombohedral => [Answers.a, Answers.alpha]
  | .monoclinic => [Answers.a, Answers.b, Answers.c, Answers.beta]
  | .triclinic => [Answers.a, Answers.b, Answers.c, Answers.alpha, Answers.beta, Answers.gamma]

/-- **C152** the cell of the dialogue has every number that was asked for in its place, in every system but the orthorhombic. -/
theorem dialogue_partial (s : System) (q : Answers) (h : s ≠ .orthorhombic) : ∀ g ∈ Asked s, g (latticeParameters s q) = g q := by
  cases s <;> simp_all [Asked, latticeParameters]

/-- **C152 is false** for orthorhombic crystals: the length of the second edge is that of the third, whatever was entered. -/
theorem orthorhombic_fails (q : Answers) (h : q.b ≠ q.c) :
    (latticeParameters .orthorhombic q).b = q.c ∧ (latticeParameters .orthorhombic q).b ≠ q.b :=
  ⟨rfl, fun e => h e.symm⟩

/-- **C152** the cell of the dialogue fits the system. -/
theorem dialogue_fits (s : System) (q : Answers) : let l := latticeParameters s q
    (s = .cubic → l.a = l.b ∧ l.b = l.c ∧ l.alpha = 90 ∧ l.beta = 90 ∧ l.gamma = 90) ∧
    (s = .tetragonal → l.a = l.b ∧ l.alpha = 90 ∧ l.beta = 90 ∧ l.gamma = 90) ∧
    (s = .orthorhombic → l.alpha = 90 ∧ l.beta = 90 ∧ l.gamma = 90) ∧
    (s = .hexagonal → l.a = l.b ∧ l.alpha = 90 ∧ l.beta = 90 ∧ l.gamma = 120) ∧
    (s = .rhombohedral → l.a = l.b ∧ l.b = l.c ∧ l.alpha = l.beta ∧ l.beta = l.gamma) ∧
    (s = .monoclinic → l.alpha = 90 ∧ l.gamma = 90) := by
  cases s <;> simp [latticeParameters]

/-- **C152 is false** for `mk`: whatever the answers are, it ends with `KeyError: 'pressure'`, and a material of the same name in the file
can no longer be read; the other materials can. -/
theorem mk_fails (lib : Lib) (f : File C) (name : String) (g : Group C) :
    (mk f name g).2 = some "pressure" ∧ readOne lib (mk f name g).1 name = none ∧
      ∀ n, n ≠ name → readOne lib (mk f name g).1 n = readOne lib f n := by
  have h : firstMissing mkKeys = some "pressure" := by decide
  simp only [mk, h, readOne, if_true, true_and]
  intro n hn
  simp only [hn, if_false]

/-- **C152 is false** for the rhombohedral setting: the number of the space group is one that `unitcell` refuses, for each of the seven. -/
theorem rhombohedral_fails (sg n : ℤ) (h : rhombohedralGroup sg = some n) : accepts sg = true ∧ accepts n = false := by
  unfold rhombohedralGroup at h
  unfold accepts
  grind

/-- The hypotheses are met: a cell with two reflections, one of them excluded. -/
theorem sound_instance : ∃ (lib : Lib) (m : Mat ℕ), Sound lib m ∧ m.u.empty = false ∧ active lib m = [(1, 1, 1)] ∧
    reflections lib m = [(1, 1, 1), (2, 0, 0)] :=
  ⟨⟨fun _ _ _ _ => [(1, 1, 1), (2, 0, 0)], fun _ p => p⟩,
    ⟨fun _ => 4, 225, 0, [⟨28, 0, fun _ => 0⟩], .iso [1], fun _ _ => 0, fun _ => 0, 1, 80, some 1, [false, true]⟩,
    ⟨rfl, rfl, by simp [reflections]⟩, rfl, rfl, rfl⟩

example : rhombohedralGroup 166 = some 236 := by decide

end Hexrd.MaterialFile
