import Verif.Model.Units
import Mathlib.Tactic.FieldSimp
import Mathlib.Tactic.Linarith

/-!
# Unit conversions (C30)
-/
namespace Hexrd.Units

namespace Spec

/-- Kinds of quantities. -/
inductive Kind
  | angle | length | energy
deriving DecidableEq

/-- The kind of a unit. -/
def kind : U → Option Kind
  | .degrees | .radians => some .angle
  | .m | .meter | .mm | .nm | .angstrom => some .length
  | .keV | .J => some .energy
  | .other _ => none

/-- The size of a unit in radians, metres or joules (with the code's value of the
electron volt). -/
noncomputable def size : U → ℝ
  | .radians => 1
  | .degrees => Real.pi / 180
  | .m => 1
  | .meter => 1
  | .mm => 1 / 10 ^ 3
  | .nm => 1 / 10 ^ 9
  | .angstrom => 1 / 10 ^ 10
  | .J => 1
  | .keV => 160217646 / 10 ^ 24
  | .other _ => 1

/-- Planck's constant times the speed of light, in keV Angstrom. -/
noncomputable def hc : ℝ := 10 ^ 7 * 299792458 * (662607015 / 10 ^ 42) / (1602176634 / 10 ^ 28)

/-- Energy and wavelength of a photon: the pair of units between which the relation
`energy * wavelength = hc` converts. -/
def Photon (u t : U) : Prop := (u = .keV ∧ t = .angstrom) ∨ (u = .angstrom ∧ t = .keV)

end Spec

open Spec

theorem size_pos (u : U) : 0 < size u := by
  cases u <;> simp only [size] <;> positivity

theorem hc_pos : 0 < hc := by unfold hc; norm_num

/-- What a table entry means. -/
theorem cvDict_spec (u t : U) (f : ℝ) (h : cvDict u t = some f) :
    kind u = kind t ∧ (kind u).isSome ∧ f * size t = size u ∧ ¬ Photon u t := by
  have hp := Real.pi_pos.ne'
  unfold cvDict at h
  split at h <;> (try cases h) <;>
    refine ⟨rfl, rfl, ?_, by simp [Photon]⟩ <;> simp only [size] <;> field_simp

/-- C30: a conversion that succeeds keeps the kind of quantity and its physical size, or
relates the energy of a photon to its wavelength. -/
theorem convert_size (v : Val) (t : U) (w : ℝ) (h : convert v t = some w) :
    (kind v.unit = kind t ∧ w * size t = v.value * size v.unit) ∨ (Photon v.unit t ∧ w = hc / v.value) := by
  unfold convert at h
  split at h
  · rename_i e
    left
    rw [← e]
    rw [Option.some.inj h]; exact ⟨rfl, rfl⟩
  · split at h
    · rename_i f hf
      obtain ⟨k, -, s, -⟩ := cvDict_spec _ _ _ hf
      left
      refine ⟨k, ?_⟩
      rw [← Option.some.inj h, mul_assoc, mul_comm v.value, ← mul_assoc, s, mul_comm]
    · split at h
      · rename_i hp
        right
        exact ⟨hp, by rw [← Option.some.inj h]; rfl⟩
      · cases h

/-- C30: which conversions exist: to the same unit, between units of one kind except out of
nanometres, and between photon energy and wavelength; all others raise. -/
theorem convert_exists (v : Val) (t : U) :
    (convert v t).isSome ↔
      v.unit = t ∨ (kind v.unit = kind t ∧ (kind v.unit).isSome ∧ v.unit ≠ .nm) ∨ Photon v.unit t := by
  obtain ⟨uT, x, u⟩ := v
  cases u <;> cases t <;> simp [convert, cvDict, kind, Photon]

/-- C30: converting to another unit and back gives the value, if there is a way back. -/
theorem convert_back (v : Val) (t : U) (w x : ℝ) (hv : v.value ≠ 0) (h : convert v t = some w) (n : List String)
    (h' : convert ⟨n, w, t⟩ v.unit = some x) : x = v.value := by
  have s := (size_pos v.unit).ne'
  have s' := (size_pos t).ne'
  have hh := hc_pos.ne'
  have pk : ∀ a b, Photon a b → kind a ≠ kind b := by
    rintro a b (⟨rfl, rfl⟩ | ⟨rfl, rfl⟩) <;> simp [kind]
  rcases convert_size v t w h with ⟨k, e⟩ | ⟨p, e⟩ <;> rcases convert_size _ _ _ h' with ⟨k', e'⟩ | ⟨p', e'⟩
  · simp only at e'
    rw [e] at e'
    exact mul_right_cancel₀ s e'
  · exact absurd k.symm (pk _ _ p')
  · exact absurd k'.symm (pk _ _ p)
  · simp only at e'
    rw [e', e]
    field_simp

/-- C30: a way back exists, except out of nanometres. -/
theorem way_back (v : Val) (t : U) (w : ℝ) (h : convert v t = some w) (ht : t ≠ .nm) (n : List String) :
    (convert ⟨n, w, t⟩ v.unit).isSome := by
  rw [convert_exists]
  rcases (convert_exists v t).1 (by rw [h]; rfl) with e | ⟨k, s, -⟩ | p
  · exact Or.inl e.symm
  · exact Or.inr (Or.inl ⟨k.symm, by simpa only [← k] using s, ht⟩)
  · right; right
    rcases p with ⟨a, b⟩ | ⟨a, b⟩
    · exact Or.inr ⟨b, a⟩
    · exact Or.inl ⟨b, a⟩

/-- C30: converting through an intermediate unit of the same kind equals converting
directly. -/
theorem convert_via (v : Val) (t s : U) (w x y : ℝ) (h1 : convert v t = some w) (n : List String)
    (h2 : convert ⟨n, w, t⟩ s = some x) (h3 : convert v s = some y) (k1 : kind v.unit = kind t) (k2 : kind t = kind s) :
    x = y := by
  have pk : ∀ a b, Photon a b → kind a ≠ kind b := by
    rintro a b (⟨rfl, rfl⟩ | ⟨rfl, rfl⟩) <;> simp [kind]
  have hs := (size_pos s).ne'
  rcases convert_size _ _ _ h1 with ⟨-, e1⟩ | ⟨p, -⟩
  · rcases convert_size _ _ _ h2 with ⟨-, e2⟩ | ⟨p, -⟩
    · rcases convert_size _ _ _ h3 with ⟨-, e3⟩ | ⟨p, -⟩
      · simp only at e2
        exact mul_right_cancel₀ hs (by rw [e2, e1, e3])
      · exact absurd (k1.trans k2) (pk _ _ p)
    · exact absurd k2 (pk _ _ p)
  · exact absurd k1 (pk _ _ p)

/-- C30: energy to wavelength and wavelength to energy are one involution. -/
theorem photon_involution (x : ℝ) (hx : x ≠ 0) (n : List String) :
    (convert ⟨n, x, .keV⟩ .angstrom).bind (fun w => convert ⟨n, w, .angstrom⟩ .keV) = some x ∧
    convert ⟨n, x, .keV⟩ .angstrom = convert ⟨n, x, .angstrom⟩ .keV := by
  have hh := hc_pos.ne'
  have e : ∀ y, keVToAngstrom y = hc / y := fun y => rfl
  constructor
  · simp only [convert, cvDict, reduceCtorEq, if_false, e]
    simp
    field_simp
  · simp [convert, cvDict]

/-- C30: sums and differences of lengths, angles or energies in any units. -/
theorem add_sub_size (a b c d : Val) (h : add a b = some c) (h' : sub a b = some d) (hk : kind a.unit = kind b.unit) :
    c.unit = a.unit ∧ d.unit = a.unit ∧
    c.value * size c.unit = a.value * size a.unit + b.value * size b.unit ∧
    d.value * size d.unit = a.value * size a.unit - b.value * size b.unit := by
  have pk : ∀ a b, Photon a b → kind a ≠ kind b := by
    rintro a b (⟨rfl, rfl⟩ | ⟨rfl, rfl⟩) <;> simp [kind]
  unfold add at h
  unfold sub at h'
  cases hx : convert b a.unit with
  | none => rw [hx] at h; cases h
  | some x =>
    rw [hx] at h h'
    cases h
    cases h'
    rcases convert_size _ _ _ hx with ⟨-, e⟩ | ⟨p, -⟩
    · refine ⟨rfl, rfl, ?_, ?_⟩
      · simp only; rw [add_mul, e]
      · simp only; rw [sub_mul, e]
    · exact absurd hk.symm (pk _ _ p)

/-- C30, disagreement: a length converted to nanometres cannot be converted back, or to any
other unit. -/
theorem nanometre_stuck (n : List String) (x : ℝ) (t : U) (ht : t ≠ .nm) : convert ⟨n, x, .nm⟩ t = none := by
  cases t <;> simp_all [convert, cvDict]

/-- Concrete case: 90 degrees are pi/2 radians, and back. -/
example : convert ⟨["ANGLE"], 90, .degrees⟩ .radians = some (Real.pi / 180 * 90) ∧
    (convert ⟨["ANGLE"], Real.pi / 180 * 90, .radians⟩ .degrees).isSome := by
  simp [convert, cvDict]

end Hexrd.Units
