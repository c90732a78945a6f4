import Verif.Model.AtomData

/-! # Specification for C176 -/
namespace Hexrd.AtomData.Spec

variable {K D : Type}

/-- Data that describe atoms: one entry of each kind for every atom, positions with occupations, and charges the elements can have. -/
structure Valid (allowed : ℕ → List String) (d : Data K D) : Prop where
  atoms : d.types ≠ []
  info : d.info.length = d.types.length
  u : d.u.length = d.types.length
  charge : d.charge.length = d.types.length
  four : ∀ r ∈ d.info, r.length = 4
  states : ∀ (i : ℕ) (z : ℕ) (q : String), d.types[i]? = some z → d.charge[i]? = some q → q ∈ allowed z

/-- The material and its unit cell tell the same. -/
def InSync (m : Mat K D) : Prop := m.cell = m.own

/-- The data of atom `i`. -/
def atom (d : Data K D) (i : ℕ) : Option (ℕ × List K × D × String) :=
  match d.types[i]?, d.info[i]?, d.u[i]?, d.charge[i]? with
  | some z, some r, some u, some q => some (z, r, u, q)
  | _, _, _, _ => none

end Hexrd.AtomData.Spec
