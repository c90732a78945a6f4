/-!
# What a list of symmetry operators must satisfy
-/
namespace Hexrd.SpaceGroup.Spec

/-- The entries of `L`, without repetition, form a group under `mul` with unit `one`. -/
structure IsGroup {α : Type} (mul : α → α → α) (one : α) (L : List α) : Prop where
  nodup : L.Nodup
  one_mem : one ∈ L
  one_mul : ∀ x ∈ L, mul one x = x
  mul_one : ∀ x ∈ L, mul x one = x
  mul_mem : ∀ x ∈ L, ∀ y ∈ L, mul x y ∈ L
  assoc : ∀ x ∈ L, ∀ y ∈ L, ∀ z ∈ L, mul (mul x y) z = mul x (mul y z)
  inv_mem : ∀ x ∈ L, ∃ y ∈ L, mul x y = one ∧ mul y x = one

/-- `x` is a product of elements of `gens`. -/
inductive Generated {α : Type} (mul : α → α → α) (gens : List α) : α → Prop
  | gen (g : α) : g ∈ gens → Generated mul gens g
  | mul (x y : α) : Generated mul gens x → Generated mul gens y → Generated mul gens (mul x y)

/-- Order of the point group of a space group, by the ranges of the International Tables
(1-230); 231-237 are the rhombohedral descriptions of 146, 148, 155, 160, 161, 166, 167. -/
def pointGroupOrder (sg : Nat) : Nat :=
  if sg ≤ 1 then 1          -- 1
  else if sg ≤ 2 then 2     -- -1
  else if sg ≤ 9 then 2     -- 2, m
  else if sg ≤ 15 then 4    -- 2/m
  else if sg ≤ 46 then 4    -- 222, mm2
  else if sg ≤ 74 then 8    -- mmm
  else if sg ≤ 82 then 4    -- 4, -4
  else if sg ≤ 122 then 8   -- 4/m, 422, 4mm, -42m
  else if sg ≤ 142 then 16  -- 4/mmm
  else if sg ≤ 146 then 3   -- 3
  else if sg ≤ 161 then 6   -- -3, 32, 3m
  else if sg ≤ 167 then 12  -- -3m
  else if sg ≤ 174 then 6   -- 6, -6
  else if sg ≤ 190 then 12  -- 6/m, 622, 6mm, -6m2
  else if sg ≤ 194 then 24  -- 6/mmm
  else if sg ≤ 199 then 12  -- 23
  else if sg ≤ 220 then 24  -- m-3, 432, -43m
  else if sg ≤ 230 then 48  -- m-3m
  else if sg ≤ 231 then 3   -- 3
  else if sg ≤ 235 then 6   -- -3, 32, 3m
  else 12                   -- -3m

/-- Lattice centrings of the International Tables. -/
inductive Centring
  | P | C | A | I | F | R
deriving DecidableEq, Repr

/-- Lattice points per cell. -/
def Centring.points : Centring → Nat
  | P => 1
  | C => 2
  | A => 2
  | I => 2
  | F => 4
  | R => 3

/-- First letter of the Hermann-Mauguin symbol of each space group; in the rhombohedral
description (231-237) the cell is primitive. -/
def centring (sg : Nat) : Centring :=
  if sg ∈ [5, 8, 9, 12, 15, 20, 21, 35, 36, 37, 63, 64, 65, 66, 67, 68] then .C
  else if sg ∈ [38, 39, 40, 41] then .A
  else if sg ∈ [23, 24, 44, 45, 46, 71, 72, 73, 74, 79, 80, 82, 87, 88, 97, 98, 107, 108, 109, 110,
    119, 120, 121, 122, 139, 140, 141, 142, 197, 199, 204, 206, 211, 214, 217, 220, 229, 230] then .I
  else if sg ∈ [22, 42, 43, 69, 70, 196, 202, 203, 209, 210, 216, 219, 225, 226, 227, 228] then .F
  else if sg ∈ [146, 148, 155, 160, 161, 166, 167] then .R
  else .P

/-- Number of operators of a space group up to lattice translations of the cell. -/
def order (sg : Nat) : Nat := pointGroupOrder sg * (centring sg).points

end Hexrd.SpaceGroup.Spec
