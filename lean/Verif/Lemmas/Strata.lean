import Verif.Model.Absences
import Verif.Lemmas.SGCheck
import Mathlib.Tactic.Ring
import Mathlib.Tactic.LinearCombination

/-! Special positions in reciprocal space: the sets of reflections left fixed by a rotation. -/
namespace Hexrd.SpaceGroup

def Vec.dot (v w : Vec) : Int := v.x * w.x + v.y * w.y + v.z * w.z

/-- The planes and lines of reflections that some rotation of the tables fixes. -/
inductive Stratum
  | full | x0 | y0 | z0 | xy | xny | yz | ynz | xz | xnz | x2y | y2x | ax | ay | az | xyz0 | xnyz0 | xzy0 | xnzy0 | yzx0 | ynzx0 | d111 | dm11 | d1m1 | d11m | x2yz0 | y2xz0 | zero
deriving DecidableEq

/-- Equations of the stratum. -/
def Stratum.eqs : Stratum → List Vec
  | .full => []
  | .x0 => [⟨1, 0, 0⟩]
  | .y0 => [⟨0, 1, 0⟩]
  | .z0 => [⟨0, 0, 1⟩]
  | .xy => [⟨1, -1, 0⟩]
  | .xny => [⟨1, 1, 0⟩]
  | .yz => [⟨0, 1, -1⟩]
  | .ynz => [⟨0, 1, 1⟩]
  | .xz => [⟨1, 0, -1⟩]
  | .xnz => [⟨1, 0, 1⟩]
  | .x2y => [⟨1, 2, 0⟩]
  | .y2x => [⟨2, 1, 0⟩]
  | .ax => [⟨0, 1, 0⟩, ⟨0, 0, 1⟩]
  | .ay => [⟨1, 0, 0⟩, ⟨0, 0, 1⟩]
  | .az => [⟨1, 0, 0⟩, ⟨0, 1, 0⟩]
  | .xyz0 => [⟨1, -1, 0⟩, ⟨0, 0, 1⟩]
  | .xnyz0 => [⟨1, 1, 0⟩, ⟨0, 0, 1⟩]
  | .xzy0 => [⟨1, 0, -1⟩, ⟨0, 1, 0⟩]
  | .xnzy0 => [⟨1, 0, 1⟩, ⟨0, 1, 0⟩]
  | .yzx0 => [⟨0, 1, -1⟩, ⟨1, 0, 0⟩]
  | .ynzx0 => [⟨0, 1, 1⟩, ⟨1, 0, 0⟩]
  | .d111 => [⟨1, -1, 0⟩, ⟨0, 1, -1⟩]
  | .dm11 => [⟨1, 1, 0⟩, ⟨0, 1, -1⟩]
  | .d1m1 => [⟨1, 1, 0⟩, ⟨0, 1, 1⟩]
  | .d11m => [⟨1, -1, 0⟩, ⟨0, 1, 1⟩]
  | .x2yz0 => [⟨1, 2, 0⟩, ⟨0, 0, 1⟩]
  | .y2xz0 => [⟨2, 1, 0⟩, ⟨0, 0, 1⟩]
  | .zero => [⟨1, 0, 0⟩, ⟨0, 1, 0⟩, ⟨0, 0, 1⟩]

/-- Basis of the stratum. -/
def Stratum.basis : Stratum → List Vec
  | .full => [⟨1, 0, 0⟩, ⟨0, 1, 0⟩, ⟨0, 0, 1⟩]
  | .x0 => [⟨0, 1, 0⟩, ⟨0, 0, 1⟩]
  | .y0 => [⟨1, 0, 0⟩, ⟨0, 0, 1⟩]
  | .z0 => [⟨1, 0, 0⟩, ⟨0, 1, 0⟩]
  | .xy => [⟨1, 1, 0⟩, ⟨0, 0, 1⟩]
  | .xny => [⟨1, -1, 0⟩, ⟨0, 0, 1⟩]
  | .yz => [⟨1, 0, 0⟩, ⟨0, 1, 1⟩]
  | .ynz => [⟨1, 0, 0⟩, ⟨0, 1, -1⟩]
  | .xz => [⟨0, 1, 0⟩, ⟨1, 0, 1⟩]
  | .xnz => [⟨0, 1, 0⟩, ⟨1, 0, -1⟩]
  | .x2y => [⟨-2, 1, 0⟩, ⟨0, 0, 1⟩]
  | .y2x => [⟨1, -2, 0⟩, ⟨0, 0, 1⟩]
  | .ax => [⟨1, 0, 0⟩]
  | .ay => [⟨0, 1, 0⟩]
  | .az => [⟨0, 0, 1⟩]
  | .xyz0 => [⟨1, 1, 0⟩]
  | .xnyz0 => [⟨1, -1, 0⟩]
  | .xzy0 => [⟨1, 0, 1⟩]
  | .xnzy0 => [⟨1, 0, -1⟩]
  | .yzx0 => [⟨0, 1, 1⟩]
  | .ynzx0 => [⟨0, 1, -1⟩]
  | .d111 => [⟨1, 1, 1⟩]
  | .dm11 => [⟨-1, 1, 1⟩]
  | .d1m1 => [⟨1, -1, 1⟩]
  | .d11m => [⟨1, 1, -1⟩]
  | .x2yz0 => [⟨-2, 1, 0⟩]
  | .y2xz0 => [⟨1, -2, 0⟩]
  | .zero => []

/-- Position of the stratum in the tables. -/
def Stratum.idx : Stratum → Nat
  | .full => 0
  | .x0 => 1
  | .y0 => 2
  | .z0 => 3
  | .xy => 4
  | .xny => 5
  | .yz => 6
  | .ynz => 7
  | .xz => 8
  | .xnz => 9
  | .x2y => 10
  | .y2x => 11
  | .ax => 12
  | .ay => 13
  | .az => 14
  | .xyz0 => 15
  | .xnyz0 => 16
  | .xzy0 => 17
  | .xnzy0 => 18
  | .yzx0 => 19
  | .ynzx0 => 20
  | .d111 => 21
  | .dm11 => 22
  | .d1m1 => 23
  | .d11m => 24
  | .x2yz0 => 25
  | .y2xz0 => 26
  | .zero => 27

/-- `h` is in the stratum. -/
def Stratum.on (σ : Stratum) (h : Vec) : Prop := ∀ e ∈ σ.eqs, e.dot h = 0

instance (σ : Stratum) (h : Vec) : Decidable (σ.on h) := inferInstanceAs (Decidable (∀ e ∈ σ.eqs, e.dot h = 0))

/-- Coordinates with respect to the basis. -/
def Stratum.coords : Stratum → Vec → List Int
  | .full, h => [h.x, h.y, h.z]
  | .x0, h => [h.y, h.z]
  | .y0, h => [h.x, h.z]
  | .z0, h => [h.x, h.y]
  | .xy, h => [h.x, h.z]
  | .xny, h => [h.x, h.z]
  | .yz, h => [h.x, h.y]
  | .ynz, h => [h.x, h.y]
  | .xz, h => [h.y, h.x]
  | .xnz, h => [h.y, h.x]
  | .x2y, h => [h.y, h.z]
  | .y2x, h => [h.x, h.z]
  | .ax, h => [h.x]
  | .ay, h => [h.y]
  | .az, h => [h.z]
  | .xyz0, h => [h.x]
  | .xnyz0, h => [h.x]
  | .xzy0, h => [h.x]
  | .xnzy0, h => [h.x]
  | .yzx0, h => [h.y]
  | .ynzx0, h => [h.y]
  | .d111, h => [h.x]
  | .dm11, h => [-h.x]
  | .d1m1, h => [h.x]
  | .d11m, h => [h.x]
  | .x2yz0, h => [h.y]
  | .y2xz0, h => [h.x]
  | .zero, _ => []

def lin : List Int → List Int → Int
  | a :: as, b :: bs => a * b + lin as bs
  | _, _ => 0

theorem Stratum.dot_coords (σ : Stratum) (h w : Vec) (hon : σ.on h) :
    w.dot h = lin (σ.coords h) (σ.basis.map w.dot) := by
  cases σ <;>
    simp only [Stratum.on, Stratum.eqs, List.forall_mem_cons, List.not_mem_nil, false_imp_iff, implies_true,
      and_true, Vec.dot] at hon <;>
    simp only [Stratum.coords, Stratum.basis, List.map_cons, List.map_nil, lin, Vec.dot]
  · ring -- full
  · linear_combination (1) * w.x * hon -- x0
  · linear_combination (1) * w.y * hon -- y0
  · linear_combination (1) * w.z * hon -- z0
  · linear_combination (-1) * w.y * hon -- xy
  · linear_combination (1) * w.y * hon -- xny
  · linear_combination (-1) * w.z * hon -- yz
  · linear_combination (1) * w.z * hon -- ynz
  · linear_combination (-1) * w.z * hon -- xz
  · linear_combination (1) * w.z * hon -- xnz
  · linear_combination (1) * w.x * hon -- x2y
  · linear_combination (1) * w.y * hon -- y2x
  · linear_combination (1) * w.y * hon.1 + (1) * w.z * hon.2 -- ax
  · linear_combination (1) * w.x * hon.1 + (1) * w.z * hon.2 -- ay
  · linear_combination (1) * w.x * hon.1 + (1) * w.y * hon.2 -- az
  · linear_combination (-1) * w.y * hon.1 + (1) * w.z * hon.2 -- xyz0
  · linear_combination (1) * w.y * hon.1 + (1) * w.z * hon.2 -- xnyz0
  · linear_combination (1) * w.y * hon.2 + (-1) * w.z * hon.1 -- xzy0
  · linear_combination (1) * w.y * hon.2 + (1) * w.z * hon.1 -- xnzy0
  · linear_combination (1) * w.x * hon.2 + (-1) * w.z * hon.1 -- yzx0
  · linear_combination (1) * w.x * hon.2 + (1) * w.z * hon.1 -- ynzx0
  · linear_combination (-1) * w.y * hon.1 + (-1) * w.z * hon.1 + (-1) * w.z * hon.2 -- d111
  · linear_combination (1) * w.y * hon.1 + (1) * w.z * hon.1 + (-1) * w.z * hon.2 -- dm11
  · linear_combination (1) * w.y * hon.1 + (-1) * w.z * hon.1 + (1) * w.z * hon.2 -- d1m1
  · linear_combination (-1) * w.y * hon.1 + (1) * w.z * hon.1 + (1) * w.z * hon.2 -- d11m
  · linear_combination (1) * w.x * hon.1 + (1) * w.z * hon.2 -- x2yz0
  · linear_combination (1) * w.y * hon.1 + (1) * w.z * hon.2 -- y2xz0
  · linear_combination (1) * w.x * hon.1 + (1) * w.y * hon.2.1 + (1) * w.z * hon.2.2 -- zero

theorem dvd_lin (l : List Int) (w : Vec) (bs : List Vec) (h : ∀ b ∈ bs, (24 : Int) ∣ w.dot b) :
    (24 : Int) ∣ lin l (bs.map w.dot) := by
  induction bs generalizing l with
  | nil => cases l <;> exact Int.dvd_zero _
  | cons b bs ih =>
    cases l with
    | nil => exact Int.dvd_zero _
    | cons a l =>
      exact Int.dvd_add (Int.dvd_mul_of_dvd_right (h b List.mem_cons_self))
        (ih l fun b hb => h b (List.mem_cons_of_mem _ hb))

/-- A functional that is a multiple of 24 on the basis is one on the stratum. -/
theorem Stratum.dvd (σ : Stratum) (h w : Vec) (hon : σ.on h) (hb : ∀ b ∈ σ.basis, (24 : Int) ∣ w.dot b) :
    (24 : Int) ∣ w.dot h := by
  rw [σ.dot_coords h w hon]
  exact dvd_lin _ _ _ hb

/-- The row vector `h` times the matrix. -/
def Mat.rowAct (h : Vec) (m : Mat) : Vec where
  x := h.x * m.a + h.y * m.d + h.z * m.g
  y := h.x * m.b + h.y * m.e + h.z * m.h
  z := h.x * m.c + h.y * m.f + h.z * m.i

theorem lin_zero (l : List Int) (w : Vec) (bs : List Vec) (h : ∀ b ∈ bs, w.dot b = 0) :
    lin l (bs.map w.dot) = 0 := by
  induction bs generalizing l with
  | nil => cases l <;> rfl
  | cons b bs ih =>
    cases l with
    | nil => rfl
    | cons a l =>
      rw [List.map_cons, lin, h b List.mem_cons_self, ih l fun b hb => h b (List.mem_cons_of_mem _ hb)]
      simp

/-- A matrix fixing the basis fixes the stratum. -/
theorem Stratum.fixed (σ : Stratum) (h : Vec) (m : Mat) (hon : σ.on h)
    (hb : ∀ b ∈ σ.basis, m.rowAct b = b) : m.rowAct h = h := by
  have hx := σ.dot_coords h ⟨m.a - 1, m.d, m.g⟩ hon
  have hy := σ.dot_coords h ⟨m.b, m.e - 1, m.h⟩ hon
  have hz := σ.dot_coords h ⟨m.c, m.f, m.i - 1⟩ hon
  rw [lin_zero] at hx hy hz
  · simp only [Vec.dot] at hx hy hz
    obtain ⟨x, y, z⟩ := h
    simp only [Mat.rowAct, Vec.mk.injEq]
    refine ⟨?_, ?_, ?_⟩
    · linear_combination hx
    · linear_combination hy
    · linear_combination hz
  all_goals
    intro b hbm
    have := hb b hbm
    obtain ⟨x, y, z⟩ := b
    simp only [Mat.rowAct, Vec.mk.injEq] at this
    simp only [Vec.dot]
  · linear_combination this.2.2
  · linear_combination this.2.1
  · linear_combination this.1

/-- The rotations of the tables with their codes and fixed strata. -/
def rotTable : List (Nat × Mat × Stratum) := [
  (191435328, ⟨0, 0, 1, 0, 1, 0, 1, 0, 0⟩, .xz),
  (191448000, ⟨0, 0, 1, 0, 1, 0, -1, 0, 0⟩, .ay),
  (198734400, ⟨0, 0, 1, 0, -1, 0, 1, 0, 0⟩, .xzy0),
  (198747072, ⟨0, 0, 1, 0, -1, 0, -1, 0, 0⟩, .zero),
  (199065624, ⟨0, 0, 1, 1, 0, 0, 0, 1, 0⟩, .d111),
  (199066152, ⟨0, 0, 1, 1, 0, 0, 0, -1, 0⟩, .zero),
  (374243352, ⟨0, 0, 1, -1, 0, 0, 0, 1, 0⟩, .zero),
  (374243880, ⟨0, 0, 1, -1, 0, 0, 0, -1, 0⟩, .d1m1),
  (4395700800, ⟨0, 0, -1, 0, 1, 0, 1, 0, 0⟩, .ay),
  (4395713472, ⟨0, 0, -1, 0, 1, 0, -1, 0, 0⟩, .xnz),
  (4402999872, ⟨0, 0, -1, 0, -1, 0, 1, 0, 0⟩, .zero),
  (4403012544, ⟨0, 0, -1, 0, -1, 0, -1, 0, 0⟩, .xnzy0),
  (4403331096, ⟨0, 0, -1, 1, 0, 0, 0, 1, 0⟩, .zero),
  (4403331624, ⟨0, 0, -1, 1, 0, 0, 0, -1, 0⟩, .d11m),
  (4578508824, ⟨0, 0, -1, -1, 0, 0, 0, 1, 0⟩, .dm11),
  (4578509352, ⟨0, 0, -1, -1, 0, 0, 0, -1, 0⟩, .zero),
  (4586485824, ⟨0, 1, 0, 0, 0, 1, 1, 0, 0⟩, .d111),
  (4586498496, ⟨0, 1, 0, 0, 0, 1, -1, 0, 0⟩, .zero),
  (4586789952, ⟨0, 1, 0, 0, 0, -1, 1, 0, 0⟩, .zero),
  (4586802624, ⟨0, 1, 0, 0, 0, -1, -1, 0, 0⟩, .d11m),
  (4594434049, ⟨0, 1, 0, 1, 0, 0, 0, 0, 1⟩, .xy),
  (4594434071, ⟨0, 1, 0, 1, 0, 0, 0, 0, -1⟩, .xyz0),
  (4769611777, ⟨0, 1, 0, -1, 0, 0, 0, 0, 1⟩, .az),
  (4769611799, ⟨0, 1, 0, -1, 0, 0, 0, 0, -1⟩, .zero),
  (4769943553, ⟨0, 1, 0, -1, 1, 0, 0, 0, 1⟩, .az),
  (4769943575, ⟨0, 1, 0, -1, 1, 0, 0, 0, -1⟩, .zero),
  (105488857152, ⟨0, -1, 0, 0, 0, 1, 1, 0, 0⟩, .zero),
  (105488869824, ⟨0, -1, 0, 0, 0, 1, -1, 0, 0⟩, .dm11),
  (105489161280, ⟨0, -1, 0, 0, 0, -1, 1, 0, 0⟩, .d1m1),
  (105489173952, ⟨0, -1, 0, 0, 0, -1, -1, 0, 0⟩, .zero),
  (105496805377, ⟨0, -1, 0, 1, 0, 0, 0, 0, 1⟩, .az),
  (105496805399, ⟨0, -1, 0, 1, 0, 0, 0, 0, -1⟩, .zero),
  (105504436225, ⟨0, -1, 0, 1, -1, 0, 0, 0, 1⟩, .az),
  (105504436247, ⟨0, -1, 0, 1, -1, 0, 0, 0, -1⟩, .zero),
  (105671983105, ⟨0, -1, 0, -1, 0, 0, 0, 0, 1⟩, .xny),
  (105671983127, ⟨0, -1, 0, -1, 0, 0, 0, 0, -1⟩, .xnyz0),
  (110075328024, ⟨1, 0, 0, 0, 0, 1, 0, 1, 0⟩, .yz),
  (110075328552, ⟨1, 0, 0, 0, 0, 1, 0, -1, 0⟩, .ax),
  (110075632152, ⟨1, 0, 0, 0, 0, -1, 0, 1, 0⟩, .ax),
  (110075632680, ⟨1, 0, 0, 0, 0, -1, 0, -1, 0⟩, .ynz),
  (110075645953, ⟨1, 0, 0, 0, 1, 0, 0, 0, 1⟩, .full),
  (110075645975, ⟨1, 0, 0, 0, 1, 0, 0, 0, -1⟩, .z0),
  (110082945025, ⟨1, 0, 0, 0, -1, 0, 0, 0, 1⟩, .y0),
  (110082945047, ⟨1, 0, 0, 0, -1, 0, 0, 0, -1⟩, .ax),
  (110090907649, ⟨1, 0, 0, 1, -1, 0, 0, 0, 1⟩, .y0),
  (110090907671, ⟨1, 0, 0, 1, -1, 0, 0, 0, -1⟩, .ax),
  (215571787777, ⟨1, -1, 0, 0, -1, 0, 0, 0, 1⟩, .x2y),
  (215571787799, ⟨1, -1, 0, 0, -1, 0, 0, 0, -1⟩, .x2yz0),
  (215572119553, ⟨1, -1, 0, 1, 0, 0, 0, 0, 1⟩, .az),
  (215572119575, ⟨1, -1, 0, 1, 0, 0, 0, 0, -1⟩, .zero),
  (2531732239896, ⟨-1, 0, 0, 0, 0, 1, 0, 1, 0⟩, .yzx0),
  (2531732240424, ⟨-1, 0, 0, 0, 0, 1, 0, -1, 0⟩, .zero),
  (2531732544024, ⟨-1, 0, 0, 0, 0, -1, 0, 1, 0⟩, .zero),
  (2531732544552, ⟨-1, 0, 0, 0, 0, -1, 0, -1, 0⟩, .ynzx0),
  (2531732557825, ⟨-1, 0, 0, 0, 1, 0, 0, 0, 1⟩, .x0),
  (2531732557847, ⟨-1, 0, 0, 0, 1, 0, 0, 0, -1⟩, .ay),
  (2531739856897, ⟨-1, 0, 0, 0, -1, 0, 0, 0, 1⟩, .az),
  (2531739856919, ⟨-1, 0, 0, 0, -1, 0, 0, 0, -1⟩, .zero),
  (2531915698177, ⟨-1, 0, 0, -1, 1, 0, 0, 0, 1⟩, .y2x),
  (2531915698199, ⟨-1, 0, 0, -1, 1, 0, 0, 0, -1⟩, .y2xz0),
  (2536319029249, ⟨-1, 1, 0, 0, 1, 0, 0, 0, 1⟩, .x0),
  (2536319029271, ⟨-1, 1, 0, 0, 1, 0, 0, 0, -1⟩, .ay),
  (2536501837825, ⟨-1, 1, 0, -1, 0, 0, 0, 0, 1⟩, .az),
  (2536501837847, ⟨-1, 1, 0, -1, 0, 0, 0, 0, -1⟩, .zero)]

/-- Search tree for the codes of `rotTable`. -/
def rotTree : Tree :=
(.node (.node (.node (.node (.node (.node (.node .leaf 191435328 0 .leaf) 191448000 1 .leaf)
    198734400 2 (.node .leaf 198747072 3 .leaf)) 199065624 4 (.node (.node .leaf 199066152 5 .leaf)
    374243352 6 (.node .leaf 374243880 7 .leaf))) 4395700800 8 (.node (.node (.node .leaf 4395713472
    9 .leaf) 4402999872 10 (.node .leaf 4403012544 11 .leaf)) 4403331096 12 (.node (.node .leaf
    4403331624 13 .leaf) 4578508824 14 (.node .leaf 4578509352 15 .leaf)))) 4586485824 16 (.node
    (.node (.node (.node .leaf 4586498496 17 .leaf) 4586789952 18 (.node .leaf 4586802624 19 .leaf))
    4594434049 20 (.node (.node .leaf 4594434071 21 .leaf) 4769611777 22 (.node .leaf 4769611799 23
    .leaf))) 4769943553 24 (.node (.node (.node .leaf 4769943575 25 .leaf) 105488857152 26 (.node
    .leaf 105488869824 27 .leaf)) 105489161280 28 (.node (.node .leaf 105489173952 29 .leaf)
    105496805377 30 (.node .leaf 105496805399 31 .leaf))))) 105504436225 32 (.node (.node (.node
    (.node (.node .leaf 105504436247 33 .leaf) 105671983105 34 (.node .leaf 105671983127 35 .leaf))
    110075328024 36 (.node (.node .leaf 110075328552 37 .leaf) 110075632152 38 (.node .leaf
    110075632680 39 .leaf))) 110075645953 40 (.node (.node (.node .leaf 110075645975 41 .leaf)
    110082945025 42 (.node .leaf 110082945047 43 .leaf)) 110090907649 44 (.node (.node .leaf
    110090907671 45 .leaf) 215571787777 46 (.node .leaf 215571787799 47 .leaf)))) 215572119553 48
    (.node (.node (.node (.node .leaf 215572119575 49 .leaf) 2531732239896 50 (.node .leaf
    2531732240424 51 .leaf)) 2531732544024 52 (.node (.node .leaf 2531732544552 53 .leaf)
    2531732557825 54 (.node .leaf 2531732557847 55 .leaf))) 2531739856897 56 (.node (.node (.node
    .leaf 2531739856919 57 .leaf) 2531915698177 58 (.node .leaf 2531915698199 59 .leaf))
    2536319029249 60 (.node (.node .leaf 2536319029271 61 .leaf) 2536501837825 62 (.node .leaf
    2536501837847 63 .leaf))))))

/-- What a rotation of the table fixes lies in its stratum. -/
theorem rotTable_fixed : ∀ e ∈ rotTable, ∀ h : Vec, e.2.1.rowAct h = h → e.2.2.on h := by
  simp only [rotTable, List.forall_mem_cons, List.not_mem_nil, false_imp_iff, implies_true, and_true]
  repeat' apply And.intro
  all_goals
    rintro ⟨x, y, z⟩ hf
    simp only [Mat.rowAct, Vec.mk.injEq] at hf
    simp only [Stratum.on, Stratum.eqs, List.forall_mem_cons, List.not_mem_nil, false_imp_iff, implies_true,
      and_true, Vec.dot]
    try omega

end Hexrd.SpaceGroup
