import Verif.Lemmas.Strata

/-! The reflection conditions behind the masks of the code. -/
namespace Hexrd.SpaceGroup

/-- A reflection condition: on the stratum, `c·h` is a multiple of `m`. -/
structure Cond where
  σ : Stratum
  c : Vec
  m : Int
deriving DecidableEq

def Cond.holds (k : Cond) (h : Vec) : Prop := k.σ.on h → k.m ∣ k.c.dot h

instance (k : Cond) (h : Vec) : Decidable (k.holds h) :=
  inferInstanceAs (Decidable (k.σ.on h → k.m ∣ k.c.dot h))

/-- Conditions of a lattice centring. -/
def centringConds (c : Char) : List Cond :=
  if c = 'P' then []
  else if c = 'F' then [⟨.full, ⟨1,1,0⟩, 2⟩, ⟨.full, ⟨0,1,1⟩, 2⟩]
  else if c = 'I' then [⟨.full, ⟨1,1,1⟩, 2⟩]
  else if c = 'A' then [⟨.full, ⟨0,1,1⟩, 2⟩]
  else if c = 'B' then [⟨.full, ⟨1,0,1⟩, 2⟩]
  else if c = 'C' then [⟨.full, ⟨1,1,0⟩, 2⟩]
  else if c = 'R' then [⟨.full, ⟨-1,1,1⟩, 3⟩]
  else []

def screwMod : Screw → Int
  | .s21 => 2 | .s31 => 3 | .s32 => 3 | .s41 => 4 | .s42 => 2 | .s43 => 4
  | .s61 => 6 | .s62 => 3 | .s63 => 2 | .s64 => 3 | .s65 => 6

/-- Conditions of a screw axis. -/
def screwConds (lt : LatticeType) (ax : Screw) (iax : Nat) : List Cond :=
  match lt with
  | .triclinic => []
  | .monoclinic => [⟨.ay, ⟨0,1,0⟩, 2⟩]
  | .orthorhombic =>
    if iax = 0 then [⟨.ax, ⟨1,0,0⟩, 2⟩] else if iax = 1 then [⟨.ay, ⟨0,1,0⟩, 2⟩]
    else if iax = 2 then [⟨.az, ⟨0,0,1⟩, 2⟩] else []
  | .tetragonal =>
    if iax = 0 then [⟨.az, ⟨0,0,1⟩, screwMod ax⟩]
    else if iax = 1 then [⟨.ax, ⟨1,0,0⟩, 2⟩, ⟨.ay, ⟨0,1,0⟩, 2⟩] else []
  | .trigonal => [⟨.az, ⟨0,0,1⟩, screwMod ax⟩]
  | .hexagonal => [⟨.az, ⟨0,0,1⟩, screwMod ax⟩]
  | .cubic => [⟨.az, ⟨0,0,1⟩, screwMod ax⟩, ⟨.ay, ⟨0,1,0⟩, screwMod ax⟩, ⟨.ax, ⟨1,0,0⟩, screwMod ax⟩]

def glideMod : Glide → Int
  | .d => 4 | _ => 2

/-- Direction of a glide in the plane `x = 0`, `y = 0`, `z = 0`. -/
def glideDir0 : Glide → Vec
  | .a => ⟨1,0,0⟩ | .b => ⟨0,1,0⟩ | .c => ⟨0,0,1⟩ | .n => ⟨0,1,1⟩ | .d => ⟨0,1,1⟩
def glideDir1 : Glide → Vec
  | .a => ⟨1,0,0⟩ | .b => ⟨0,1,0⟩ | .c => ⟨0,0,1⟩ | .n => ⟨1,0,1⟩ | .d => ⟨1,0,1⟩
def glideDir2 : Glide → Vec
  | .a => ⟨1,0,0⟩ | .b => ⟨0,1,0⟩ | .c => ⟨0,0,1⟩ | .n => ⟨1,1,0⟩ | .d => ⟨1,1,0⟩

/-- Conditions of a glide plane. -/
def glideConds (lt : LatticeType) (p : Glide) (ip : Nat) : List Cond :=
  match lt with
  | .triclinic => []
  | .monoclinic => if ip = 1 then [⟨.y0, glideDir1 p, 2⟩] else []
  | .orthorhombic =>
    if ip = 0 then [⟨.x0, glideDir0 p, glideMod p⟩] else if ip = 1 then [⟨.y0, glideDir1 p, glideMod p⟩]
    else if ip = 2 then [⟨.z0, glideDir2 p, glideMod p⟩] else []
  | .tetragonal =>
    if ip = 0 then [⟨.z0, glideDir2 p, glideMod p⟩]
    else if ip = 1 then
      match p with
      | .a => [⟨.x0, ⟨0,1,0⟩, 2⟩, ⟨.y0, ⟨1,0,0⟩, 2⟩]
      | .b => [⟨.x0, ⟨0,1,0⟩, 2⟩, ⟨.y0, ⟨1,0,0⟩, 2⟩]
      | p => [⟨.x0, glideDir0 p, glideMod p⟩, ⟨.y0, glideDir1 p, glideMod p⟩]
    else if ip = 2 then
      match p with
      | .d => [⟨.xy, ⟨2,0,1⟩, 4⟩, ⟨.xny, ⟨2,0,1⟩, 4⟩]
      | _ => [⟨.xy, ⟨0,0,1⟩, 2⟩, ⟨.xny, ⟨0,0,1⟩, 2⟩]
    else []
  | .trigonal =>
    if ip = 1 then [⟨.x0, ⟨0,0,1⟩, 2⟩, ⟨.y0, ⟨0,0,1⟩, 2⟩, ⟨.xny, ⟨0,0,1⟩, 2⟩]
    else [⟨.xy, ⟨0,0,1⟩, 2⟩, ⟨.x2y, ⟨0,0,1⟩, 2⟩, ⟨.y2x, ⟨0,0,1⟩, 2⟩]
  | .hexagonal =>
    if ip = 1 then [⟨.x0, ⟨0,0,1⟩, 2⟩, ⟨.y0, ⟨0,0,1⟩, 2⟩, ⟨.xny, ⟨0,0,1⟩, 2⟩]
    else [⟨.xy, ⟨0,0,1⟩, 2⟩, ⟨.x2y, ⟨0,0,1⟩, 2⟩, ⟨.y2x, ⟨0,0,1⟩, 2⟩]
  | .cubic =>
    if ip = 0 then
      match p with
      | .a => [⟨.x0, ⟨0,1,0⟩, 2⟩, ⟨.x0, ⟨0,0,1⟩, 2⟩, ⟨.y0, ⟨1,0,0⟩, 2⟩, ⟨.y0, ⟨0,0,1⟩, 2⟩, ⟨.z0, ⟨1,0,0⟩, 2⟩]
      | .b => [⟨.x0, ⟨0,1,0⟩, 2⟩, ⟨.z0, ⟨0,1,0⟩, 2⟩]
      | .c => [⟨.x0, ⟨0,0,1⟩, 2⟩, ⟨.y0, ⟨0,0,1⟩, 2⟩]
      | p => [⟨.x0, ⟨0,1,1⟩, glideMod p⟩, ⟨.y0, ⟨1,0,1⟩, glideMod p⟩, ⟨.z0, ⟨1,1,0⟩, glideMod p⟩]
    else if ip = 2 then
      match p with
      | .d => [⟨.xy, ⟨2,0,1⟩, 4⟩, ⟨.xny, ⟨2,0,1⟩, 4⟩, ⟨.yz, ⟨1,2,0⟩, 4⟩, ⟨.ynz, ⟨1,2,0⟩, 4⟩,
          ⟨.xz, ⟨2,1,0⟩, 4⟩, ⟨.xnz, ⟨2,1,0⟩, 4⟩]
      | _ => [⟨.xy, ⟨0,0,1⟩, 2⟩, ⟨.xny, ⟨0,0,1⟩, 2⟩, ⟨.yz, ⟨1,0,0⟩, 2⟩, ⟨.ynz, ⟨1,0,0⟩, 2⟩,
          ⟨.xz, ⟨0,1,0⟩, 2⟩, ⟨.xnz, ⟨0,1,0⟩, 2⟩]
    else []

/-- `mask` holds exactly where all the conditions hold. -/
def Matches (mask : Vec → Bool) (A : List Cond) : Prop := ∀ v, mask v = true ↔ ∀ k ∈ A, k.holds v

theorem holds_full (c : Vec) (m : Int) (h : Vec) : (Cond.mk .full c m).holds h ↔ m ∣ c.dot h := by
  simp [Cond.holds, Stratum.on, Stratum.eqs]

macro "cond_tac" : tactic => `(tactic|
  (intro v; rcases v with ⟨x, y, z⟩
   simp only [List.forall_mem_cons, List.not_mem_nil, false_imp_iff, implies_true, and_true, Cond.holds, Stratum.on,
    Stratum.eqs, Vec.dot, eqB, absEq, odd, not4, not3, not6, screwMod, glideMod, glideDir0, glideDir1, glideDir2,
    Bool.not_eq_true', Bool.and_eq_false_iff, Bool.or_eq_false_iff, Bool.not_eq_false', Bool.and_eq_true, Bool.or_eq_true,
    decide_eq_true_eq, decide_eq_false_iff_not, Classical.not_not, ne_eq, Bool.not_not, true_imp_iff]
   try omega))

theorem centring_matches (c : Char) (mask : Vec → Bool) (h : centringMask c = some mask) :
    Matches mask (centringConds c) := by
  unfold centringMask at h
  unfold centringConds
  split at h
  · cases h; rename_i hc; rw [if_pos hc]; intro v; simp
  split at h
  · cases h; rename_i h1 hc; rw [if_neg h1, if_pos hc]; cond_tac
  split at h
  · cases h; rename_i h1 h2 hc; rw [if_neg h1, if_neg h2, if_pos hc]; cond_tac
  split at h
  · cases h; rename_i h1 h2 h3 hc; rw [if_neg h1, if_neg h2, if_neg h3, if_pos hc]; cond_tac
  split at h
  · cases h; rename_i h1 h2 h3 h4 hc; rw [if_neg h1, if_neg h2, if_neg h3, if_neg h4, if_pos hc]; cond_tac
  split at h
  · cases h; rename_i h1 h2 h3 h4 h5 hc
    rw [if_neg h1, if_neg h2, if_neg h3, if_neg h4, if_neg h5, if_pos hc]; cond_tac
  split at h
  · cases h; rename_i h1 h2 h3 h4 h5 h6 hc
    rw [if_neg h1, if_neg h2, if_neg h3, if_neg h4, if_neg h5, if_neg h6, if_pos hc]; cond_tac
  · cases h

theorem matches_nil : Matches (fun _ => true) [] := by intro v; simp

theorem not_odd (e : Int) : odd e = false ↔ 2 ∣ e := by unfold odd; simp only [decide_eq_false_iff_not]; omega
theorem not_not4 (e : Int) : not4 e = false ↔ 4 ∣ e := by unfold not4; simp only [decide_eq_false_iff_not]; omega
theorem not_not3 (e : Int) : not3 e = false ↔ 3 ∣ e := by unfold not3; simp only [decide_eq_false_iff_not]; omega
theorem not_not6 (e : Int) : not6 e = false ↔ 6 ∣ e := by unfold not6; simp only [decide_eq_false_iff_not]; omega

theorem keep_iff (a b : Bool) : (!(a && b)) = true ↔ (a = true → b = false) := by cases a <;> cases b <;> decide
theorem keep2_iff (a b : Bool) : (!(!a || !b)) = true ↔ a = true ∧ b = true := by cases a <;> cases b <;> decide
theorem keep3_iff (a b c : Bool) : (!(!a || (!b || !c))) = true ↔ a = true ∧ b = true ∧ c = true := by
  cases a <;> cases b <;> cases c <;> decide
theorem nor_iff (a b : Bool) : (!(a || b)) = true ↔ (!a) = true ∧ (!b) = true := by cases a <;> cases b <;> decide
theorem and_twice (a b : Bool) : (a && b && b) = (a && b) := by cases a <;> cases b <;> decide
theorem eqB_iff (a b : Int) : eqB a b = true ↔ a = b := by simp [eqB]
theorem absEq_imp (a b : Int) (P : Prop) : (absEq a b = true → P) ↔ (a = b → P) ∧ (a = -b → P) := by
  have : absEq a b = true ↔ a = b ∨ a = -b := by simp only [absEq, decide_eq_true_eq]; omega
  rw [this, or_imp]

section
variable (c : Vec) (m x y z : Int)
theorem holds_xy : (Cond.mk .xy c m).holds ⟨x, y, z⟩ ↔ (x = y → m ∣ c.dot ⟨x, y, z⟩) := by
  have : x = y ↔ 1 * x + -1 * y + 0 * z = 0 := by omega
  simp only [this, Cond.holds, Stratum.on, Stratum.eqs, List.mem_singleton, forall_eq]; rfl
theorem holds_xny : (Cond.mk .xny c m).holds ⟨x, y, z⟩ ↔ (x = -y → m ∣ c.dot ⟨x, y, z⟩) := by
  have : x = -y ↔ 1 * x + 1 * y + 0 * z = 0 := by omega
  simp only [this, Cond.holds, Stratum.on, Stratum.eqs, List.mem_singleton, forall_eq]; rfl
theorem holds_yz : (Cond.mk .yz c m).holds ⟨x, y, z⟩ ↔ (y = z → m ∣ c.dot ⟨x, y, z⟩) := by
  have : y = z ↔ 0 * x + 1 * y + -1 * z = 0 := by omega
  simp only [this, Cond.holds, Stratum.on, Stratum.eqs, List.mem_singleton, forall_eq]; rfl
theorem holds_ynz : (Cond.mk .ynz c m).holds ⟨x, y, z⟩ ↔ (y = -z → m ∣ c.dot ⟨x, y, z⟩) := by
  have : y = -z ↔ 0 * x + 1 * y + 1 * z = 0 := by omega
  simp only [this, Cond.holds, Stratum.on, Stratum.eqs, List.mem_singleton, forall_eq]; rfl
theorem holds_xz : (Cond.mk .xz c m).holds ⟨x, y, z⟩ ↔ (x = z → m ∣ c.dot ⟨x, y, z⟩) := by
  have : x = z ↔ 1 * x + 0 * y + -1 * z = 0 := by omega
  simp only [this, Cond.holds, Stratum.on, Stratum.eqs, List.mem_singleton, forall_eq]; rfl
theorem holds_xnz : (Cond.mk .xnz c m).holds ⟨x, y, z⟩ ↔ (x = -z → m ∣ c.dot ⟨x, y, z⟩) := by
  have : x = -z ↔ 1 * x + 0 * y + 1 * z = 0 := by omega
  simp only [this, Cond.holds, Stratum.on, Stratum.eqs, List.mem_singleton, forall_eq]; rfl
theorem holds_x2y : (Cond.mk .x2y c m).holds ⟨x, y, z⟩ ↔ (x = -2 * y → m ∣ c.dot ⟨x, y, z⟩) := by
  have : x = -2 * y ↔ 1 * x + 2 * y + 0 * z = 0 := by omega
  simp only [this, Cond.holds, Stratum.on, Stratum.eqs, List.mem_singleton, forall_eq]; rfl
theorem holds_y2x : (Cond.mk .y2x c m).holds ⟨x, y, z⟩ ↔ (-2 * x = y → m ∣ c.dot ⟨x, y, z⟩) := by
  have : -2 * x = y ↔ 2 * x + 1 * y + 0 * z = 0 := by omega
  simp only [this, Cond.holds, Stratum.on, Stratum.eqs, List.mem_singleton, forall_eq]; rfl
theorem holds_x0 : (Cond.mk .x0 c m).holds ⟨x, y, z⟩ ↔ (x = 0 → m ∣ c.dot ⟨x, y, z⟩) := by
  simp [Cond.holds, Stratum.on, Stratum.eqs, Vec.dot]
theorem holds_y0 : (Cond.mk .y0 c m).holds ⟨x, y, z⟩ ↔ (y = 0 → m ∣ c.dot ⟨x, y, z⟩) := by
  simp [Cond.holds, Stratum.on, Stratum.eqs, Vec.dot]
theorem holds_z0 : (Cond.mk .z0 c m).holds ⟨x, y, z⟩ ↔ (z = 0 → m ∣ c.dot ⟨x, y, z⟩) := by
  simp [Cond.holds, Stratum.on, Stratum.eqs, Vec.dot]
theorem holds_ax : (Cond.mk .ax c m).holds ⟨x, y, z⟩ ↔ (y = 0 ∧ z = 0 → m ∣ c.dot ⟨x, y, z⟩) := by
  simp [Cond.holds, Stratum.on, Stratum.eqs, Vec.dot]
theorem holds_ay : (Cond.mk .ay c m).holds ⟨x, y, z⟩ ↔ (x = 0 ∧ z = 0 → m ∣ c.dot ⟨x, y, z⟩) := by
  simp [Cond.holds, Stratum.on, Stratum.eqs, Vec.dot]
theorem holds_az : (Cond.mk .az c m).holds ⟨x, y, z⟩ ↔ (x = 0 ∧ y = 0 → m ∣ c.dot ⟨x, y, z⟩) := by
  simp [Cond.holds, Stratum.on, Stratum.eqs, Vec.dot]
end

macro "shape_tac" : tactic => `(tactic|
  (rintro ⟨x, y, z⟩
   simp only [nor_iff, keep2_iff, keep3_iff, Bool.not_not, and_twice, keep_iff, not_odd, not_not4, not_not3, not_not6, eqB_iff,
    absEq_imp, Bool.and_eq_true,
    List.forall_mem_cons, List.not_mem_nil, false_imp_iff, implies_true, and_true,
    holds_x0, holds_y0, holds_z0, holds_xy, holds_xny, holds_yz, holds_ynz, holds_xz, holds_xnz, holds_x2y, holds_y2x,
    holds_ax, holds_ay, holds_az, screwMod, glideMod, glideDir0, glideDir1, glideDir2, Vec.dot,
    Int.zero_mul, Int.one_mul, Int.zero_add, Int.add_zero, and_assoc]
   try omega))

macro "mask_tac" h:ident : tactic => `(tactic|
  (simp (config := { decide := true }) only [if_true, if_false, Option.some.injEq, reduceCtorEq] at $h:ident
   <;> (cases $h:ident
        try simp (config := { decide := true }) only [if_true, if_false]
        first | exact matches_nil | shape_tac)))

set_option maxHeartbeats 2000000 in
theorem screw_matches (lt : LatticeType) (ax : Screw) (iax : Nat) (mask : Vec → Bool)
    (h : screwMask lt ax iax = some mask) : Matches mask (screwConds lt ax iax) := by
  rcases iax with _ | _ | _ | iax
  · cases lt <;> cases ax <;> unfold screwMask at h <;> unfold screwConds <;> mask_tac h
  · cases lt <;> cases ax <;> unfold screwMask at h <;> unfold screwConds <;> mask_tac h
  · cases lt <;> cases ax <;> unfold screwMask at h <;> unfold screwConds <;> mask_tac h
  · have e0 : ¬ iax + 1 + 1 + 1 = 0 := by omega
    have e1 : ¬ iax + 1 + 1 + 1 = 1 := by omega
    have e2 : ¬ iax + 1 + 1 + 1 = 2 := by omega
    cases lt <;> cases ax <;> unfold screwMask at h <;> unfold screwConds <;>
      simp only [if_neg e0, if_neg e1, if_neg e2] at h ⊢ <;> mask_tac h

set_option maxHeartbeats 2000000 in
theorem glide_matches (lt : LatticeType) (p : Glide) (ip : Nat) (mask : Vec → Bool)
    (h : glideMask lt p ip = some mask) : Matches mask (glideConds lt p ip) := by
  rcases ip with _ | _ | _ | ip
  · cases lt <;> cases p <;> unfold glideMask at h <;> unfold glideConds <;> mask_tac h
  · cases lt <;> cases p <;> unfold glideMask at h <;> unfold glideConds <;> mask_tac h
  · cases lt <;> cases p <;> unfold glideMask at h <;> unfold glideConds <;> mask_tac h
  · have e0 : ¬ ip + 1 + 1 + 1 = 0 := by omega
    have e1 : ¬ ip + 1 + 1 + 1 = 1 := by omega
    have e2 : ¬ ip + 1 + 1 + 1 = 2 := by omega
    cases lt <;> cases p <;> unfold glideMask at h <;> unfold glideConds <;>
      simp only [if_neg e0, if_neg e1, if_neg e2] at h ⊢ <;> mask_tac h

end Hexrd.SpaceGroup
