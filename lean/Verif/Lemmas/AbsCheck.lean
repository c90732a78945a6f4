import Verif.Lemmas.AbsConds
import Verif.Lemmas.SGGroup
import Verif.Spec.Absences

/-! The check that reflection conditions agree with a list of operators, and its soundness. -/
namespace Hexrd.SpaceGroup

/-! ### The conditions of a space group -/

/-- Conditions collected by the loop over the glide planes. -/
def glideList (lt : Option LatticeType) : Nat → List (Option Glide) → Option (List Cond)
  | _, [] => some []
  | ip, none :: ps => glideList lt (ip + 1) ps
  | ip, some p :: ps => do
    let t ← lt
    let _ ← glideMask t p ip
    let rest ← glideList lt (ip + 1) ps
    return glideConds t p ip ++ rest

/-- Conditions collected by the loop over the screw axes. -/
def screwList (lt : Option LatticeType) : Nat → List (Option Screw) → Option (List Cond)
  | _, [] => some []
  | iax, none :: as => screwList lt (iax + 1) as
  | iax, some a :: as => do
    let t ← lt
    let _ ← screwMask t a iax
    let rest ← screwList lt (iax + 1) as
    return screwConds t a iax ++ rest

/-- Conditions of a space group. -/
def condsOf (sg : Nat) : Option (List Cond) :=
  if sg = 0 then none
  else do
    let c ← centringLetter[sg - 1]?
    let _ ← centringMask c
    if sg ∈ symmorphic then return centringConds c
    else do
      let (planes, axes) ← sysAb.lookup sg
      let g ← glideList (latticeType sg) 0 planes
      let s ← screwList (latticeType sg) 0 axes
      return centringConds c ++ (g ++ s)

/-- Keeping what satisfies all the conditions. -/
def keepAll (A : List Cond) (l : List Vec) : List Vec := l.filter fun v => decide (∀ k ∈ A, k.holds v)

theorem filter_matches (mask : Vec → Bool) (A : List Cond) (h : Matches mask A) (l : List Vec) :
    l.filter mask = keepAll A l := by
  unfold keepAll
  congr 1
  funext v
  have := h v
  by_cases hm : mask v = true
  · rw [hm, decide_eq_true (this.1 hm)]
  · rw [decide_eq_false fun h' => hm (this.2 h')]
    simpa using hm

theorem keepAll_append (A B : List Cond) (l : List Vec) : keepAll B (keepAll A l) = keepAll (A ++ B) l := by
  unfold keepAll
  rw [List.filter_filter]
  congr 1
  funext v
  rw [← Bool.decide_and]
  congr 1
  rw [List.forall_mem_append]
  exact propext and_comm

theorem omitGlides_spec (lt : Option LatticeType) (ps : List (Option Glide)) (ip : Nat) (A : List Cond)
    (h : glideList lt ip ps = some A) (l : List Vec) : omitGlides lt ip ps l = some (keepAll A l) := by
  induction ps generalizing ip A l with
  | nil => cases h; simp [omitGlides, keepAll]
  | cons p ps ih =>
    cases p with
    | none => exact ih _ _ h _
    | some p =>
      rw [glideList] at h
      rw [omitGlides]
      cases lt with
      | none => simp at h
      | some t =>
        simp only [Option.bind_eq_bind, Option.bind_some, Option.pure_def] at h ⊢
        cases hm : glideMask t p ip with
        | none => simp [hm] at h
        | some mask =>
          cases hr : glideList (some t) (ip + 1) ps with
          | none => simp [hm, hr] at h
          | some rest =>
            simp only [hm, hr, Option.bind_some, Option.some.injEq] at h ⊢
            rw [← h, ih _ _ hr, filter_matches _ _ (glide_matches _ _ _ _ hm), keepAll_append]

theorem omitScrews_spec (lt : Option LatticeType) (ps : List (Option Screw)) (ip : Nat) (A : List Cond)
    (h : screwList lt ip ps = some A) (l : List Vec) : omitScrews lt ip ps l = some (keepAll A l) := by
  induction ps generalizing ip A l with
  | nil => cases h; simp [omitScrews, keepAll]
  | cons p ps ih =>
    cases p with
    | none => exact ih _ _ h _
    | some p =>
      rw [screwList] at h
      rw [omitScrews]
      cases lt with
      | none => simp at h
      | some t =>
        simp only [Option.bind_eq_bind, Option.bind_some, Option.pure_def] at h ⊢
        cases hm : screwMask t p ip with
        | none => simp [hm] at h
        | some mask =>
          cases hr : screwList (some t) (ip + 1) ps with
          | none => simp [hm, hr] at h
          | some rest =>
            simp only [hm, hr, Option.bind_some, Option.some.injEq] at h ⊢
            rw [← h, ih _ _ hr, filter_matches _ _ (screw_matches _ _ _ _ hm), keepAll_append]

/-- The code keeps exactly the reflections that satisfy the conditions. -/
theorem allowed_spec (sg : Nat) (A : List Cond) (h : condsOf sg = some A) (l : List Vec) :
    allowedHKLs sg l = some (keepAll A l) := by
  unfold condsOf at h
  unfold allowedHKLs
  by_cases h0 : sg = 0
  · rw [if_pos h0] at h; cases h
  rw [if_neg h0] at h ⊢
  cases hc : centringLetter[sg - 1]? with
  | none => simp [hc] at h
  | some c =>
    cases hm : centringMask c with
    | none => simp [hc, hm] at h
    | some mask =>
      have e := filter_matches _ _ (centring_matches _ _ hm)
      by_cases hs : sg ∈ symmorphic
      · simp only [hc, hm, Option.bind_eq_bind, Option.bind_some, if_pos hs, Option.pure_def,
          Option.some.injEq] at h ⊢
        rw [← h, e]
      · simp only [hc, hm, Option.bind_eq_bind, Option.bind_some, if_neg hs, Option.pure_def] at h ⊢
        unfold nonSymmorphicAbsences
        cases hl : sysAb.lookup sg with
        | none => simp [hl] at h
        | some q =>
          obtain ⟨planes, axes⟩ := q
          cases hg : glideList (latticeType sg) 0 planes with
          | none => simp [hl, hg] at h
          | some g =>
            cases hsc : screwList (latticeType sg) 0 axes with
            | none => simp [hl, hg, hsc] at h
            | some s =>
              simp only [hl, hg, hsc, Option.bind_some, Option.some.injEq] at h
              simp only [Option.bind_eq_bind, Option.bind_some]
              rw [omitGlides_spec _ _ _ _ hg, Option.bind_some, omitScrews_spec _ _ _ _ hsc, e, keepAll_append,
                keepAll_append, ← h]

/-! ### The check against the operators -/

/-- `24/m` times the direction of a condition. -/
def Cond.gen (k : Cond) : Vec := ⟨24 / k.m * k.c.x, 24 / k.m * k.c.y, 24 / k.m * k.c.z⟩

/-- The modulus divides 24. -/
def Cond.ok (k : Cond) : Bool := decide (24 / k.m * k.m = 24)

/-- The stratum lies inside that of the condition. -/
def Cond.above (k : Cond) (σ : Stratum) : Bool := decide (∀ e ∈ k.σ.eqs, ∀ b ∈ σ.basis, e.dot b = 0)

/-- Values of a functional on the basis, modulo 24. -/
def digits (σ : Stratum) (t : Vec) : List Int := σ.basis.map fun b => t.dot b % 24

/-- The basis modulo 24. -/
def Stratum.nbasis : Stratum → List (Nat × Nat × Nat)
  | .full => [(1, 0, 0), (0, 1, 0), (0, 0, 1)]
  | .x0 => [(0, 1, 0), (0, 0, 1)]
  | .y0 => [(1, 0, 0), (0, 0, 1)]
  | .z0 => [(1, 0, 0), (0, 1, 0)]
  | .xy => [(1, 1, 0), (0, 0, 1)]
  | .xny => [(1, 23, 0), (0, 0, 1)]
  | .yz => [(1, 0, 0), (0, 1, 1)]
  | .ynz => [(1, 0, 0), (0, 1, 23)]
  | .xz => [(0, 1, 0), (1, 0, 1)]
  | .xnz => [(0, 1, 0), (1, 0, 23)]
  | .x2y => [(22, 1, 0), (0, 0, 1)]
  | .y2x => [(1, 22, 0), (0, 0, 1)]
  | .ax => [(1, 0, 0)]
  | .ay => [(0, 1, 0)]
  | .az => [(0, 0, 1)]
  | .xyz0 => [(1, 1, 0)]
  | .xnyz0 => [(1, 23, 0)]
  | .xzy0 => [(1, 0, 1)]
  | .xnzy0 => [(1, 0, 23)]
  | .yzx0 => [(0, 1, 1)]
  | .ynzx0 => [(0, 1, 23)]
  | .d111 => [(1, 1, 1)]
  | .dm11 => [(23, 1, 1)]
  | .d1m1 => [(1, 23, 1)]
  | .d11m => [(1, 1, 23)]
  | .x2yz0 => [(22, 1, 0)]
  | .y2xz0 => [(1, 22, 0)]
  | .zero => []

/-- The values of the translation of a code on the basis. -/
def digitsN (σ : Stratum) (c : Nat) : List Nat :=
  σ.nbasis.map fun b => Nat.mod (Nat.add (Nat.add (Nat.mul b.1 (dg c 576)) (Nat.mul b.2.1 (dg c 24)))
    (Nat.mul b.2.2 (dg c 1))) 24

/-- One step of the table of phases: the value `u` is the value `w` plus the generator of `k`. -/
def stepB (σ : Stratum) (k : Cond) (w u : List Nat) : Bool :=
  k.ok && k.above σ && decide (w.length = σ.basis.length) &&
  decide (u.map Int.ofNat = List.zipWith (fun a b => (Int.ofNat a + k.gen.dot b) % 24) w σ.basis)

/-- All the values in the table are sums of generators. -/
def spanB (σ : Stratum) (A : List Cond) : List (List Nat) → List (List Nat × Nat × Nat) → Bool
  | _, [] => true
  | acc, (u, p, i) :: L =>
    (decide (u = σ.basis.map fun _ => 0) ||
      match acc[p]?, A[i]? with
      | some w, some k => stepB σ k w u
      | _, _ => false) && spanB σ A (acc ++ [u]) L

def Stratum.all : List Stratum := [.full, .x0, .y0, .z0, .xy, .xny, .yz, .ynz, .xz, .xnz, .x2y, .y2x, .ax, .ay, .az, .xyz0, .xnyz0, .xzy0, .xnzy0, .yzx0, .ynzx0, .d111, .dm11, .d1m1, .d11m, .x2yz0, .y2xz0, .zero]

/-- The tables of phases of all strata. -/
def spansB (A : List Cond) (spans : List (List (List Nat × Nat × Nat))) : Bool :=
  Stratum.all.all fun σ => spanB σ A [] (spans[σ.idx]?.getD [])

def listEq : List Nat → List Nat → Bool
  | [], [] => true
  | a :: as, b :: bs => bif Nat.beq a b then listEq as bs else false
  | _, _ => false

noncomputable def lookB (u : List Nat) (L : List (List Nat × Nat × Nat)) : Bool :=
  List.rec false (fun e _ ih => Bool.rec ih true (listEq e.1 u)) L

/-- The phase of an operator is in the table of the stratum it fixes. -/
noncomputable def opB (spans : List (List (List Nat × Nat × Nat))) (c : Nat) : Bool :=
  match rotTable[rotTree.find (Nat.div c 13824)]? with
  | none => false
  | some (r, _, σ) => Nat.beq r (Nat.div c 13824) && lookB (digitsN σ c) (spans[σ.idx]?.getD [])

/-- The operator at the given position shows the condition to be necessary. -/
def witB (C : List Nat) (k : Cond) (i : Nat) : Bool :=
  match C[i]? with
  | none => false
  | some c =>
    let p := dec c
    k.ok && k.σ.basis.all (fun b => decide (p.r.rowAct b = b)) &&
    (k.σ.basis.all (fun b => decide ((p.t.dot b - k.gen.dot b) % 24 = 0)) ||
     k.σ.basis.all (fun b => decide ((p.t.dot b + k.gen.dot b) % 24 = 0)))

/-- Every condition has its operator. -/
def witsB (C : List Nat) : List Cond → List Nat → Bool
  | [], [] => true
  | k :: A, i :: w => witB C k i && witsB C A w
  | _, _ => false

theorem Stratum.mem_all (σ : Stratum) : σ ∈ Stratum.all := by cases σ <;> decide

theorem nbasis_eq (σ : Stratum) :
    σ.nbasis = σ.basis.map fun b => ((b.x % 24).toNat, (b.y % 24).toNat, (b.z % 24).toNat) := by
  cases σ <;> decide

theorem digit_eq (b : Vec) (x y z : Nat) :
    ((((b.x % 24).toNat * x + (b.y % 24).toNat * y + (b.z % 24).toNat * z) % 24 : Nat) : Int) =
      Vec.dot ⟨x, y, z⟩ b % 24 := by
  have e : ∀ t : Int, ((t % 24).toNat : Int) = t % 24 := fun t => Int.toNat_of_nonneg (by omega)
  rw [Vec.dot]
  push_cast
  rw [e, e, e]
  have h : ∀ t : Int, ∀ u : Int, t % 24 * u % 24 = u * t % 24 := by
    intro t u; rw [Int.mul_comm u t, Int.mul_emod, Int.emod_emod, ← Int.mul_emod]
  have h1 := h b.x x
  have h2 := h b.y y
  have h3 := h b.z z
  revert h1 h2 h3
  generalize b.x % 24 * (x : Int) = p1
  generalize b.y % 24 * (y : Int) = p2
  generalize b.z % 24 * (z : Int) = p3
  generalize (x : Int) * b.x = q1
  generalize (y : Int) * b.y = q2
  generalize (z : Int) * b.z = q3
  intros
  omega

theorem dec_t (c : Nat) : (dec c).t = ⟨dg c 576, dg c 24, dg c 1⟩ := rfl

theorem digitsN_eq (σ : Stratum) (c : Nat) : (digitsN σ c).map Int.ofNat = digits σ (dec c).t := by
  rw [digitsN, digits, nbasis_eq, List.map_map, List.map_map]
  apply List.map_congr_left
  intro b _
  exact digit_eq b _ _ _

/-- Functionals with value `u` are whole phases on the reflections satisfying the conditions. -/
def Good (σ : Stratum) (A : List Cond) (u : List Nat) : Prop :=
  ∀ t : Vec, digits σ t = u.map Int.ofNat → ∀ h, σ.on h → (∀ k ∈ A, k.holds h) → (24 : Int) ∣ t.dot h

theorem above_on (k : Cond) (σ : Stratum) (h : Vec) (ha : k.above σ = true) (hon : σ.on h) : k.σ.on h := by
  unfold Cond.above at ha
  rw [decide_eq_true_eq] at ha
  intro e he
  rw [σ.dot_coords h e hon]
  exact lin_zero _ _ _ (ha e he)

theorem gen_dvd (k : Cond) (h : Vec) (hok : k.ok = true) (hd : k.m ∣ k.c.dot h) : (24 : Int) ∣ k.gen.dot h := by
  unfold Cond.ok at hok
  rw [decide_eq_true_eq] at hok
  obtain ⟨q, hq⟩ := hd
  refine ⟨q, ?_⟩
  have : k.gen.dot h = 24 / k.m * k.c.dot h := by simp only [Cond.gen, Vec.dot]; ring
  rw [this, hq, ← Int.mul_assoc, hok]

theorem gen_dvd_conv (k : Cond) (h : Vec) (hok : k.ok = true) (hd : (24 : Int) ∣ k.gen.dot h) : k.m ∣ k.c.dot h := by
  unfold Cond.ok at hok
  rw [decide_eq_true_eq] at hok
  obtain ⟨q, hq⟩ := hd
  have : k.gen.dot h = 24 / k.m * k.c.dot h := by simp only [Cond.gen, Vec.dot]; ring
  rw [this] at hq
  refine ⟨q, ?_⟩
  have h0 : 24 / k.m ≠ 0 := fun h => by rw [h, Int.zero_mul] at hok; cases hok
  apply Int.eq_of_mul_eq_mul_left h0
  rw [hq, ← Int.mul_assoc, hok]

theorem good_zero (σ : Stratum) (A : List Cond) : Good σ A (σ.basis.map fun _ => 0) := by
  intro t ht h hon _
  refine σ.dvd h t hon ?_
  intro b hb
  unfold digits at ht
  rw [List.map_map] at ht
  have := List.map_inj_left.1 ht b hb
  exact Int.dvd_of_emod_eq_zero this

theorem zip_map (f : Int → Vec → Int) (t : Vec) (w : List Nat) (bs : List Vec) (hl : w.length = bs.length)
    (h : bs.map (fun b => t.dot b % 24) = List.zipWith (fun a b => f (Int.ofNat a) b) w bs) (g : Vec → Int)
    (hg : ∀ a b, t.dot b % 24 = f (Int.ofNat a) b → g b = Int.ofNat (a % 24)) :
    bs.map g = w.map fun a => Int.ofNat (a % 24) := by
  induction bs generalizing w with
  | nil => cases w with
    | nil => rfl
    | cons a w => cases hl
  | cons b bs ih =>
    cases w with
    | nil => cases hl
    | cons a w =>
      simp only [List.map_cons, List.zipWith_cons_cons, List.cons.injEq] at h ⊢
      exact ⟨hg a b h.1, ih w (by simpa using hl) h.2⟩

theorem good_step (σ : Stratum) (A : List Cond) (k : Cond) (hk : k ∈ A) (w u : List Nat) (hw : Good σ A w)
    (hwm : ∀ a ∈ w, a < 24) (h : stepB σ k w u = true) : Good σ A u ∧ ∀ a ∈ u, a < 24 := by
  unfold stepB at h
  simp only [Bool.and_eq_true, decide_eq_true_eq] at h
  obtain ⟨⟨⟨hok, hab⟩, hlen⟩, hu⟩ := h
  constructor
  · intro t ht hh hon hA
    have hg : (24 : Int) ∣ k.gen.dot hh := gen_dvd k hh hok (hA k hk (above_on k σ hh hab hon))
    have := hw ⟨t.x - k.gen.x, t.y - k.gen.y, t.z - k.gen.z⟩ ?_ hh hon hA
    · have e : t.dot hh = Vec.dot ⟨t.x - k.gen.x, t.y - k.gen.y, t.z - k.gen.z⟩ hh + k.gen.dot hh := by
        simp only [Vec.dot]; ring
      rw [e]
      exact Int.dvd_add this hg
    · rw [hu] at ht
      unfold digits at ht ⊢
      have := zip_map (fun a b => (a + k.gen.dot b) % 24) t w σ.basis hlen ht
        (fun b => Vec.dot ⟨t.x - k.gen.x, t.y - k.gen.y, t.z - k.gen.z⟩ b % 24) (by
          intro a b hab
          have e : Vec.dot ⟨t.x - k.gen.x, t.y - k.gen.y, t.z - k.gen.z⟩ b = t.dot b - k.gen.dot b := by
            simp only [Vec.dot]; ring
          show Vec.dot ⟨t.x - k.gen.x, t.y - k.gen.y, t.z - k.gen.z⟩ b % 24 = ((a % 24 : Nat) : Int)
          rw [e]
          have hab : t.dot b % 24 = ((a : Int) + k.gen.dot b) % 24 := hab
          omega)
      rw [this]
      apply List.map_congr_left
      intro a ha
      rw [Nat.mod_eq_of_lt (hwm a ha)]
  · intro a ha
    have : Int.ofNat a ∈ u.map Int.ofNat := List.mem_map_of_mem ha
    rw [hu] at this
    obtain ⟨i, hi, e⟩ := List.mem_iff_getElem.1 this
    rw [List.getElem_zipWith] at e
    have e : (((w[i]'(by simp at hi; omega) : Nat) : Int) + k.gen.dot (σ.basis[i]'(by simp at hi; omega))) % 24 = (a : Int) := e
    omega

theorem spanB_spec (σ : Stratum) (A : List Cond) (L : List (List Nat × Nat × Nat)) (acc : List (List Nat))
    (hacc : ∀ u ∈ acc, Good σ A u ∧ ∀ a ∈ u, a < 24) (h : spanB σ A acc L = true) :
    ∀ e ∈ L, Good σ A e.1 := by
  induction L generalizing acc with
  | nil => intro e he; cases he
  | cons e L ih =>
    obtain ⟨u, p, i⟩ := e
    rw [spanB, Bool.and_eq_true] at h
    have hu : Good σ A u ∧ ∀ a ∈ u, a < 24 := by
      rw [Bool.or_eq_true, decide_eq_true_eq] at h
      rcases h.1 with h | h
      · subst h
        refine ⟨good_zero σ A, ?_⟩
        intro a ha
        simp only [List.mem_map] at ha
        obtain ⟨_, _, rfl⟩ := ha
        decide
      · cases hp : acc[p]? with
        | none => rw [hp] at h; cases h
        | some w =>
          cases hi : A[i]? with
          | none => rw [hp, hi] at h; cases h
          | some k =>
            rw [hp, hi] at h
            have hw := hacc w (List.mem_of_getElem? hp)
            exact good_step σ A k (List.mem_of_getElem? hi) w u hw.1 hw.2 h
    intro e he
    rcases List.mem_cons.1 he with rfl | he
    · exact hu.1
    · refine ih (acc ++ [u]) ?_ h.2 e he
      intro v hv
      rcases List.mem_append.1 hv with hv | hv
      · exact hacc v hv
      · rw [List.mem_singleton] at hv
        rw [hv]
        exact hu

theorem listEq_eq (u v : List Nat) (h : listEq u v = true) : u = v := by
  induction u generalizing v with
  | nil => cases v with
    | nil => rfl
    | cons b v => cases h
  | cons a u ih =>
    cases v with
    | nil => cases h
    | cons b v =>
      rw [listEq] at h
      cases e : Nat.beq a b with
      | false => rw [e] at h; cases h
      | true =>
        rw [e] at h
        rw [Nat.eq_of_beq_eq_true e, ih v h]

theorem lookB_spec (u : List Nat) (L : List (List Nat × Nat × Nat)) (h : lookB u L = true) : ∃ e ∈ L, e.1 = u := by
  induction L with
  | nil => cases h
  | cons e L ih =>
    have h : (Bool.rec (lookB u L) true (listEq e.1 u) : Bool) = true := h
    cases he : listEq e.1 u with
    | true => exact ⟨e, List.mem_cons_self, listEq_eq _ _ he⟩
    | false =>
      rw [he] at h
      obtain ⟨e', h1, h2⟩ := ih h
      exact ⟨e', List.mem_cons_of_mem _ h1, h2⟩

theorem rotTable_matsB : rotTable.all (fun e => decide (decR e.1 = e.2.1)) = true := by decide +kernel

theorem rotTable_mats : ∀ e ∈ rotTable, decR e.1 = e.2.1 := by
  intro e he
  exact of_decide_eq_true (List.all_eq_true.1 rotTable_matsB e he)

theorem rowAct_iff (p : Op) (h : Vec) : p.r.rowAct h = h ↔ Spec.Fixes p h := by
  obtain ⟨x, y, z⟩ := h
  simp only [Mat.rowAct, Vec.mk.injEq, Spec.Fixes]

theorem whole_iff (p : Op) (h : Vec) : (24 : Int) ∣ p.t.dot h ↔ Spec.WholePhase p h := by
  unfold Spec.WholePhase Vec.dot
  rw [Int.mul_comm h.x, Int.mul_comm h.y, Int.mul_comm h.z]

/-- If the conditions hold, no operator in the list extinguishes the reflection. -/
theorem not_extinct_of_conds (A : List Cond) (spans : List (List (List Nat × Nat × Nat))) (C : List Nat)
    (h1 : spansB A spans = true) (h2 : C.all (opB spans) = true) (h : Vec) (hA : ∀ k ∈ A, k.holds h) :
    ¬ Spec.Extinct (C.map dec) h := by
  rintro ⟨p, hp, hf, hw⟩
  obtain ⟨c, hc, rfl⟩ := List.mem_map.1 hp
  apply hw
  rw [← whole_iff]
  rw [← rowAct_iff] at hf
  have ho := List.all_eq_true.1 h2 c hc
  unfold opB at ho
  cases hr : rotTable[rotTree.find (Nat.div c 13824)]? with
  | none => rw [hr] at ho; cases ho
  | some e =>
    obtain ⟨r, m, σ⟩ := e
    rw [hr] at ho
    simp only [Bool.and_eq_true] at ho
    obtain ⟨hrc, hl⟩ := ho
    have hrc : r = c / 13824 := Nat.eq_of_beq_eq_true hrc
    have hmem := List.mem_of_getElem? hr
    have hm : (dec c).r = m := (dec_r c).trans ((congrArg decR hrc.symm).trans (rotTable_mats (r, m, σ) hmem))
    rw [hm] at hf
    have hon := rotTable_fixed _ hmem h hf
    obtain ⟨e, he, heq⟩ := lookB_spec _ _ hl
    have hs := List.all_eq_true.1 h1 σ σ.mem_all
    have hg := spanB_spec σ A _ [] (fun _ h => by cases h) hs e he
    rw [heq] at hg
    exact hg _ (digitsN_eq σ c).symm h hon hA

/-- If some condition fails, some operator in the list extinguishes the reflection. -/
theorem conds_of_not_extinct (A : List Cond) (C : List Nat) (w : List Nat) (hw : witsB C A w = true) (h : Vec)
    (hn : ¬ Spec.Extinct (C.map dec) h) : ∀ k ∈ A, k.holds h := by
  induction A generalizing w with
  | nil => intro k hk; cases hk
  | cons k A ih =>
    cases w with
    | nil => cases hw
    | cons i w =>
      rw [witsB, Bool.and_eq_true] at hw
      intro k' hk'
      rcases List.mem_cons.1 hk' with rfl | hk'
      · intro hon
        have h1 := hw.1
        unfold witB at h1
        cases hc : C[i]? with
        | none => rw [hc] at h1; cases h1
        | some c =>
          rw [hc] at h1
          simp only [Bool.and_eq_true, Bool.or_eq_true, List.all_eq_true, decide_eq_true_eq] at h1
          obtain ⟨⟨hok, hfix⟩, hph⟩ := h1
          apply gen_dvd_conv k' h hok
          have hf : (dec c).r.rowAct h = h := k'.σ.fixed h _ hon hfix
          have hwhole : (24 : Int) ∣ (dec c).t.dot h := by
            rw [whole_iff]
            apply Classical.not_not.1
            intro hnw
            exact hn ⟨dec c, List.mem_map_of_mem (List.mem_of_getElem? hc), (rowAct_iff _ _).1 hf, hnw⟩
          rcases hph with hph | hph
          · have := k'.σ.dvd h ⟨(dec c).t.x - k'.gen.x, (dec c).t.y - k'.gen.y, (dec c).t.z - k'.gen.z⟩ hon (by
              intro b hb
              have e : Vec.dot ⟨(dec c).t.x - k'.gen.x, (dec c).t.y - k'.gen.y, (dec c).t.z - k'.gen.z⟩ b =
                (dec c).t.dot b - k'.gen.dot b := by simp only [Vec.dot]; ring
              rw [e]
              exact Int.dvd_of_emod_eq_zero (hph b hb))
            have e : k'.gen.dot h = (dec c).t.dot h -
                Vec.dot ⟨(dec c).t.x - k'.gen.x, (dec c).t.y - k'.gen.y, (dec c).t.z - k'.gen.z⟩ h := by
              simp only [Vec.dot]; ring
            rw [e]
            exact Int.dvd_sub hwhole this
          · have := k'.σ.dvd h ⟨(dec c).t.x + k'.gen.x, (dec c).t.y + k'.gen.y, (dec c).t.z + k'.gen.z⟩ hon (by
              intro b hb
              have e : Vec.dot ⟨(dec c).t.x + k'.gen.x, (dec c).t.y + k'.gen.y, (dec c).t.z + k'.gen.z⟩ b =
                (dec c).t.dot b + k'.gen.dot b := by simp only [Vec.dot]; ring
              rw [e]
              exact Int.dvd_of_emod_eq_zero (hph b hb))
            have e : k'.gen.dot h =
                Vec.dot ⟨(dec c).t.x + k'.gen.x, (dec c).t.y + k'.gen.y, (dec c).t.z + k'.gen.z⟩ h -
                  (dec c).t.dot h := by
              simp only [Vec.dot]; ring
            rw [e]
            exact Int.dvd_sub this hwhole
      · exact ih w hw.2 k' hk'

end Hexrd.SpaceGroup
