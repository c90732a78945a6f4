import Verif.Model.Hkls
import Mathlib.Data.Nat.Sqrt
import Mathlib.Tactic.Linarith
import Mathlib.Tactic.Ring

/-! Enumeration by sum of squares. -/
namespace Hexrd.Hkls

open Hexrd.SpaceGroup

theorem mem_pmrange (n : Nat) (h : Int) : h ∈ pmrange n ↔ h.natAbs ≤ n := by
  simp only [pmrange, List.mem_map, List.mem_range]
  constructor
  · rintro ⟨i, hi, rfl⟩; omega
  · intro hh
    exact ⟨((n : Int) - h).toNat, by omega, by omega⟩

theorem pmrange_nodup (n : Nat) : (pmrange n).Nodup := by
  apply List.Nodup.map _ List.nodup_range
  intro a b hab
  simpa using hab

theorem natAbs_le_iroot (ss : Int) (h : Int) (hle : h * h ≤ ss) : h.natAbs ≤ iroot ss.toNat := by
  rw [iroot, Nat.le_sqrt]
  have : ((h.natAbs * h.natAbs : Nat) : Int) = h * h := Int.natAbs_mul_self
  omega

theorem iroot_sq (n : Nat) : iroot n * iroot n ≤ n := Nat.sqrt_le n

theorem sq_le_of_natAbs (ss : Int) (hss : 0 ≤ ss) (h : Int) (hh : h.natAbs ≤ iroot ss.toNat) : h * h ≤ ss := by
  have h1 : h.natAbs * h.natAbs ≤ iroot ss.toNat * iroot ss.toNat := Nat.mul_le_mul hh hh
  have h2 := iroot_sq ss.toNat
  have h3 : ((h.natAbs * h.natAbs : Nat) : Int) = h * h := Int.natAbs_mul_self
  omega

theorem mem_hklsBySS (ss : Nat) (v : Vec) : v ∈ hklsBySS ss ↔ v.x * v.x + v.y * v.y + v.z * v.z = ss := by
  obtain ⟨x, y, z⟩ := v
  simp only [hklsBySS, List.mem_flatMap, mem_pmrange]
  constructor
  · rintro ⟨h, hh, k, hk, hm⟩
    split at hm
    · rename_i hr
      simp only [List.mem_singleton, Vec.mk.injEq] at hm
      obtain ⟨rfl, rfl, rfl⟩ := hm
      linarith
    · split at hm
      · rename_i hl
        simp only [List.mem_cons, Vec.mk.injEq, List.not_mem_nil, or_false] at hm
        rcases hm with ⟨rfl, rfl, rfl⟩ | ⟨rfl, rfl, rfl⟩ <;> linarith
      · cases hm
  · intro e
    have hxx := mul_self_nonneg x
    have hyy := mul_self_nonneg y
    have hzz := mul_self_nonneg z
    refine ⟨x, ?_, y, natAbs_le_iroot _ _ (by linarith), ?_⟩
    · have := natAbs_le_iroot ss x (by linarith)
      simpa using this
    · have hrem : (ss : Int) - x * x - y * y = z * z := by linarith
      simp only [hrem]
      split
      · rename_i hz
        have : z = 0 := by simpa using hz
        simp [this]
      · rename_i hz
        have hroot : (iroot (z * z).toNat : Int) = z.natAbs := by
          have : (z * z).toNat = z.natAbs * z.natAbs := by
            have := Int.natAbs_mul_self (a := z); omega
          rw [this, iroot, Nat.sqrt_eq]
        rw [hroot, if_pos (by exact_mod_cast Int.natAbs_mul_self (a := z))]
        simp only [List.mem_cons, Vec.mk.injEq, true_and, List.not_mem_nil, or_false]
        omega

theorem hklsBySS_nodup (ss : Nat) : (hklsBySS ss).Nodup := by
  unfold hklsBySS
  rw [List.nodup_flatMap]
  constructor
  · intro h hh
    rw [List.nodup_flatMap]
    constructor
    · intro k hk
      simp only
      split
      · simp
      · rename_i hr
        split
        · rename_i hl
          simp only [List.nodup_cons, List.mem_singleton, Vec.mk.injEq, true_and, List.not_mem_nil, not_false_eq_true,
            List.nodup_nil, and_true]
          intro e
          have : ((iroot ((ss : Int) - h * h - k * k).toNat : Nat) : Int) = 0 := by omega
          rw [this] at hl
          exact hr (by simpa using hl.symm)
        · simp
    · refine (pmrange_nodup _).imp ?_
      intro a b hab v hva hvb
      apply hab
      have key : ∀ (k : Int) (w : Vec), w ∈ (if (ss : Int) - h * h - k * k = 0 then [(⟨h, k, 0⟩ : Vec)]
          else if (iroot ((ss : Int) - h * h - k * k).toNat : Int) * (iroot ((ss : Int) - h * h - k * k).toNat : Int) =
            (ss : Int) - h * h - k * k then [⟨h, k, iroot ((ss : Int) - h * h - k * k).toNat⟩,
              ⟨h, k, -(iroot ((ss : Int) - h * h - k * k).toNat : Int)⟩] else []) → w.y = k := by
        intro k w hw
        split at hw
        · rw [List.mem_singleton] at hw; rw [hw]
        · split at hw
          · simp only [List.mem_cons, List.not_mem_nil, or_false] at hw
            rcases hw with rfl | rfl <;> rfl
          · cases hw
      rw [← key a v hva, ← key b v hvb]
  · refine (pmrange_nodup _).imp ?_
    intro a b hab v hva hvb
    apply hab
    have key : ∀ (h : Int) (w : Vec), w ∈ ((pmrange (iroot ((ss : Int) - h * h).toNat)).flatMap fun k =>
        if (ss : Int) - h * h - k * k = 0 then [(⟨h, k, 0⟩ : Vec)]
          else if (iroot ((ss : Int) - h * h - k * k).toNat : Int) * (iroot ((ss : Int) - h * h - k * k).toNat : Int) =
            (ss : Int) - h * h - k * k then [⟨h, k, iroot ((ss : Int) - h * h - k * k).toNat⟩,
              ⟨h, k, -(iroot ((ss : Int) - h * h - k * k).toNat : Int)⟩] else []) → w.x = h := by
      intro h w hw
      obtain ⟨k, _, hw⟩ := List.mem_flatMap.1 hw
      split at hw
      · rw [List.mem_singleton] at hw; rw [hw]
      · split at hw
        · simp only [List.mem_cons, List.not_mem_nil, or_false] at hw
          rcases hw with rfl | rfl <;> rfl
        · cases hw
    rw [← key a v hva, ← key b v hvb]

end Hexrd.Hkls
