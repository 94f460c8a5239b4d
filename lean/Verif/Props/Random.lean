import Verif.Model.Random
/-! # C116: random numbers and waiting times -/
namespace Uecho.Spec

/-- A rounding of real numbers to floating-point numbers, among which are the whole numbers up to 2^24 (`float`) or 2^53 (`double`): any that keeps the order. -/
structure Rounding (digits : Nat) (rnd : Rat → Rat) : Prop where
  mono : ∀ x y, x ≤ y → rnd x ≤ rnd y
  exact : ∀ n : Nat, n ≤ 2 ^ digits → rnd (n : Rat) = n

end Uecho.Spec

namespace Uecho.Lemmas
open Uecho Uecho.Spec Uecho.Wait

theorem factor_bounds {d : Nat} {rnd : Rat → Rat} (hr : Rounding d rnd) {r : Nat} (h : r ≤ randMax) :
    0 ≤ rnd (rnd (r : Rat) / rnd (randMax : Rat)) ∧ rnd (rnd (r : Rat) / rnd (randMax : Rat)) ≤ 1 := by
  have h0 : rnd 0 = 0 := hr.exact 0 (Nat.zero_le _)
  have h1 : rnd 1 = 1 := hr.exact 1 (Nat.pow_pos (by omega))
  have hrm : rnd (r : Rat) ≤ rnd (randMax : Rat) := hr.mono _ _ (Rat.natCast_le_natCast.2 h)
  have hr0 : 0 ≤ rnd (r : Rat) := by
    rw [← h0]
    exact hr.mono _ _ Rat.natCast_nonneg
  have hm1 : 1 ≤ rnd (randMax : Rat) := by
    rw [← h1]
    exact hr.mono _ _ (by rw [show (1 : Rat) = ((1 : Nat) : Rat) from rfl]; exact Rat.natCast_le_natCast.2 (by decide))
  have hm0 : 0 < rnd (randMax : Rat) := Std.lt_of_lt_of_le (by decide) hm1
  have hne : rnd (randMax : Rat) ≠ 0 := fun e => absurd hm0 (by rw [e]; exact Rat.lt_irrefl)
  have hq0 : 0 ≤ rnd (r : Rat) / rnd (randMax : Rat) := by
    rw [Rat.div_def]
    exact Rat.mul_nonneg hr0 (Rat.le_of_lt (Rat.inv_pos.2 hm0))
  have hq1 : rnd (r : Rat) / rnd (randMax : Rat) ≤ 1 := by
    refine Rat.le_of_mul_le_mul_right (c := rnd (randMax : Rat)) ?_ hm0
    rw [Rat.div_mul_cancel hne, Rat.one_mul]
    exact hrm
  exact ⟨by rw [← h0]; exact hr.mono _ _ hq0, by rw [← h1]; exact hr.mono _ _ hq1⟩

end Uecho.Lemmas

namespace Uecho.Props
open Uecho Uecho.Spec Uecho.Lemmas Uecho.Wait

/-- **C116.** `uecho_random` gives a number from 0 to 1: 0 for the smallest number `rand` returns, and 1 for the largest, 2147483647. -/
theorem C116_random (rnd : Rat → Rat) (hr : Rounding 24 rnd) (r : Nat) (h : r ≤ 2147483647) :
    0 ≤ random rnd r ∧ random rnd r ≤ 1 ∧ random rnd 0 = 0 ∧ random rnd 2147483647 = 1 := by
  have e0 : rnd 0 = 0 := hr.exact 0 (by omega)
  have e1 : rnd 1 = 1 := hr.exact 1 (by decide)
  have hm1 : 1 ≤ rnd (randMax : Rat) := by
    rw [← e1]
    exact hr.mono _ _ (by rw [show (1 : Rat) = ((1 : Nat) : Rat) from rfl]; exact Rat.natCast_le_natCast.2 (by decide))
  have hm0 : 0 < rnd (randMax : Rat) := Std.lt_of_lt_of_le (by decide) hm1
  have hne : rnd (randMax : Rat) ≠ 0 := fun e => absurd hm0 (by rw [e]; exact Rat.lt_irrefl)
  refine ⟨(factor_bounds hr h).1, (factor_bounds hr h).2, ?_, ?_⟩
  · unfold random
    rw [show ((0 : Nat) : Rat) = 0 from rfl, e0, Rat.div_def, Rat.zero_mul, e0]
  · unfold random
    rw [show (2147483647 : Nat) = randMax from rfl, Rat.div_def, Rat.mul_inv_cancel _ hne, e1]

/-- **C116.** `uecho_waitrandom` waits for at most the given time, and for nothing else if the random number is 0; for the largest one it waits for the given time. -/
theorem C116_waitrandom (rnd : Rat → Rat) (hr : Rounding 53 rnd) (r mtime : Nat) (h : r ≤ 2147483647) (hm : mtime ≤ 2 ^ 53) :
    waitRandom rnd r mtime ≤ mtime ∧ waitRandom rnd 0 mtime = 0 ∧ waitRandom rnd 2147483647 mtime = mtime := by
  rw [show (2147483647 : Nat) = randMax from rfl]
  have em : rnd (mtime : Rat) = mtime := hr.exact mtime hm
  have er : ∀ r, r ≤ randMax → rnd (r : Rat) = r := fun r h => hr.exact r (Nat.le_trans h (by decide))
  have e0 : rnd 0 = 0 := hr.exact 0 (by omega)
  have e1 : rnd 1 = 1 := hr.exact 1 (by decide)
  refine ⟨?_, ?_, ?_⟩
  · obtain ⟨f0, f1⟩ := factor_bounds hr h
    unfold waitRandom
    simp only [em]
    have : (mtime : Rat) * rnd (rnd (r : Rat) / rnd (randMax : Rat)) ≤ mtime := by
      have := Rat.mul_le_mul_of_nonneg_left f1 (Rat.natCast_nonneg (a := mtime))
      rwa [Rat.mul_one] at this
    have h2 := hr.mono _ _ this
    rw [em] at h2
    have h3 := Rat.floor_monotone h2
    rw [← Rat.intCast_natCast, Rat.floor_intCast] at h3
    rw [Int.toNat_le]
    exact h3
  · unfold waitRandom
    have : ((0 : Nat) : Rat) = 0 := rfl
    simp only [this, e0, Rat.div_def, Rat.zero_mul, Rat.mul_zero]
    rfl
  · unfold waitRandom
    have hne : (randMax : Rat) ≠ 0 := by
      rw [Ne, Rat.natCast_eq_zero_iff]
      decide
    simp only [er randMax (Nat.le_refl _), em, Rat.div_def, Rat.mul_inv_cancel _ hne, e1, Rat.mul_one]
    rw [← Rat.intCast_natCast, Rat.floor_intCast, Int.toNat_natCast]

/-- Arithmetic without rounding. -/
example : Rounding 53 (fun x => x) ∧ waitRandom (fun x => x) 1073741823 1000 = 499 := ⟨⟨fun _ _ h => h, fun _ _ => rfl⟩, by decide +kernel⟩

end Uecho.Props
