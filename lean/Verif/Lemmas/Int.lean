import Verif.Model.Misc
/-! Lemmas about integer ↔ byte conversion. -/
namespace Uecho.Lemmas
open Uecho

theorem sshr_byte (v : CInt) (k : Nat) (h : k < 4) :
    ((v.sshiftRight (k * 8)).setWidth 8 : Byte).toNat = v.toNat / 256 ^ k % 256 := by
  have : ((v.sshiftRight (k * 8)).setWidth 8 : Byte) = v.extractLsb' (k * 8) 8 := by
    ext i hi
    have h1 : ¬ 32 ≤ i := by omega
    have h2 : k * 8 + i < 32 := by omega
    simp [BitVec.getLsbD_sshiftRight, h1, h2]
  rw [this]
  simp [BitVec.extractLsb'_toNat, Nat.shiftRight_eq_div_pow]
  rw [Nat.mul_comm k 8, Nat.pow_mul]

theorem integer2byte_ok (v : CInt) : ∀ k, k ≤ 4 → ∃ bs, integer2byte v k = .ok bs ∧ bs.length = k ∧
    ∀ i, (h : i < bs.length) → bs[i].toNat = v.toNat / 256 ^ (k - 1 - i) % 256
  | 0, _ => ⟨[], rfl, rfl, by simp⟩
  | k + 1, hk => by
      obtain ⟨bs, h1, h2, h3⟩ := integer2byte_ok v k (by omega)
      refine ⟨((v.sshiftRight (k * 8)).setWidth 8) :: bs, ?_, by simp [h2], ?_⟩
      · simp only [integer2byte, h1, Res.bind_ok]
        rw [if_neg (by omega)]
      · intro i hi
        cases i with
        | zero => simpa using sshr_byte v k (by omega)
        | succ i =>
          simp at hi
          simp only [List.getElem_cons_succ, h3 i hi]
          congr 3; omega

theorem integer2byte_ub (v : CInt) (k : Nat) (h : 5 ≤ k) : integer2byte v k = .ub := by
  induction k with
  | zero => omega
  | succ k ih =>
    simp only [integer2byte]
    by_cases hk : 5 ≤ k
    · rw [ih hk]; rfl
    · have : k = 4 := by omega
      subst this
      obtain ⟨bs, h1, _⟩ := integer2byte_ok v 4 (by omega)
      rw [h1]; rfl

theorem integer2byte_three (v : CInt) : ∃ a b c : Byte, integer2byte v 3 = .ok [a, b, c] ∧
    a.toNat = v.toNat / 65536 % 256 ∧ b.toNat = v.toNat / 256 % 256 ∧ c.toNat = v.toNat % 256 := by
  obtain ⟨bs, h1, h2, h3⟩ := integer2byte_ok v 3 (by omega)
  match bs, h2 with
  | [a, b, c], _ =>
    refine ⟨a, b, c, h1, ?_, ?_, ?_⟩
    · simpa using h3 0 (by simp)
    · simpa using h3 1 (by simp)
    · simpa using h3 2 (by simp)

/-- Value of bytes, least significant first (helper). -/
def leValue : List Byte → Nat
  | [] => 0
  | b :: bs => b.toNat + 256 * leValue bs

theorem two_pow_mul8 (n : Nat) : 2 ^ (n * 8) = 256 ^ n := by
  rw [Nat.mul_comm, Nat.pow_mul]

theorem byte2integerLoop_eq : ∀ (l : List Byte) (n : Nat) (acc : CInt), n + l.length ≤ 4 →
    acc.toNat < 2147483648 →
    byte2integerLoop l n acc =
      if acc.toNat + 256 ^ n * leValue l < 2147483648 then
        .ok (BitVec.ofNat 32 (acc.toNat + 256 ^ n * leValue l)) else .ub
  | [], n, acc, _, h => by simp [byte2integerLoop, leValue, h]
  | b :: bs, n, acc, hn, h => by
      simp only [List.length_cons] at hn
      have e31 : (2 : Nat) ^ 31 = 2147483648 := by decide
      unfold byte2integerLoop
      rw [if_neg (by omega), two_pow_mul8, e31]
      have hx : 256 ^ n * leValue (b :: bs) = b.toNat * 256 ^ n + 256 ^ (n + 1) * leValue bs := by
        simp only [leValue, Nat.pow_succ]
        rw [Nat.mul_add, Nat.mul_comm (256 ^ n) b.toNat, Nat.mul_assoc]
      rw [hx]
      generalize hA : b.toNat * 256 ^ n = A
      generalize hB : 256 ^ (n + 1) * leValue bs = B
      by_cases h1 : 2147483648 ≤ acc.toNat + A
      · rw [if_neg (c := acc.toNat + (A + B) < 2147483648) (by omega)]
        split
        · rfl
        · rfl
      · rw [if_neg (by omega), if_neg h1]
        have ht : (acc + BitVec.ofNat 32 A).toNat = acc.toNat + A := by
          rw [BitVec.toNat_add, BitVec.toNat_ofNat]
          have : (2 : Nat) ^ 32 = 4294967296 := by decide
          rw [this]; omega
        rw [byte2integerLoop_eq bs (n + 1) _ (by omega) (by omega), ht, hB, Nat.add_assoc]

theorem leValue_lt (l : List Byte) : leValue l < 256 ^ l.length := by
  induction l with
  | nil => simp [leValue]
  | cons b bs ih =>
    have := b.isLt
    simp only [leValue, List.length_cons, Nat.pow_succ]
    omega

theorem byte2integer_eq (l : List Byte) (h : l.length ≤ 4) :
    byte2integer l = if leValue l.reverse < 2147483648 then
      .ok (BitVec.ofNat 32 (leValue l.reverse)) else .ub := by
  unfold byte2integer
  rw [byte2integerLoop_eq _ _ _ (by simpa using h) (by simp)]
  simp

theorem byte2integer_three (a b c : Byte) :
    byte2integer [a, b, c] = .ok (BitVec.ofNat 32 (a.toNat * 65536 + b.toNat * 256 + c.toNat)) := by
  rw [byte2integer_eq _ (by simp)]
  have e : leValue [a, b, c].reverse = a.toNat * 65536 + b.toNat * 256 + c.toNat := by
    simp [leValue]; omega
  rw [e, if_pos]
  have := a.isLt; have := b.isLt; have := c.isLt
  omega

theorem byte2integerLoop_ub : ∀ (l : List Byte) (n : Nat) (acc : CInt), 4 < n + l.length → n ≤ 4 →
    byte2integerLoop l n acc = .ub
  | [], n, acc, h, h' => by simp at h; omega
  | b :: bs, n, acc, h, h' => by
      unfold byte2integerLoop
      split
      · rfl
      · split
        · rfl
        · split
          · rfl
          · exact byte2integerLoop_ub bs _ _ (by simp at h; omega) (by omega)

theorem byte2integer_long_ub (l : List Byte) (h : 4 < l.length) : byte2integer l = .ub :=
  byte2integerLoop_ub _ _ _ (by simp; omega) (by omega)

end Uecho.Lemmas
