import Verif.Model.Compare
import Verif.Spec.Compare
import Verif.Lemmas.CString
/-! # Lemmas for C118 and C119 -/
set_option linter.unusedSimpArgs false
namespace Uecho.Lemmas
open Uecho Uecho.Spec Uecho.Compare Uecho.CString

theorem cmp_sign (a b : List Byte) : (cmp a b = 0 ∧ a = b) ∨ (cmp a b = -1 ∧ ords a < ords b) ∨ (cmp a b = 1 ∧ ords b < ords a) := by
  induction a generalizing b with
  | nil =>
    cases b with
    | nil => exact .inl ⟨rfl, rfl⟩
    | cons b bs => exact .inr (.inl ⟨rfl, by simp [ords]⟩)
  | cons a as ih =>
    cases b with
    | nil => exact .inr (.inr ⟨rfl, by simp [ords]⟩)
    | cons b bs =>
      unfold cmp
      by_cases h : a = b
      · subst h
        simp only [if_pos]
        rcases ih bs with ⟨h1, h2⟩ | ⟨h1, h2⟩ | ⟨h1, h2⟩
        · exact .inl ⟨h1, by rw [h2]⟩
        · exact .inr (.inl ⟨h1, by simpa [ords] using h2⟩)
        · exact .inr (.inr ⟨h1, by simpa [ords] using h2⟩)
      · rw [if_neg h]
        have hn : a.toNat ≠ b.toNat := fun e => h (BitVec.eq_of_toNat_eq e)
        by_cases hl : a.toNat < b.toNat
        · rw [if_pos hl]
          exact .inr (.inl ⟨rfl, by simp [ords, List.cons_lt_cons_iff, hl]⟩)
        · rw [if_neg hl]
          have hl : b.toNat < a.toNat := by omega
          exact .inr (.inr ⟨rfl, by simp [ords, List.cons_lt_cons_iff, hl]⟩)

theorem ncmp_take (n : Nat) (a b : List Byte) : ncmp n a b = cmp (a.take n) (b.take n) := by
  induction n generalizing a b with
  | zero => simp [ncmp, cmp]
  | succ n ih =>
    cases a with
    | nil => cases b <;> simp [ncmp, cmp]
    | cons a as => cases b with
      | nil => simp [ncmp, cmp]
      | cons b bs => simp [ncmp, cmp, ih]

theorem lower_same : ∀ c d : Byte, lower c = lower d ↔ SameLetter c d := by
  intro c d
  unfold lower SameLetter
  constructor
  · intro h
    have h' := congrArg BitVec.toNat h
    split at h' <;> split at h' <;> simp only [BitVec.toNat_add, BitVec.le_def, BitVec.toNat_ofNat] at * <;>
      first
      | (left; apply BitVec.eq_of_toNat_eq; omega)
      | (right; omega)
  · intro h
    apply BitVec.eq_of_toNat_eq
    rcases h with rfl | h | h
    · rfl
    · split <;> split <;> simp only [BitVec.toNat_add, BitVec.le_def, BitVec.toNat_ofNat] at * <;> omega
    · split <;> split <;> simp only [BitVec.toNat_add, BitVec.le_def, BitVec.toNat_ofNat] at * <;> omega

theorem smallLetter_lower (c : Byte) : smallLetter c = lower c := by revert c; decide +kernel

theorem casecmp_zero (a b : List Byte) : casecmp a b = 0 ↔ SameButCase a b := by
  induction a generalizing b with
  | nil => cases b <;> simp [casecmp, SameButCase]
  | cons a as ih =>
    cases b with
    | nil => simp [casecmp, SameButCase]
    | cons b bs =>
      unfold casecmp
      have e : SameButCase (a :: as) (b :: bs) ↔ SameLetter a b ∧ SameButCase as bs := by
        unfold SameButCase
        constructor
        · rintro ⟨h1, h2⟩
          refine ⟨h2 0 (by simp) (by simp), by simpa using h1, fun i ha hb => ?_⟩
          exact h2 (i + 1) (by simpa using ha) (by simpa using hb)
        · rintro ⟨h0, h1, h2⟩
          refine ⟨by simpa using h1, fun i ha hb => ?_⟩
          cases i with
          | zero => exact h0
          | succ i => exact h2 i (by simpa using ha) (by simpa using hb)
      rw [e, ← lower_same, ← ih bs]
      by_cases h : lower a = lower b
      · simp [h]
      · rw [if_neg h]
        simp only [h, false_and, iff_false]
        split <;> decide

theorem find_spec (needle hay : List Byte) (i : Nat) :
    (find needle hay i = none ∧ ∀ k, ¬ OccursAt needle hay k) ∨
    ∃ k, find needle hay i = some (i + k) ∧ OccursAt needle hay k ∧ ∀ j, j < k → ¬ OccursAt needle hay j := by
  induction hay generalizing i with
  | nil =>
    unfold find
    by_cases h : needle = []
    · subst h
      exact .inr ⟨0, by simp, ⟨[], [], by simp, rfl⟩, by omega⟩
    · rw [if_neg h]
      refine .inl ⟨rfl, fun k ⟨a, b, e, _⟩ => h ?_⟩
      have := congrArg List.length e
      simp at this
      exact List.length_eq_zero_iff.1 (by omega)
  | cons c cs ih =>
    unfold find
    by_cases h : needle.isPrefixOf (c :: cs) = true
    · rw [if_pos h]
      obtain ⟨t, ht⟩ := List.isPrefixOf_iff_prefix.1 h
      exact .inr ⟨0, rfl, ⟨[], t, by simpa using ht.symm, rfl⟩, by omega⟩
    · rw [if_neg h]
      have h0 : ¬ OccursAt needle (c :: cs) 0 := by
        rintro ⟨a, b, e, ha⟩
        have : a = [] := List.length_eq_zero_iff.1 ha
        subst this
        exact h (List.isPrefixOf_iff_prefix.2 ⟨b, by simpa using e.symm⟩)
      have hs : ∀ k, OccursAt needle (c :: cs) (k + 1) ↔ OccursAt needle cs k := by
        intro k
        constructor
        · rintro ⟨a, b, e, ha⟩
          cases a with
          | nil => simp at ha
          | cons x a =>
            simp only [List.cons_append, List.cons.injEq] at e
            exact ⟨a, b, e.2, by simpa using ha⟩
        · rintro ⟨a, b, e, ha⟩
          exact ⟨c :: a, b, by rw [e]; rfl, by simpa using ha⟩
      rcases ih (i + 1) with ⟨h1, h2⟩ | ⟨k, h1, h2, h3⟩
      · refine .inl ⟨h1, fun k => ?_⟩
        cases k with
        | zero => exact h0
        | succ k => rw [hs]; exact h2 k
      · refine .inr ⟨k + 1, by rw [h1]; congr 1; omega, (hs k).2 h2, fun j hj => ?_⟩
        cases j with
        | zero => exact h0
        | succ j => rw [hs]; exact h3 j (by omega)

theorem digit_toNat {d : Nat} (h : d < 10) : (BitVec.ofNat 8 (0x30 + d)).toNat = 0x30 + d := by
  simp only [BitVec.toNat_ofNat]; omega

theorem numeral_append (t : List Byte) (c : Byte) : numeral (t ++ [c]) = 10 * numeral t + (c.toNat - 0x30) := by
  simp [numeral, List.foldl_append]

theorem digits_ne (n : Nat) : digits n ≠ [] := by
  rw [digits]; split <;> simp

theorem digits_numeral (n : Nat) : IsNumeral (digits n) n := by
  induction n using Nat.strongRecOn with
  | _ n ih =>
    rw [digits]
    by_cases h : n < 10
    · rw [if_pos h]
      refine ⟨by simp, ?_, by simp, ?_⟩
      · intro c hc
        rw [List.mem_singleton] at hc
        subst hc
        rw [digit_toNat h]; omega
      · simp only [numeral, List.foldl_cons, List.foldl_nil]
        rw [digit_toNat h]; omega
    · rw [if_neg h]
      obtain ⟨h1, h2, h3, h4⟩ := ih (n / 10) (by omega)
      have hd : n % 10 < 10 := by omega
      refine ⟨by simp, ?_, ?_, ?_⟩
      · intro c hc
        rw [List.mem_append, List.mem_singleton] at hc
        rcases hc with hc | rfl
        · exact h2 c hc
        · rw [digit_toNat hd]; omega
      · intro hh
        exfalso
        obtain ⟨x0, xs, hxs⟩ := List.exists_cons_of_ne_nil h1
        rw [hxs] at hh h3
        simp only [List.cons_append, List.head?_cons] at hh
        have hl := h3 hh
        have hx : xs = [] := by simpa using hl
        rw [hxs, hx] at h4
        simp only [Option.some.injEq] at hh
        subst hh
        simp [numeral] at h4
        omega
      · rw [numeral_append, h4, digit_toNat hd]; omega

theorem decimal_isDecimal (v : Int) : IsDecimal (decimal v) v := by
  unfold decimal IsDecimal
  by_cases h : v < 0
  · rw [if_pos h]
    refine .inr ⟨h, _, rfl, ?_⟩
    have := digits_numeral v.natAbs
    rwa [show (-v).toNat = v.natAbs by omega]
  · rw [if_neg h]
    refine .inl ⟨by omega, ?_⟩
    have := digits_numeral v.natAbs
    rwa [show v.toNat = v.natAbs by omega]

/-- A numeral with `k` digits stands for a number below `10 ^ k`, and a number below `10 ^ k` has at most `k` digits. -/
theorem digits_length (n k : Nat) (h : n < 10 ^ (k + 1)) : (digits n).length ≤ k + 1 := by
  induction k generalizing n with
  | zero => rw [digits, if_pos (by simpa using h)]; simp
  | succ k ih =>
    rw [digits]
    split
    · simp
    · have := ih (n / 10) (by rw [Nat.pow_succ] at h; omega)
      simp; omega

theorem decimal_length {v : Int} {k : Nat} (h : v.natAbs < 10 ^ (k + 1)) : (decimal v).length ≤ k + 2 := by
  have := digits_length v.natAbs k h
  unfold decimal
  split <;> simp <;> omega

theorem decimal_noZero (v : Int) : ∀ c ∈ decimal v, c ≠ 0#8 := by
  have hd := (digits_numeral v.natAbs).2.1
  have key : ∀ c ∈ digits v.natAbs, c ≠ 0#8 := by
    intro c hc e
    have := hd c hc
    rw [e] at this
    simp at this
  unfold decimal
  split
  · intro c hc
    rw [List.mem_cons] at hc
    rcases hc with rfl | hc
    · decide
    · exact key c hc
  · exact key

theorem sprint_ok (v : Int) (buf : Block) (h : (decimal v).length + 1 ≤ buf.length) :
    sprint v buf = .ok ((decimal v).map some ++ some 0#8 :: buf.drop ((decimal v).length + 1)) := by
  unfold sprint wrN
  rw [if_pos (by simpa using h)]
  simp

theorem readZ_text (t : List Byte) (rest : Block) (h : ∀ c ∈ t, c ≠ 0#8) : readZ (t.map some ++ some 0#8 :: rest) = .ok t := by
  induction t with
  | nil => simp [readZ]
  | cons c t ih =>
    have hc := h c (by simp)
    simp only [List.map_cons, List.cons_append, readZ, if_neg hc]
    rw [ih (fun c hc => h c (by simp [hc]))]
    rfl

theorem set_value (s : Str) (t : List Byte) (h : ∀ c ∈ t, c ≠ 0#8) :
    ∃ s', CString.set s (some t) = .ok s' ∧ CString.getValue s' = .ok (some t) ∧ CString.length s' = t.length := by
  obtain ⟨s', e, h'⟩ := holds_setN (s := CString.new) (t := none) (by simp [Holds, CString.new]) (some t) t.length (by simp [TextOp.Ok])
  refine ⟨s', ?_, ?_, ?_⟩
  · unfold CString.set CString.setN
    unfold CString.setN at e
    exact e
  · simp only [TextOp.apply, List.take_length] at h'
    unfold Holds at h'
    unfold CString.getValue
    cases hv : s'.value with
    | none => rw [hv] at h'; exact absurd h' (by simp)
    | some m =>
      rw [hv] at h'
      obtain ⟨_, _, _, rest, hm⟩ := h'
      simp only [hm, readZ_text t rest h, Res.bind_ok, Res.pure_eq]
  · simp only [TextOp.apply, List.take_length] at h'
    unfold Holds at h'
    unfold CString.length
    cases hv : s'.value with
    | none => rw [hv] at h'; exact absurd h' (by simp)
    | some m => rw [hv] at h'; exact h'.1

end Uecho.Lemmas
