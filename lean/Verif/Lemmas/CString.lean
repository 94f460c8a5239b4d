import Verif.Model.CString
import Verif.Spec.Text
/-! # Lemmas for C57: blocks of a string -/
set_option linter.unusedSimpArgs false
namespace Uecho.Lemmas
open Uecho Uecho.Spec Uecho.CString

/-- The string holds `t`: NULL, or a block that begins with the characters and the terminator, with the sizes the string
object claims. -/
def Holds (s : Str) (t : Option (List Byte)) : Prop :=
  match s.value, t with
  | none, none => s.memSize = 0 ∧ s.valueSize = 0
  | some m, some v => s.valueSize = v.length ∧ v.length < s.memSize ∧ s.memSize ≤ m.length ∧
      ∃ rest, m = v.map some ++ some 0#8 :: rest
  | _, _ => False

theorem holds_clear {s : Str} {t : Option (List Byte)} (h : Holds s t) : Holds (clear s) none := by
  unfold Holds at h
  unfold clear
  cases hv : s.value with
  | none =>
    rw [hv] at h
    cases t with
    | none => simp only [Holds, hv]; exact h
    | some v => exact absurd h (by simp)
  | some m => simp [Holds]

theorem wrN_prefix {α : Type} {a : List α} {p q r : List α} (xs : List α) (ha : a = p ++ (q ++ r))
    (hq : q.length = xs.length) : wrN a p.length xs = .ok (p ++ xs ++ r) := by
  subst ha
  unfold wrN
  rw [if_pos (by simp; omega), List.take_left' rfl, ← List.append_assoc p q r, ← hq,
    show p.length + q.length = (p ++ q).length by simp, List.drop_left' rfl]

theorem wr_mid {α : Type} {p r : List α} {x y : α} : wr (p ++ x :: r) p.length y = .ok (p ++ y :: r) := by
  unfold wr
  rw [if_pos (by simp)]
  simp

theorem rdN_zero {cs : List Byte} {len : Nat} (h : len ≤ cs.length) : rdN cs 0 len = .ok (cs.take len) := by
  unfold rdN
  rw [if_pos (by omega)]; rfl

theorem holds_setN {s : Str} {t : Option (List Byte)} (h : Holds s t) (v : Option (List Byte)) (len : Nat)
    (hl : (TextOp.setN v len).Ok) : ∃ s', setN s v len = .ok s' ∧ Holds s' ((TextOp.setN v len).apply t) := by
  cases v with
  | none => exact ⟨_, rfl, holds_clear h⟩
  | some v =>
    simp only [TextOp.Ok] at hl
    have e : (List.replicate (len + 1) none : Block) = [] ++ (List.replicate len none ++ [none]) := by
      rw [List.nil_append, ← List.replicate_succ']
    have hlen : (v.take len).length = len := by simp; omega
    refine ⟨⟨some ((v.take len).map some ++ [some 0#8]), len + 1, len⟩, ?_, ?_⟩
    · unfold setN
      have w1 : wrN (List.replicate (len + 1) none : Block) 0 ((v.take len).map some) =
          .ok ((v.take len).map some ++ [none]) := by
        have := wrN_prefix (List.map some (v.take len)) e (by simp; omega)
        simpa using this
      have w2 : wr ((v.take len).map some ++ [none]) len (some 0#8) = .ok ((v.take len).map some ++ [some 0#8]) := by
        have := @wr_mid (Option Byte) ((v.take len).map some) [] none (some 0#8)
        rwa [List.length_map, hlen] at this
      simp only [rdN_zero hl, Res.bind_ok, w1, w2]
      rfl
    · simp only [Holds, TextOp.apply]
      refine ⟨by omega, by omega, by simp; omega, [], rfl⟩

theorem holds_addN {s : Str} {t : Option (List Byte)} (h : Holds s t) (v : Option (List Byte)) (len : Nat)
    (hl : (TextOp.addN v len).Ok) : ∃ s', addN s v len = .ok s' ∧ Holds s' ((TextOp.addN v len).apply t) := by
  cases v with
  | none => exact ⟨_, rfl, h⟩
  | some v =>
    simp only [TextOp.Ok] at hl
    have hlen : (v.take len).length = len := by simp; omega
    unfold addN
    simp only [TextOp.apply, append]
    by_cases h0 : len = 0
    · subst h0
      simp only [if_true, List.take_zero]
      exact ⟨s, rfl, h⟩
    have hne : v.take len ≠ [] := by intro e; rw [e] at hlen; simp at hlen; omega
    rw [if_neg h0, if_neg hne]
    -- the block after the possible reallocation
    have key : ∃ m ms, (if s.memSize < s.valueSize + len + 1 ∨ s.value.isNone = true then
          (⟨some (realloc s.value (s.valueSize + len + 1 + 16)), s.valueSize + len + 1 + 16, s.valueSize⟩ : Str) else s) =
        ⟨some m, ms, s.valueSize⟩ ∧ s.valueSize = (t.getD []).length ∧ s.valueSize + len + 1 ≤ ms ∧ ms ≤ m.length ∧
        ∃ rest, m = (t.getD []).map some ++ rest := by
      unfold Holds at h
      obtain ⟨val, ms, vs⟩ := s
      cases val with
      | none =>
        cases t with
        | some _ => exact absurd h (by simp)
        | none =>
          simp only at h
          obtain ⟨rfl, rfl⟩ := h
          refine ⟨_, _, if_pos (.inr rfl), rfl, by omega, ?_, ?_⟩
          · simp [realloc]
          · exact ⟨_, rfl⟩
      | some m =>
        cases t with
        | none => exact absurd h (by simp)
        | some u =>
          simp only at h
          obtain ⟨rfl, h2, h3, rest, rfl⟩ := h
          simp only [Option.getD_some, Option.isNone_some, Bool.false_eq_true, or_false]
          by_cases hc : ms < u.length + len + 1
          · rw [if_pos hc]
            refine ⟨_, _, rfl, by simp, by omega, ?_, ?_⟩
            · simp only [realloc, Option.getD_some, List.length_append, List.length_replicate]
              omega
            · simp only [realloc, Option.getD_some]
              rw [List.take_append, List.take_of_length_le (by simp; omega), List.append_assoc]
              exact ⟨_, rfl⟩
          · rw [if_neg hc]
            exact ⟨_, _, rfl, by simp, by omega, h3, _, rfl⟩
    obtain ⟨m, ms, k1, k2, k3, k4, rest, k5⟩ := key
    simp only [k1, rdN_zero hl, Res.bind_ok]
    have hr : len + 1 ≤ rest.length := by
      rw [k5] at k4; simp only [List.length_append, List.length_map] at k4; omega
    have e : m = (t.getD []).map some ++ (rest.take len ++ rest.drop len) := by
      rw [k5, List.take_append_drop]
    have w1 : wrN m s.valueSize ((v.take len).map some) =
        .ok ((t.getD []).map some ++ (v.take len).map some ++ rest.drop len) := by
      rw [k2, ← List.length_map (f := some)]
      exact wrN_prefix _ e (by simp; omega)
    rw [w1]
    obtain ⟨x, r2, hx⟩ : ∃ x r2, rest.drop len = x :: r2 := by
      cases hd : rest.drop len with
      | nil => have := congrArg List.length hd; simp at this; omega
      | cons x r2 => exact ⟨x, r2, rfl⟩
    have w2 : wr ((t.getD []).map some ++ (v.take len).map some ++ rest.drop len) (s.valueSize + len) (some 0#8) =
        .ok (((t.getD []).map some ++ (v.take len).map some) ++ some 0#8 :: r2) := by
      rw [hx, show s.valueSize + len = ((t.getD []).map some ++ (v.take len).map some).length by
        rw [List.length_append, List.length_map, List.length_map, hlen, k2]]
      exact wr_mid
    simp only [Res.bind_ok, w2, Res.pure_eq]
    refine ⟨_, rfl, ?_⟩
    simp only [Holds]
    have hd : r2.length + 1 = rest.length - len := by
      have := congrArg List.length hx; simp at this; omega
    refine ⟨by rw [List.length_append, hlen, k2], by rw [List.length_append, hlen]; omega, ?_, r2, by simp⟩
    rw [k5] at k4
    simp only [List.length_append, List.length_map] at k4 ⊢
    simp only [List.length_cons]
    omega


theorem append_append (t : Option (List Byte)) (a b : List Byte) : append (append t a) b = append t (a ++ b) := by
  unfold append
  by_cases ha : a = []
  · subst ha; simp
  · by_cases hb : b = []
    · subst hb; simp [ha]
    · simp [ha, hb]

theorem holds_addRepN (v : List Byte) (len : Nat) (hl : len ≤ v.length) (n : Nat) {s : Str} {t : Option (List Byte)}
    (h : Holds s t) : ∃ s', addRepN s (some v) len n = .ok s' ∧
      Holds s' (append t (List.replicate n (v.take len)).flatten) := by
  induction n generalizing s t with
  | zero => exact ⟨s, rfl, by simpa [append] using h⟩
  | succ n ih =>
    obtain ⟨s1, e1, h1⟩ := holds_addN h (some v) len hl
    obtain ⟨s2, e2, h2⟩ := ih h1
    refine ⟨s2, ?_, ?_⟩
    · unfold addRepN; rw [e1]; exact e2
    · simp only [TextOp.apply] at h2
      rw [append_append] at h2
      simpa [List.replicate_succ] using h2

theorem addRepN_none (s : Str) (len n : Nat) : addRepN s none len n = .ok s := by
  induction n with
  | zero => rfl
  | succ n ih => unfold addRepN; exact ih

/-- Reading a block that holds `v` gives `v` up to its first zero. -/
theorem readZ_holds (v : List Byte) (rest : Block) :
    readZ (v.map some ++ some 0#8 :: rest) = .ok (v.takeWhile (· ≠ 0#8)) := by
  induction v with
  | nil => simp [readZ]
  | cons c v ih =>
    simp only [List.map_cons, List.cons_append, readZ, ih, List.takeWhile_cons]
    by_cases hc : c = 0#8
    · simp [hc]
    · simp [hc]

end Uecho.Lemmas
