import Verif.Model.Socket
/-! # Lemmas for C59: the send loop -/
set_option linter.unusedSimpArgs false
namespace Uecho.Lemmas
open Uecho Uecho.Socket

/-- The operating system takes at most what it is given. -/
abbrev FairSend (os : SendOs) : Prop := ∀ i len, os i len ≤ len

/-- Between rounds: the bytes before `pos` are on the wire. -/
structure Sent (cmd : List Byte) (w : W) : Prop where
  total : w.total = w.pos
  wire : w.wire = cmd.take w.pos
  sum : w.pos + w.len = cmd.length
  left : 0 < w.len
  retry : w.retry ≤ 10

/-- What the end of the loop guarantees. -/
def SentEnd (cmd : List Byte) (r : Nat × W) : Prop :=
  (r.1 = cmd.length ∧ r.2.wire = cmd) ∨ (r.1 = 0 ∧ ∃ n, n < cmd.length ∧ r.2.wire = cmd.take n)

theorem writeStep_sent {os : SendOs} (hos : FairSend os) {cmd : List Byte} {w : W} (h : Sent cmd w) :
    (∃ w', writeStep os cmd w = .ok (.inl w') ∧ Sent cmd w' ∧ 11 * w'.len + (10 - w'.retry) < 11 * w.len + (10 - w.retry)) ∨
    (∃ r, writeStep os cmd w = .ok (.inr r) ∧ SentEnd cmd r) := by
  have hrd : rdN cmd w.pos w.len = .ok ((cmd.drop w.pos).take w.len) := by
    unfold rdN; rw [if_pos (by have := h.sum; omega)]
  have hall : (cmd.drop w.pos).take w.len = cmd.drop w.pos :=
    List.take_of_length_le (by simp; have := h.sum; omega)
  unfold writeStep
  simp only [hrd, Res.bind_ok, hall]
  have hn := hos w.calls w.len
  have := h.left
  have := h.sum
  by_cases h0 : os w.calls w.len = 0
  · simp only [h0, if_true]
    by_cases hr : 10 < w.retry + 1
    · right
      simp only [hr, if_true]
      exact ⟨_, rfl, .inr ⟨rfl, w.pos, by omega, h.wire⟩⟩
    · left
      simp only [hr, if_false, h.left, if_true]
      refine ⟨_, rfl, ⟨h.total, h.wire, h.sum, h.left, by simp; omega⟩, by simp; omega⟩
  · simp only [h0, if_false]
    have hs : szSub w.len (os w.calls w.len) = w.len - os w.calls w.len := by unfold szSub; rw [if_pos hn]
    have hw : w.wire ++ List.take (os w.calls w.len) (List.drop w.pos cmd) = cmd.take (w.pos + os w.calls w.len) := by
      rw [h.wire, List.take_add]
    simp only [hs, hw]
    by_cases hl : 0 < w.len - os w.calls w.len
    · left
      simp only [hl, if_true]
      refine ⟨_, rfl, ⟨by simp [h.total], rfl, by simp; omega, hl, by simp⟩, by simp; omega⟩
    · right
      simp only [hl, if_false]
      refine ⟨_, rfl, .inl ⟨?_, ?_⟩⟩
      · simp [h.total]; omega
      · exact List.take_of_length_le (by omega)

theorem writeLoop_sent {os : SendOs} (hos : FairSend os) {cmd : List Byte} (k : Nat) {w : W} (h : Sent cmd w)
    (hk : 11 * w.len + (10 - w.retry) < k) : ∃ r, writeLoop os cmd k w = .ok (some r) ∧ SentEnd cmd r := by
  induction k generalizing w with
  | zero => omega
  | succ k ih =>
    unfold writeLoop
    rcases writeStep_sent hos h with ⟨w', e, h', hlt⟩ | ⟨r, e, hr⟩
    · simp only [e, Res.bind_ok]
      exact ih h' (by omega)
    · simp only [e, Res.bind_ok]
      exact ⟨r, rfl, hr⟩

theorem writeLoop_fail {os : SendOs} {cmd : List Byte} (k : Nat) {w : W} (h : Sent cmd w)
    (hos : ∀ i len, os i len = 0) (hk : 10 - w.retry < k) :
    ∃ w', writeLoop os cmd k w = .ok (some (0, w')) ∧ w'.wire = w.wire ∧ w'.calls = w.calls + (11 - w.retry) := by
  induction k generalizing w with
  | zero => omega
  | succ k ih =>
    have hrd : rdN cmd w.pos w.len = .ok ((cmd.drop w.pos).take w.len) := by
      unfold rdN; rw [if_pos (by have := h.sum; omega)]
    unfold writeLoop writeStep
    simp only [hrd, Res.bind_ok, hos, if_true]
    have := h.retry
    by_cases hr : 10 < w.retry + 1
    · simp only [hr, if_true]
      exact ⟨_, rfl, rfl, by simp; omega⟩
    · simp only [hr, if_false, h.left, if_true, Res.pure_eq, Res.bind_ok]
      obtain ⟨w', e, h1, h2⟩ := @ih ⟨w.calls + 1, w.pos, w.len, w.total, w.retry + 1, w.wire⟩
        ⟨h.total, h.wire, h.sum, h.left, by simp; omega⟩ (by simp; omega)
      exact ⟨w', e, h1, by rw [h2]; simp; omega⟩

/-- The first loop of `readline` when the line ends before the bound. -/
theorem readLoop_line (bound : Nat) (line rest : List Byte) (hl : 10#8 ∉ line) (fuel : Nat) (p q : List (Option Byte))
    (hf : line.length < fuel) (hb : p.length + line.length < bound) (hq : line.length < q.length) :
    ∃ x, readLoop bound fuel (p ++ q) p.length (line ++ 10#8 :: rest) =
      .ok (some (p ++ (line ++ [10#8]).map some ++ x, p.length + line.length + 1, rest)) ∧
      x = q.drop (line.length + 1) := by
  induction line generalizing fuel p q with
  | nil =>
    obtain ⟨fuel, rfl⟩ : ∃ j, fuel = j + 1 := ⟨fuel - 1, by simp at hf; omega⟩
    cases q with
    | nil => simp at hq
    | cons a q =>
      refine ⟨q, ?_, by simp⟩
      simp only [List.length_nil, Nat.add_zero] at hb
      simp [readLoop, hb, wr]
  | cons c line ih =>
    obtain ⟨fuel, rfl⟩ : ∃ j, fuel = j + 1 := ⟨fuel - 1, by simp at hf; omega⟩
    simp only [List.length_cons] at hf hb hq
    cases q with
    | nil => simp at hq
    | cons a q =>
      have hc : c ≠ 10#8 := fun e => hl (by simp [e])
      obtain ⟨x, e, hx⟩ := ih (fun h => hl (by simp [h])) fuel (p ++ [some c]) q (by omega) (by simp; omega)
        (by simp at hq; omega)
      refine ⟨x, ?_, by rw [hx]; simp⟩
      have hw : wr (p ++ a :: q) p.length (some c) = .ok (p ++ [some c] ++ q) := by simp [wr]
      simp only [List.cons_append, readLoop, show p.length < bound by omega, if_true, hw, Res.bind_ok, hc, if_false]
      simp only [List.length_append, List.length_singleton] at e
      rw [e]
      simp only [List.map_cons, List.append_assoc, List.singleton_append, List.cons_append, List.length_cons]
      congr 4
      omega

/-- The first loop of `readline` when the bound is reached before the end of the line. -/
theorem readLoop_full (part rest : List Byte) (hl : 10#8 ∉ part) (fuel : Nat) (p q : List (Option Byte))
    (hf : part.length < fuel) (hq : part.length ≤ q.length) :
    readLoop (p.length + part.length) fuel (p ++ q) p.length (part ++ rest) =
      .ok (some (p ++ part.map some ++ q.drop part.length, p.length + part.length, rest)) := by
  induction part generalizing fuel p q with
  | nil =>
    obtain ⟨fuel, rfl⟩ : ∃ j, fuel = j + 1 := ⟨fuel - 1, by simp at hf; omega⟩
    simp [readLoop]
  | cons c part ih =>
    obtain ⟨fuel, rfl⟩ : ∃ j, fuel = j + 1 := ⟨fuel - 1, by simp at hf; omega⟩
    simp only [List.length_cons] at hf hq
    cases q with
    | nil => simp at hq
    | cons a q =>
      have hc : c ≠ 10#8 := fun e => hl (by simp [e])
      have e := ih (fun h => hl (by simp [h])) fuel (p ++ [some c]) q (by omega) (by simp at hq; omega)
      have hw : wr (p ++ a :: q) p.length (some c) = .ok (p ++ [some c] ++ q) := by simp [wr]
      simp only [List.length_append, List.length_singleton] at e
      simp only [List.cons_append, readLoop, List.length_cons, show p.length < p.length + (part.length + 1) by omega, if_true,
        hw, Res.bind_ok, hc, if_false]
      rw [show p.length + (part.length + 1) = p.length + 1 + part.length by omega, e]
      simp

theorem readLoop_none (bound : Nat) (inp : List Byte) (hl : 10#8 ∉ inp) (fuel : Nat) (p q : List (Option Byte))
    (hf : inp.length < fuel) (hb : p.length + inp.length < bound) (hq : inp.length ≤ q.length) :
    readLoop bound fuel (p ++ q) p.length inp = .ok none := by
  induction inp generalizing fuel p q with
  | nil =>
    obtain ⟨fuel, rfl⟩ : ∃ j, fuel = j + 1 := ⟨fuel - 1, by simp at hf; omega⟩
    simp only [List.length_nil, Nat.add_zero] at hb
    simp [readLoop, hb]
  | cons c inp ih =>
    obtain ⟨fuel, rfl⟩ : ∃ j, fuel = j + 1 := ⟨fuel - 1, by simp at hf; omega⟩
    simp only [List.length_cons] at hf hb hq
    cases q with
    | nil => simp at hq
    | cons a q =>
      have hc : c ≠ 10#8 := fun e => hl (by simp [e])
      have e := ih (fun h => hl (by simp [h])) fuel (p ++ [some c]) q (by omega) (by simp; omega) (by simp at hq; omega)
      have hw : wr (p ++ a :: q) p.length (some c) = .ok (p ++ [some c] ++ q) := by simp [wr]
      simp only [List.length_append, List.length_singleton] at e
      simp only [readLoop, show p.length < bound by omega, if_true, hw, Res.bind_ok, hc, if_false, e]

theorem skipLine_line (line rest : List Byte) (hl : 10#8 ∉ line) : skipLine (line ++ 10#8 :: rest) = rest := by
  induction line with
  | nil => simp [skipLine]
  | cons c line ih =>
    have hc : c ≠ 10#8 := fun e => hl (by simp [e])
    simp [skipLine, hc, ih (fun h => hl (by simp [h]))]

theorem skipLine_none (inp : List Byte) (hl : 10#8 ∉ inp) : skipLine inp = [] := by
  induction inp with
  | nil => rfl
  | cons c line ih =>
    have hc : c ≠ 10#8 := fun e => hl (by simp [e])
    simp [skipLine, hc, ih (fun h => hl (by simp [h]))]

end Uecho.Lemmas
