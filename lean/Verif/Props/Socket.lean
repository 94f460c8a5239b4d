import Verif.Lemmas.Socket
/-!
# C59, C77: stream sockets
-/
namespace Uecho.Props
open Uecho Uecho.Socket Uecho.Lemmas

/-- C59: whatever `send(2)` answers (it never takes more than it is given), writing ends after at most 11 calls more than
11 per byte, reads only inside the command, puts on the wire a prefix of the command in order, and the result is the length
of the command exactly if all of it was taken, otherwise 0. -/
theorem C59_write (os : SendOs) (hos : ∀ i len, os i len ≤ len) (cmd : List Byte) (k : Nat) (hk : 11 * cmd.length + 11 ≤ k) :
    ∃ n wire, write os cmd k = .ok (some (n, wire)) ∧ wire <+: cmd ∧
      ((n = cmd.length ∧ wire = cmd) ∨ (n = 0 ∧ wire.length < cmd.length)) := by
  unfold write
  by_cases h0 : cmd.length = 0
  · rw [if_pos h0]
    have : cmd = [] := List.length_eq_zero_iff.mp h0
    subst this
    exact ⟨0, [], rfl, List.prefix_refl _, .inl ⟨rfl, rfl⟩⟩
  · rw [if_neg h0]
    obtain ⟨r, e, hr⟩ := writeLoop_sent hos (cmd := cmd) k (w := ⟨0, 0, cmd.length, 0, 0, []⟩)
      ⟨rfl, by simp, by simp, by simp; omega, by simp⟩ (by simp; omega)
    simp only [e, Res.bind_ok]
    refine ⟨r.1, r.2.wire, rfl, ?_, ?_⟩
    · rcases hr with ⟨_, hw⟩ | ⟨_, n, _, hw⟩
      · rw [hw]; exact List.prefix_refl _
      · rw [hw]; exact List.take_prefix _ _
    · rcases hr with ⟨hn, hw⟩ | ⟨hn, n, hlt, hw⟩
      · exact .inl ⟨hn, hw⟩
      · exact .inr ⟨hn, by rw [hw]; simp; omega⟩

/-- C59: if `send(2)` takes everything it is given, one call sends the command. If it always fails, eleven calls are made and
nothing is sent. -/
theorem C59_extremes (cmd : List Byte) (hc : cmd ≠ []) :
    (∀ k, 1 ≤ k → write (fun _ len => len) cmd k = .ok (some (cmd.length, cmd))) ∧
    (∀ k, 11 ≤ k → write (fun _ _ => 0) cmd k = .ok (some (0, []))) := by
  have hl : 0 < cmd.length := List.length_pos_iff.mpr hc
  constructor
  · intro k hk
    obtain ⟨k, rfl⟩ : ∃ j, k = j + 1 := ⟨k - 1, by omega⟩
    have hne : cmd.length ≠ 0 := by omega
    simp [write, hne, writeLoop, writeStep, rdN, szSub]
  · intro k hk
    have hne : cmd.length ≠ 0 := by omega
    obtain ⟨w', e, h1, _⟩ := @writeLoop_fail (fun _ _ => 0) cmd k ⟨0, 0, cmd.length, 0, 0, []⟩
      ⟨rfl, by simp, by simp, hl, by simp⟩ (fun _ _ => rfl) (by simp; omega)
    unfold write
    rw [if_neg hne, e]
    simp [h1]

-- the system takes two bytes at a time, fails every second time
example : write (fun i len => if i % 2 = 0 then 0 else min 2 len) [1#8, 2#8, 3#8] 44 = .ok (some (3, [1#8, 2#8, 3#8])) := by
  with_unfolding_all rfl
example : ∀ i len, (fun i len => if i % 2 = 0 then 0 else min 2 len) i len ≤ len := by
  intro i len; dsimp only; split <;> omega

/-- The end of `readline` after the first loop has stored `part`. -/
theorem readline_end {buf : List (Option Byte)} {inp : Input} {part : List Byte} {q : List (Option Byte)} {rest : Input}
    (hpart : part ≠ []) (hq : q ≠ [])
    (h : readLoop (szSub buf.length 1) (inp.length + 1) buf 0 inp = .ok (some (part.map some ++ q, part.length, rest))) :
    readline buf inp = .ok (part.map some ++ some 0#8 :: q.tail, some part.length,
      if part.getLast hpart = 10#8 then rest else skipLine rest) := by
  unfold readline
  have hl : 0 < part.length := List.length_pos_iff.mpr hpart
  obtain ⟨a, q, rfl⟩ : ∃ a q', q = a :: q' := by
    cases q with
    | nil => exact absurd rfl hq
    | cons a q => exact ⟨a, q, rfl⟩
  have hw : wr (part.map some ++ a :: q) part.length (some 0#8) = .ok (part.map some ++ some 0#8 :: q) := by simp [wr]
  have hr : rd (part.map some ++ some 0#8 :: q) (part.length - 1) = .ok (some (part.getLast hpart)) := by
    unfold rd
    rw [List.getElem?_append_left (by simp; omega), List.getElem?_map, List.getElem?_eq_getElem (by omega),
      List.getLast_eq_getElem]
    rfl
  simp only [h, Res.bind_ok, hw, show ¬ part.length = 0 by omega, if_false, hr, List.tail_cons]
  rfl

/-- C77 (partial: the buffer has at least two bytes): a line that fits into the buffer is stored with its end of line and a
zero; of a longer line the part that fits is stored and the rest is skipped; in both cases reading goes on with the next
line. Without an end of line the result is -1, or the part that fills the buffer. Nothing behind the zero is changed, nothing
is written outside the buffer. -/
theorem C77_readline_partial (buf : List (Option Byte)) (hbuf : 2 ≤ buf.length) (hsz : buf.length < 2 ^ 64) :
    (∀ line rest, 10#8 ∉ line → line.length + 2 ≤ buf.length →
      readline buf (line ++ 10#8 :: rest) =
        .ok ((line ++ [10#8]).map some ++ some 0#8 :: buf.drop (line.length + 2), some (line.length + 1), rest)) ∧
    (∀ line rest, 10#8 ∉ line → buf.length < line.length + 2 →
      readline buf (line ++ 10#8 :: rest) =
        .ok ((line.take (buf.length - 1)).map some ++ [some 0#8], some (buf.length - 1), rest)) ∧
    (∀ inp, 10#8 ∉ inp → inp.length + 1 < buf.length → readline buf inp = .ok (buf, none, [])) ∧
    (∀ inp, 10#8 ∉ inp → buf.length ≤ inp.length + 1 →
      readline buf inp = .ok ((inp.take (buf.length - 1)).map some ++ [some 0#8], some (buf.length - 1), [])) := by
  have hs : szSub buf.length 1 = buf.length - 1 := by unfold szSub; rw [if_pos (by omega)]
  refine ⟨?_, ?_, ?_, ?_⟩
  · intro line rest hl hfit
    obtain ⟨x, e, hx⟩ := readLoop_line (buf.length - 1) line rest hl ((line ++ 10#8 :: rest).length + 1) [] buf
      (by simp; omega) (by simp; omega) (by omega)
    have := @readline_end buf (line ++ 10#8 :: rest) (line ++ [10#8]) x rest (by simp)
      (by intro e; rw [e] at hx; have := congrArg List.length hx; simp at this; omega)
      (by rw [hs]; simpa using e)
    rw [this, hx]
    simp
  · intro line rest hl hlong
    have hp : (line.take (buf.length - 1)).length = buf.length - 1 := by simp; omega
    have hne : line.take (buf.length - 1) ≠ [] := by intro e; rw [e] at hp; simp at hp; omega
    have hnl : 10#8 ∉ line.take (buf.length - 1) := fun h => hl (List.mem_of_mem_take h)
    have e := readLoop_full (line.take (buf.length - 1)) (line.drop (buf.length - 1) ++ 10#8 :: rest) hnl
      ((line ++ 10#8 :: rest).length + 1) [] buf (by simp; omega) (by omega)
    have hin : line.take (buf.length - 1) ++ (line.drop (buf.length - 1) ++ 10#8 :: rest) = line ++ 10#8 :: rest := by
      rw [← List.append_assoc, List.take_append_drop]
    rw [hin, hp] at e
    have := @readline_end buf (line ++ 10#8 :: rest) (line.take (buf.length - 1)) (buf.drop (buf.length - 1))
      (line.drop (buf.length - 1) ++ 10#8 :: rest) hne
      (by intro e; have := congrArg List.length e; simp at this; omega)
      (by rw [hs, hp]; simpa using e)
    rw [this, if_neg (by intro h; exact hnl (h ▸ List.getLast_mem hne)), hp,
      skipLine_line _ _ (fun h => hl (List.mem_of_mem_drop h))]
    simp; omega
  · intro inp hl hshort
    have e := readLoop_none (buf.length - 1) inp hl (inp.length + 1) [] buf (by omega) (by simp; omega) (by omega)
    have e' : readLoop (szSub buf.length 1) (inp.length + 1) buf 0 inp = .ok none := by rw [hs]; simpa using e
    simp only [readline, e', Res.bind_ok]
    rfl
  · intro inp hl hlong
    have hp : (inp.take (buf.length - 1)).length = buf.length - 1 := by simp; omega
    have hne : inp.take (buf.length - 1) ≠ [] := by intro e; rw [e] at hp; simp at hp; omega
    have hnl : 10#8 ∉ inp.take (buf.length - 1) := fun h => hl (List.mem_of_mem_take h)
    have e := readLoop_full (inp.take (buf.length - 1)) (inp.drop (buf.length - 1)) hnl (inp.length + 1) [] buf
      (by simp; omega) (by omega)
    rw [List.take_append_drop, hp] at e
    have := @readline_end buf inp (inp.take (buf.length - 1)) (buf.drop (buf.length - 1)) (inp.drop (buf.length - 1)) hne
      (by intro e; have := congrArg List.length e; simp at this; omega)
      (by rw [hs, hp]; simpa using e)
    rw [this, if_neg (by intro h; exact hnl (h ▸ List.getLast_mem hne)), hp,
      skipLine_none _ (fun h => hl (List.mem_of_mem_drop h))]
    simp; omega

/-- C77 violated: with a buffer of one byte every call reads before the buffer; with an empty buffer the first byte that
arrives is written behind it. -/
theorem C77_small_buffer_violated (inp : Input) :
    (∀ x, readline [x] inp = .ub) ∧ (inp ≠ [] → readline [] inp = .ub) := by
  constructor
  · intro x
    simp [readline, readLoop, szSub, wr]
  · intro h
    cases inp with
    | nil => exact absurd rfl h
    | cons c cs => simp [readline, readLoop, szSub, wr]

example : readline [none, none, none, none] [65#8, 66#8, 67#8, 68#8, 10#8, 69#8] =
    .ok ([some 65#8, some 66#8, some 67#8, some 0#8], some 3, [69#8]) := by with_unfolding_all rfl

end Uecho.Props
