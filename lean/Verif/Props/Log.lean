import Verif.Lemmas.Log
/-!
# C58: the trace buffer
-/
namespace Uecho.Props
open Uecho Uecho.Spec Uecho.Lemmas Uecho.CString Uecho.Log

/-- C string: no zero among the characters. -/
abbrev NoZero (s : List Byte) : Prop := ∀ c ∈ s, c ≠ 0#8

theorem trace_exact (pre frm to bytes : List Byte) (hp : NoZero pre) (hf : NoZero frm) (ht : NoZero to) (hb : bytes ≠ []) :
    socketLog pre frm to bytes =
      if min 255 (traceHeader pre frm to).length + 2 * (bytes.length - 1) ≤ 256 then
        .ok (some ((traceLine pre frm to bytes).take 255)) else .ub := by
  have hpad : ∀ s, NoZero s → NoZero (padRight s) := by
    intro s hs c hc
    rcases List.mem_append.mp hc with h | h
    · exact hs c h
    · rw [(List.mem_replicate.mp h).2]; decide
  unfold socketLog
  rw [if_neg hb]
  -- the prefix
  obtain ⟨B, hB⟩ : ∃ B : Block, B = List.replicate 256 none := ⟨_, rfl⟩
  have hBl : B.length = 256 := by rw [hB]; exact List.length_replicate
  simp only [← hB]
  have first : ∃ buf p q, (if pre = [] then (.ok (B, 0) : Res (Block × Nat)) else do
      let buf ← snprintf B 0 256 (pre ++ [32#8])
      let n ← strlen buf
      return (buf, n)) = .ok (buf, p.length) ∧ p = (if pre = [] then [] else pre ++ [32#8]).take 255 ∧ NoZero p ∧
        buf.length = 256 ∧ buf = p.map some ++ q := by
    by_cases he : pre = []
    · simp only [he, if_true]
      exact ⟨B, [], B, rfl, rfl, (fun c hc => absurd hc List.not_mem_nil), hBl, rfl⟩
    · simp only [he, if_false]
      obtain ⟨buf, e, hl⟩ := snprintf_line (buf := B) (p := []) (q := B) hBl (by simp) (by simp)
        (pre ++ [32#8])
      have e' : snprintf B 0 256 (pre ++ [32#8]) = .ok buf := e
      have hz : NoZero ((pre ++ [32#8]).take 255) := by
        intro c hc
        rcases List.mem_append.mp (List.mem_of_mem_take hc) with h | h
        · exact hp c h
        · rw [List.mem_singleton.mp h]; decide
      have hl' : Line buf ((pre ++ [32#8]).take 255) := hl
      obtain ⟨h256, rest, e2⟩ := id hl'
      exact ⟨buf, (pre ++ [32#8]).take 255, _, by simp [e', strlen_line hl' hz], rfl, hz, h256, e2⟩
  obtain ⟨buf, p, q, e1, ep, hz, h256, eb⟩ := first
  have hple : p.length ≤ 255 := by rw [ep, List.length_take]; omega
  obtain ⟨buf2, e2, h2⟩ := snprintf_line h256 eb hple (padRight frm ++ [32#8, 45#8, 62#8, 32#8] ++ padRight to ++ [32#8])
  have hH : (p ++ (padRight frm ++ [32#8, 45#8, 62#8, 32#8] ++ padRight to ++ [32#8])).take 255 =
      (traceHeader pre frm to).take 255 := by
    rw [ep]
    generalize hA : (if pre = [] then [] else pre ++ [32#8]) = A
    have : traceHeader pre frm to = A ++ (padRight frm ++ [32#8, 45#8, 62#8, 32#8] ++ padRight to ++ [32#8]) := by
      unfold traceHeader
      rw [hA]
      simp [padRight, column15]
    rw [this, take_append_take]
  rw [hH] at h2
  have hzh : NoZero (traceHeader pre frm to) := by
    intro c hc
    simp only [traceHeader, List.mem_append] at hc
    rcases hc with (((h | h) | h) | h) | h
    · split at h
      · exact absurd h (by simp)
      · rcases List.mem_append.mp h with h | h
        · exact hp c h
        · rw [List.mem_singleton.mp h]; decide
    · exact hpad frm hf c h
    · revert h; revert c; decide
    · exact hpad to ht c h
    · rw [List.mem_singleton.mp h]; decide
  have hz2 : NoZero ((traceHeader pre frm to).take 255) := fun c hc => hzh c (List.mem_of_mem_take hc)
  have e1' := e1
  simp only [Res.pure_eq] at e1' ⊢
  rw [e1']
  simp only [Res.bind_ok, e2, strlen_line h2 hz2]
  have hlen : ((traceHeader pre frm to).take 255).length = min 255 (traceHeader pre frm to).length := by simp
  obtain ⟨hub, hok⟩ := hexLoop_line bytes ((traceHeader pre frm to).take 255) buf2 (by rw [List.take_take]; exact h2)
  rw [hlen] at hub hok ⊢
  by_cases hle : min 255 (traceHeader pre frm to).length + 2 * (bytes.length - 1) ≤ 256
  · rw [if_pos hle]
    obtain ⟨buf3, e3, h3⟩ := hok hle
    have et : ((traceHeader pre frm to).take 255 ++ bytes.flatMap hexByte).take 255 =
        (traceLine pre frm to bytes).take 255 := by
      unfold traceLine
      rw [take_append_take]
    rw [et] at h3
    simp only [e3, Res.bind_ok]
    obtain ⟨_, rest, e4⟩ := h3
    rw [e4, readZ_holds]
    simp only [Res.bind_ok]
    congr 2
    apply takeWhile_noZero
    intro c hc
    rcases List.mem_append.mp (List.mem_of_mem_take hc) with h | h
    · exact hzh c h
    · obtain ⟨b, _, hb⟩ := List.mem_flatMap.mp h
      exact hexByte_ne b c hb
  · rw [if_neg hle, hub hb (by omega)]
    rfl

/-- C58 (partial: only up to the length that fits): a datagram short enough is traced without leaving the buffer, and the
text handed to the logger is the trace line cut after 255 characters; nothing is logged for an empty datagram. -/
theorem C58_trace_partial (pre frm to bytes : List Byte) (hp : NoZero pre) (hf : NoZero frm) (ht : NoZero to)
    (hlen : (traceHeader pre frm to).length ≤ 255)
    (hfit : (traceHeader pre frm to).length + 2 * (bytes.length - 1) ≤ 256) :
    socketLog pre frm to bytes = .ok (if bytes = [] then none else some ((traceLine pre frm to bytes).take 255)) := by
  by_cases hb : bytes = []
  · subst hb; rfl
  · rw [trace_exact pre frm to bytes hp hf ht hb, Nat.min_eq_right hlen, if_pos hfit, if_neg hb]

/-- C58 violated: every datagram of 112 bytes or more makes the trace leave its buffer, whatever prefix and addresses. -/
theorem C58_overflow_violated (pre frm to bytes : List Byte) (hp : NoZero pre) (hf : NoZero frm) (ht : NoZero to)
    (hlen : 112 ≤ bytes.length) : socketLog pre frm to bytes = .ub := by
  rw [trace_exact pre frm to bytes hp hf ht (by intro e; rw [e] at hlen; simp at hlen), if_neg]
  have : 35 ≤ (traceHeader pre frm to).length := by
    simp [traceHeader, column15]; omega
  omega

/-- C58 violated, exactly: with the prefixes of the library (one character) and IPv4 addresses, a sent or received datagram
is traced within the buffer if and only if it has at most 110 bytes. -/
theorem C58_threshold_violated (p : Byte) (frm to bytes : List Byte) (hp : p ≠ 0#8) (hf : NoZero frm) (ht : NoZero to)
    (hfl : frm.length ≤ 15) (htl : to.length ≤ 15) : (socketLog [p] frm to bytes).Defined ↔ bytes.length ≤ 110 := by
  by_cases hb : bytes = []
  · subst hb; simp [socketLog]
  · have hl : 0 < bytes.length := List.length_pos_iff.mpr hb
    have h37 : (traceHeader [p] frm to).length = 37 := by
      simp [traceHeader, column15]; omega
    rw [trace_exact [p] frm to bytes (by intro c hc; rw [List.mem_singleton.mp hc]; exact hp) hf ht hb, h37]
    constructor
    · intro h
      rw [Res.defined_iff_ne_ub] at h
      by_cases hle : min 255 37 + 2 * (bytes.length - 1) ≤ 256
      · omega
      · rw [if_neg hle] at h; exact absurd rfl h
    · intro h
      rw [if_pos (by omega)]
      exact Res.defined_ok _

-- "S" from 192.0.2.1 to 224.0.23.0, fourteen bytes (a request)
example : socketLog [83#8] [49#8, 57#8, 50#8, 46#8, 48#8, 46#8, 50#8, 46#8, 49#8]
    [50#8, 50#8, 52#8, 46#8, 48#8, 46#8, 50#8, 51#8, 46#8, 48#8]
    [0x10#8, 0x81#8, 0#8, 1#8, 5#8, 0xFF#8, 1#8, 0x0E#8, 0xF0#8, 1#8, 0x62#8, 1#8, 0xD6#8, 0#8] =
    .ok (some (traceLine [83#8] [49#8, 57#8, 50#8, 46#8, 48#8, 46#8, 50#8, 46#8, 49#8]
      [50#8, 50#8, 52#8, 46#8, 48#8, 46#8, 50#8, 51#8, 46#8, 48#8]
      [0x10#8, 0x81#8, 0#8, 1#8, 5#8, 0xFF#8, 1#8, 0x0E#8, 0xF0#8, 1#8, 0x62#8, 1#8, 0xD6#8, 0#8])) := by
  rw [C58_trace_partial]
  · rfl
  · intro c hc; revert c; decide
  · intro c hc; revert c; decide
  · intro c hc; revert c; decide
  · decide
  · decide

example : ∃ bytes : List Byte, 112 ≤ bytes.length := ⟨List.replicate 112 0#8, by rw [List.length_replicate]; omega⟩

end Uecho.Props
