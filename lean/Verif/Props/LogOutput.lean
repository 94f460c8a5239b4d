import Verif.Model.LogOutput
import Verif.Spec.LogOutput
import Verif.Props.Log
/-! # C117: which messages of the library are printed -/
namespace Uecho.Lemmas
open Uecho Uecho.Spec Uecho.CString Uecho.Log

theorem snprintf_at {n : Nat} {buf : Block} {p : List Byte} {q : Block} (hb : buf.length = n) (e : buf = p.map some ++ q) (hp : p.length < n) (text : List Byte) :
    ∃ rest, snprintf buf p.length (n - p.length) text = .ok (((p ++ text).take (n - 1)).map some ++ some 0#8 :: rest) ∧
      (((p ++ text).take (n - 1)).map some ++ some 0#8 :: rest).length = n := by
  have hq : q.length = n - p.length := by rw [e] at hb; simp at hb; omega
  obtain ⟨xs, hxs⟩ : ∃ xs, xs = text.take (n - p.length - 1) := ⟨_, rfl⟩
  have hl : xs.length ≤ n - p.length - 1 := by rw [hxs, List.length_take]; omega
  have e2 : buf = p.map some ++ (q.take (xs.length + 1) ++ q.drop (xs.length + 1)) := by rw [e, List.take_append_drop]
  have e3 : (p ++ text).take (n - 1) = p ++ xs := by
    rw [List.take_append, List.take_of_length_le (by omega), hxs]
    congr 2
    omega
  have hw := wrN_prefix (xs.map some ++ [some 0#8]) e2 (by simp; omega)
  rw [List.length_map] at hw
  refine ⟨q.drop (xs.length + 1), ?_, ?_⟩
  · unfold snprintf
    rw [if_neg (by omega), if_neg (by omega), ← hxs, hw, e3]
    simp
  · rw [e3]; simp; omega

theorem typeText_noZero (n : Nat) : ∀ c ∈ typeText n, c ≠ 0#8 := by
  unfold typeText
  split
  · decide
  · split
    · decide
    · split
      · decide
      · split
        · decide
        · simp

theorem typeText_length (n : Nat) : (typeText n).length ≤ 5 := by
  unfold typeText
  split
  · decide
  · split
    · decide
    · split
      · decide
      · split
        · decide
        · simp

theorem typeText_name (n : Nat) : typeText n = severityName n := by
  unfold typeText severityName levelError levelWarn levelInfo levelDebug
  split
  · subst n; decide +kernel
  · split
    · subst n; decide +kernel
    · split
      · subst n; decide +kernel
      · split
        · subst n; decide +kernel
        · split <;> first | rfl | omega

end Uecho.Lemmas

namespace Uecho.Props
open Uecho Uecho.Spec Uecho.Lemmas Uecho.CString Uecho.Log

/-- **C117.** A message is printed iff its severity is within the level that is set. Printed are the time, the severity and the text, up to 2047 characters, without leaving
the buffer, whatever the length of the text. -/
theorem C117_printed (level severity : Nat) (ts text : List Byte) (hts : ts.length ≤ 1024) (hz : NoZero ts) (ht : NoZero text) :
    logOutput level severity ts text = .ok (if severity ≤ level then
      some ((ts ++ [0x20#8, 0x3A#8, 0x20#8] ++ severityName severity ++ [0x20#8] ++ text).take 2047) else none) := by
  rw [← typeText_name]
  unfold logOutput
  by_cases h : level < severity
  · rw [if_pos h, if_neg (by omega)]
  · rw [if_neg h, if_pos (by omega)]
    obtain ⟨head, hh⟩ : ∃ head, head = ts ++ [0x20#8, 0x3A#8, 0x20#8] ++ typeText severity ++ [0x20#8] := ⟨_, rfl⟩
    have htl : (typeText severity).length ≤ 5 := typeText_length severity
    have hhl : head.length ≤ 1033 := by rw [hh]; simp; omega
    have hnz : NoZero head := by
      intro c hc
      rw [hh] at hc
      simp only [List.mem_append] at hc
      rcases hc with ((hc | hc) | hc) | hc
      · exact hz c hc
      · revert c; decide
      · exact typeText_noZero severity c hc
      · revert c; decide
    simp only [← hh]
    obtain ⟨B, hB⟩ : ∃ B : Block, B = List.replicate 2048 none := ⟨_, rfl⟩
    rw [← hB]
    obtain ⟨rest, e1, l1⟩ := snprintf_at (n := 2048) (buf := B) (p := []) (q := B) (by rw [hB, List.length_replicate]) rfl (by simp) head
    simp only [List.nil_append, List.length_nil, Nat.sub_zero] at e1 l1
    rw [List.take_of_length_le (by omega)] at e1 l1
    rw [e1, Res.bind_ok]
    obtain ⟨rest2, e2, l2⟩ := snprintf_at (n := 2048) (p := head) l1 rfl (by omega) text
    have hs : szSub 2048 head.length = 2048 - head.length := by unfold szSub; rw [if_pos (by omega)]
    rw [hs, e2, Res.bind_ok, readZ_holds, takeWhile_noZero]
    · rfl
    · intro c hc
      rcases List.mem_append.1 (List.mem_of_mem_take hc) with hc | hc
      · exact hnz c hc
      · exact ht c hc

/-- At the level WARN an error is printed, and a debug message is not. -/
example : logOutput levelWarn levelError [0x31#8] [0x78#8] = .ok (some [0x31#8, 0x20#8, 0x3A#8, 0x20#8, 0x45#8, 0x52#8, 0x52#8, 0x4F#8, 0x52#8, 0x20#8, 0x78#8]) ∧
    logOutput levelWarn levelDebug [0x31#8] [0x78#8] = .ok none := by
  rw [C117_printed _ _ _ _ (by decide) (by decide) (by decide), C117_printed _ _ _ _ (by decide) (by decide) (by decide)]
  decide +kernel

/-- **C117.** The trace of a datagram that fits its buffer (`C58_trace_partial`) is printed at the levels DEBUG and ALL, and not below. -/
theorem C117_trace_partial (level : Nat) (ts pre frm to bytes : List Byte) (hts : ts.length ≤ 1024) (hz : NoZero ts) (hp : NoZero pre) (hf : NoZero frm) (ht : NoZero to)
    (hlen : (traceHeader pre frm to).length ≤ 255) (hfit : (traceHeader pre frm to).length + 2 * (bytes.length - 1) ≤ 256) (hb : bytes ≠ []) :
    socketDebug level ts pre frm to bytes = .ok (if 8 ≤ level then
      some (ts ++ [0x20#8, 0x3A#8, 0x20#8] ++ ascii "DEBUG" ++ [0x20#8] ++ (traceLine pre frm to bytes).take 255) else none) := by
  have hn : NoZero ((traceLine pre frm to bytes).take 255) := by
    have hcol : ∀ s, NoZero s → NoZero (column15 s) := by
      intro s hs c hc
      rcases List.mem_append.mp hc with h | h
      · exact hs c h
      · rw [(List.mem_replicate.mp h).2]; decide
    suffices h : NoZero (traceLine pre frm to bytes) from fun c hc => h c (List.mem_of_mem_take hc)
    intro c hc
    simp only [traceLine, traceHeader, List.mem_append, List.mem_flatMap] at hc
    rcases hc with ((((hc | hc) | hc) | hc) | hc) | ⟨b, _, hc⟩
    · split at hc
      · cases hc
      · rcases List.mem_append.1 hc with hc | hc
        · exact hp c hc
        · rw [List.mem_singleton.mp hc]; decide
    · exact hcol _ hf c hc
    · revert hc; revert c; decide
    · exact hcol _ ht c hc
    · rw [List.mem_singleton.mp hc]; decide
    · exact hexByte_ne b c hc
  rw [socketDebug, socketTrace, C58_trace_partial pre frm to bytes hp hf ht hlen hfit, if_neg hb, Res.bind_ok]
  simp only
  rw [C117_printed level levelDebug ts _ hts hz hn]
  have hsev : severityName levelDebug = ascii "DEBUG" := rfl
  have h5 : (ascii "DEBUG").length = 5 := by decide +kernel
  rw [hsev]
  by_cases h : 8 ≤ level
  · rw [if_pos h, if_pos h, List.take_of_length_le]
    simp only [List.length_append, List.length_take, List.length_cons, List.length_nil]
    omega
  · rw [if_neg h, if_neg h]

/-- The same trace at the levels DEBUG and INFO. -/
example : socketDebug levelDebug [0x31#8] [0x52#8] [0x61#8] [0x62#8] [0x10#8] = .ok (some ([0x31#8, 0x20#8, 0x3A#8, 0x20#8, 0x44#8, 0x45#8, 0x42#8, 0x55#8, 0x47#8, 0x20#8,
      0x52#8, 0x20#8, 0x61#8] ++ List.replicate 15 0x20#8 ++ [0x2D#8, 0x3E#8, 0x20#8, 0x62#8] ++ List.replicate 15 0x20#8 ++ [0x31#8, 0x30#8])) ∧
    socketDebug levelInfo [0x31#8] [0x52#8] [0x61#8] [0x62#8] [0x10#8] = .ok none := by
  rw [C117_trace_partial _ _ _ _ _ _ (by decide) (by decide) (by decide) (by decide) (by decide) (by decide) (by decide) (by decide),
    C117_trace_partial _ _ _ _ _ _ (by decide) (by decide) (by decide) (by decide) (by decide) (by decide) (by decide) (by decide)]
  decide +kernel

/-- **C117 is violated** for the traces of datagrams and messages that could not be parsed: they are errors, but at the levels ERROR, WARN and INFO none of them is printed. -/
theorem C117_error_violated (level : Nat) (hl : level < 8) (ts pre frm to bytes line : List Byte) : socketError level ts pre frm to bytes ≠ .ok (some line) := by
  unfold socketError socketTrace
  cases socketLog pre frm to bytes with
  | ub => intro h; cases h
  | ok t =>
    rw [Res.bind_ok]
    cases t with
    | none => intro h; cases h
    | some t =>
      simp only [logOutput, if_pos (show level < levelDebug from hl)]
      intro h
      cases h

end Uecho.Props
