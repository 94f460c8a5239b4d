import Verif.Model.Log
import Verif.Spec.Trace
import Verif.Lemmas.CString
/-! # Lemmas for C58: the trace buffer -/
set_option linter.unusedSimpArgs false
namespace Uecho.Lemmas
open Uecho Uecho.Spec Uecho.CString Uecho.Log

/-- The trace buffer holds the line `t`. -/
def Line (buf : Block) (t : List Byte) : Prop := buf.length = 256 ∧ ∃ rest, buf = t.map some ++ some 0#8 :: rest

theorem Line.le {buf : Block} {t : List Byte} (h : Line buf t) : t.length ≤ 255 := by
  obtain ⟨h1, rest, rfl⟩ := h
  simp at h1; omega

theorem take_append_take {α : Type} (n : Nat) (a x : List α) : (a.take n ++ x).take n = (a ++ x).take n := by
  by_cases h : a.length ≤ n
  · rw [List.take_of_length_le h]
  · rw [List.take_append_of_le_length (by simp; omega), List.take_append_of_le_length (by omega), List.take_take,
      Nat.min_self]

theorem takeWhile_noZero {t : List Byte} (hz : ∀ c ∈ t, c ≠ 0#8) : t.takeWhile (· ≠ 0#8) = t := by
  induction t with
  | nil => rfl
  | cons c t ih =>
    rw [List.takeWhile_cons, if_pos (by simpa using hz c (by simp)), ih (fun d hd => hz d (by simp [hd]))]

theorem strlen_line {buf : Block} {t : List Byte} (h : Line buf t) (hz : ∀ c ∈ t, c ≠ 0#8) : strlen buf = .ok t.length := by
  obtain ⟨_, rest, rfl⟩ := h
  unfold strlen
  rw [readZ_holds, takeWhile_noZero hz]; rfl

/-- Formatting behind the first `off` characters. -/
theorem snprintf_line {buf : Block} {p : List Byte} {q : Block} (hb : buf.length = 256) (e : buf = p.map some ++ q)
    (hp : p.length ≤ 255) (text : List Byte) :
    ∃ buf', snprintf buf p.length (szSub 256 p.length) text = .ok buf' ∧ Line buf' ((p ++ text).take 255) := by
  have hq : q.length = 256 - p.length := by rw [e] at hb; simp at hb; omega
  have hs : szSub 256 p.length = 256 - p.length := by unfold szSub; rw [if_pos (by omega)]
  have hne : ¬ 256 - p.length = 0 := by omega
  let xs : List Byte := text.take (255 - p.length)
  have hxs : xs.length ≤ 255 - p.length := by simp [xs]; omega
  have e2 : buf = p.map some ++ (q.take (xs.length + 1) ++ q.drop (xs.length + 1)) := by rw [e, List.take_append_drop]
  refine ⟨p.map some ++ (xs.map some ++ [some 0#8]) ++ q.drop (xs.length + 1), ?_, ?_, ?_⟩
  · unfold snprintf
    rw [if_neg (by omega), hs, if_neg hne]
    have := wrN_prefix (xs.map some ++ [some 0#8]) e2 (by simp; omega)
    rw [List.length_map] at this
    rw [show 256 - p.length - 1 = 255 - p.length by omega]
    exact this
  · simp; omega
  · refine ⟨q.drop (xs.length + 1), ?_⟩
    rw [List.take_append, List.take_of_length_le hp]
    simp [xs]

theorem hexDigit_spec : ∀ n : Fin 16, Log.hexDigit n.val = hexDigits.getD n.val 0#8 := by decide

theorem hex2_spec (b : Byte) : hex2 b = hexByte b := by
  have h1 := hexDigit_spec ⟨b.toNat / 16, by omega⟩
  have h2 := hexDigit_spec ⟨b.toNat % 16, by omega⟩
  unfold hex2 hexByte
  rw [← h1, ← h2]

theorem hexDigits_ne : ∀ n : Fin 16, hexDigits.getD n.val 0#8 ≠ 0#8 := by decide

theorem hexByte_ne (b : Byte) : ∀ c ∈ hexByte b, c ≠ 0#8 := by
  intro c hc
  simp only [hexByte, List.mem_cons, List.not_mem_nil, or_false] at hc
  rcases hc with rfl | rfl
  · exact hexDigits_ne ⟨b.toNat / 16, by omega⟩
  · exact hexDigits_ne ⟨b.toNat % 16, by omega⟩

/-- The loop: within its bound it appends the digits, beyond it is undefined. -/
theorem hexLoop_line (bs : List Byte) (f : List Byte) (buf : Block) (h : Line buf (f.take 255)) :
    (bs ≠ [] → 256 < f.length + 2 * (bs.length - 1) → hexLoop buf f.length bs = .ub) ∧
    (f.length + 2 * (bs.length - 1) ≤ 256 → ∃ buf', hexLoop buf f.length bs = .ok buf' ∧
      Line buf' ((f ++ bs.flatMap hexByte).take 255)) := by
  induction bs generalizing f buf with
  | nil => exact ⟨fun h => absurd rfl h, fun _ => ⟨buf, rfl, by simpa using h⟩⟩
  | cons b bs ih =>
    simp only [List.length_cons, Nat.add_sub_cancel]
    have hbl : buf.length = 256 := h.1
    have step : f.length ≤ 256 → ∃ buf', snprintf buf f.length (szSub 256 f.length) (hex2 b) = .ok buf' ∧
        Line buf' ((f ++ hexByte b).take 255) := by
      intro hf
      by_cases h256 : f.length = 256
      · refine ⟨buf, ?_, ?_⟩
        · unfold snprintf
          rw [if_neg (by omega), h256]; rfl
        · rw [List.take_append_of_le_length (by omega)]; exact h
      · have : f.take 255 = f := List.take_of_length_le (by omega)
        rw [this] at h
        obtain ⟨_, rest, e⟩ := h
        rw [hex2_spec]
        exact snprintf_line hbl e (by omega) _
    have hlen : (f ++ hexByte b).length = f.length + 2 := by simp [hexByte]
    constructor
    · intro _ hgt
      unfold hexLoop
      by_cases hf : f.length ≤ 256
      · obtain ⟨buf', e1, h1⟩ := step hf
        have := (ih _ _ h1).1 (by intro e; subst e; simp at hgt; omega) (by rw [hlen]; omega)
        rw [hlen] at this
        simp only [e1, Res.bind_ok, this]
      · have : snprintf buf f.length (szSub 256 f.length) (hex2 b) = .ub := by
          unfold snprintf; rw [if_pos (by omega)]
        simp only [this, Res.bind_ub]
    · intro hle
      obtain ⟨buf', e1, h1⟩ := step (by omega)
      unfold hexLoop
      simp only [e1, Res.bind_ok]
      by_cases hbs : bs = []
      · subst hbs
        exact ⟨buf', rfl, by simpa using h1⟩
      · have hpos : 0 < bs.length := List.length_pos_iff.mpr hbs
        obtain ⟨buf2, e2, h2⟩ := (ih _ _ h1).2 (by rw [hlen]; omega)
        rw [hlen] at e2
        exact ⟨buf2, e2, by simpa using h2⟩

end Uecho.Lemmas
