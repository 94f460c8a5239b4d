import Verif.Lemmas.Compare
/-!
# C118, C119: comparing and finding texts, writing numbers
-/
namespace Uecho.Props
open Uecho Uecho.Spec Uecho.Lemmas Uecho.Compare

/-- **C118.** Comparing two texts gives their order in the dictionary. Missing: NULL, see `C118_null_violated`. -/
theorem C118_order_partial (a b : List Byte) :
    (strcmp (some a) (some b) < 0 ↔ ords a < ords b) ∧ (strcmp (some a) (some b) = 0 ↔ a = b) ∧
    (0 < strcmp (some a) (some b) ↔ ords b < ords a) := by
  simp only [strcmp]
  rcases cmp_sign a b with ⟨h, rfl⟩ | ⟨h, hl⟩ | ⟨h, hl⟩
  · rw [h]; exact ⟨by simp [Std.lt_irrefl], by simp, by simp [Std.lt_irrefl]⟩
  · rw [h]
    refine ⟨by simp [hl], ?_, ?_⟩
    · constructor
      · intro h; exact absurd h (by decide)
      · rintro rfl; exact absurd hl (Std.lt_irrefl)
    · constructor
      · intro h; exact absurd h (by decide)
      · intro h'; exact absurd hl (List.lt_asymm h')
  · rw [h]
    refine ⟨?_, ?_, by simp [hl]⟩
    · constructor
      · intro h; exact absurd h (by decide)
      · intro h'; exact absurd hl (List.lt_asymm h')
    · constructor
      · intro h; exact absurd h (by decide)
      · rintro rfl; exact absurd hl (Std.lt_irrefl)

example : strcmp (some [0x61#8, 0xE4#8]) (some [0x61#8, 0x7A#8]) = 1 := by decide

/-- **C118**, violated. Exchanging the texts does not exchange the result: NULL is less than NULL. -/
theorem C118_null_violated : ¬ ∀ a b : Option (List Byte), strcmp a b < 0 → 0 < strcmp b a := by
  intro h
  exact absurd (h none none (by decide)) (by decide)

/-- **C118.** Comparing the first `n` characters is comparing the texts cut to `n` characters; NULL is as for whole texts. -/
theorem C118_first_characters (a b : Option (List Byte)) (n : Nat) :
    strncmp a b n = strcmp (a.map (·.take n)) (b.map (·.take n)) := by
  cases a with
  | none => rfl
  | some a =>
    cases b with
    | none => rfl
    | some b => exact ncmp_take n a b

/-- **C118.** NULL is not equal to any text, however texts are compared; and nothing is found in NULL, nor NULL in anything. -/
theorem C118_null (a : List Byte) (n : Nat) :
    strcmp none (some a) < 0 ∧ 0 < strcmp (some a) none ∧ strncmp none (some a) n < 0 ∧ 0 < strncmp (some a) none n ∧
    strcasecmp none (some a) ≠ 0 ∧ strcasecmp (some a) none ≠ 0 ∧
    strstr none (some a) = -1 ∧ strstr (some a) none = -1 ∧ strstr none none = -1 := by
  simp [strcmp, strncmp, strcasecmp, strstr]

/-- **C118.** Comparing two texts but for upper and lower case is comparing them with small letters only. -/
theorem C118_case_order (a b : List Byte) :
    strcasecmp (some a) (some b) = strcmp (some (a.map smallLetter)) (some (b.map smallLetter)) := by
  show casecmp a b = cmp (a.map smallLetter) (b.map smallLetter)
  induction a generalizing b with
  | nil => cases b <;> rfl
  | cons x a ih =>
    cases b with
    | nil => rfl
    | cons y b =>
      simp only [casecmp, List.map_cons, cmp, ih, smallLetter_lower]

example : strcasecmp (some [0x41#8]) (some [0x62#8]) = -1 ∧ strcasecmp (some [0x5F#8]) (some [0x41#8]) = -1 := by decide

example : strncmp (some [0x61#8, 0x62#8]) (some [0x61#8, 0x63#8]) 1 = 0 ∧ strncmp (some [0x61#8, 0x62#8]) (some [0x61#8, 0x63#8]) 2 = -1 := by decide

/-- **C118.** Two texts are equal iff both are there and have the same characters; and but for upper and lower case iff their
characters are the same letters. -/
theorem C118_equal (a b : Option (List Byte)) :
    (streq a b = true ↔ ∃ s, a = some s ∧ b = some s) ∧
    (strcaseeq a b = true ↔ ∃ s t, a = some s ∧ b = some t ∧ SameButCase s t) := by
  cases a with
  | none => simp [streq, strcaseeq]
  | some a =>
    cases b with
    | none => simp [streq, strcaseeq]
    | some b =>
      constructor
      · have := (C118_order_partial a b).2.1
        simp only [streq, reduceCtorEq, or_self, if_false, decide_eq_true_eq, this, Option.some.injEq]
        exact ⟨fun h => ⟨a, rfl, h.symm⟩, fun ⟨s, h1, h2⟩ => h1.trans h2.symm⟩
      · simp only [strcaseeq, reduceCtorEq, or_self, if_false, Option.some.injEq, decide_eq_true_eq]
        rw [show strcasecmp (some a) (some b) = casecmp a b from rfl, casecmp_zero]
        exact ⟨fun h => ⟨a, b, rfl, rfl, h⟩, fun ⟨s, t, h1, h2, h⟩ => h1 ▸ h2 ▸ h⟩

example : strcaseeq (some [0x41#8, 0x7A#8]) (some [0x61#8, 0x5A#8]) = true ∧ strcaseeq (some [0x40#8]) (some [0x60#8]) = false := by decide

/-- **C118.** Searching a text in another one gives the first place at which it stands, or -1 if it stands nowhere. -/
theorem C118_find (hay needle : List Byte) :
    (strstr (some hay) (some needle) = -1 ∧ ∀ k, ¬ OccursAt needle hay k) ∨
    ∃ k : Nat, strstr (some hay) (some needle) = k ∧ OccursAt needle hay k ∧ ∀ j, j < k → ¬ OccursAt needle hay j := by
  unfold strstr
  rcases find_spec needle hay 0 with ⟨h1, h2⟩ | ⟨k, h1, h2, h3⟩
  · exact .inl ⟨by simp [h1], h2⟩
  · exact .inr ⟨k, by simp [h1], h2, h3⟩

example : strstr (some [0x61#8, 0x61#8, 0x62#8, 0x61#8, 0x62#8]) (some [0x61#8, 0x62#8]) = 1 := by decide

/-- The buffer begins with the decimal notation of `v`, properly terminated. -/
def ShowsNumber (buf : CString.Block) (v : Int) : Prop := ∃ t, CString.readZ buf = .ok t ∧ IsDecimal t v

/-- Helper for C119: a number of at most `k + 1` digits fits `k + 3` characters. -/
theorem sprint_shows {v : Int} {k : Nat} (hv : v.natAbs < 10 ^ (k + 1)) (buf : CString.Block) (hb : k + 3 ≤ buf.length) :
    ∃ buf', sprint v buf = .ok buf' ∧ buf'.length = buf.length ∧ ShowsNumber buf' v := by
  have hl := decimal_length hv
  refine ⟨_, sprint_ok v buf (by omega), ?_, _, readZ_text _ _ (decimal_noZero v), decimal_isDecimal v⟩
  simp; omega

theorem abs_toInt {w : Nat} (v : BitVec w) : v.toInt.natAbs ≤ 2 ^ w := by
  have := v.isLt
  rw [BitVec.toInt_eq_toNat_cond]
  split <;> omega

/-- **C119.** `uecho_int2str` writes the decimal notation of every `int` into a buffer of at least 12 characters. Missing: smaller buffers,
see `C119_small_buffer_violated`. -/
theorem C119_int_partial (v : BitVec 32) (buf : CString.Block) (n : Nat) (hb : 12 ≤ buf.length) :
    ∃ buf', int2str v buf n = .ok buf' ∧ buf'.length = buf.length ∧ ShowsNumber buf' v.toInt :=
  sprint_shows (k := 9) (by have := abs_toInt v; omega) buf hb

/-- **C119.** So do `uecho_long2str` and `uecho_ssizet2str` for 64 bits, into a buffer of at least 22 characters. -/
theorem C119_long_partial (v : BitVec 64) (buf : CString.Block) (n : Nat) (hb : 22 ≤ buf.length) :
    (∃ buf', long2str v buf n = .ok buf' ∧ buf'.length = buf.length ∧ ShowsNumber buf' v.toInt) ∧
    ∃ buf', ssizet2str v buf n = .ok buf' ∧ buf'.length = buf.length ∧ ShowsNumber buf' v.toInt := by
  have h : v.toInt.natAbs < 10 ^ (19 + 1) := by have := abs_toInt v; omega
  exact ⟨sprint_shows h buf hb, sprint_shows h buf hb⟩

/-- **C119.** `uecho_sizet2str` does for sizes below 2^63. -/
theorem C119_size_partial (v : BitVec 64) (buf : CString.Block) (n : Nat) (hb : 22 ≤ buf.length) (hv : v.toNat < 2 ^ 63) :
    ∃ buf', sizet2str v buf n = .ok buf' ∧ buf'.length = buf.length ∧ ShowsNumber buf' v.toNat := by
  have h : v.toInt.natAbs < 10 ^ (19 + 1) := by have := abs_toInt v; omega
  have e : v.toInt = (v.toNat : Int) := by
    rw [BitVec.toInt_eq_toNat_cond, if_pos (by omega)]
  have := sprint_shows h buf hb
  rw [e] at this
  unfold sizet2str
  rw [e]
  exact this

example : int2str (-25#32) (List.replicate 12 none) 12 =
    .ok ([some 0x2D#8, some 0x32#8, some 0x35#8, some 0#8] ++ List.replicate 8 none) := by decide +kernel

/-- **C119**, violated. The largest sizes are shown as negative numbers: 2^64 - 1 as -1. -/
theorem C119_size_violated : ¬ ∀ (v : BitVec 64) (buf : CString.Block) (n : Nat), 22 ≤ buf.length →
    ∃ buf', sizet2str v buf n = .ok buf' ∧ ShowsNumber buf' v.toNat := by
  intro h
  obtain ⟨buf', h1, t, h2, h3⟩ := h (BitVec.allOnes 64) (List.replicate 22 none) 22 (by simp)
  have e : sizet2str (BitVec.allOnes 64) (List.replicate 22 none) 22 =
      .ok ([some 0x2D#8, some 0x31#8, some 0#8] ++ List.replicate 19 none) := by decide +kernel
  rw [e] at h1
  injection h1 with h1
  subst h1
  have e2 : CString.readZ ([some 0x2D#8, some 0x31#8, some 0#8] ++ List.replicate 19 none) = .ok [0x2D#8, 0x31#8] := by decide +kernel
  rw [e2] at h2
  injection h2 with h2
  subst h2
  rcases h3 with ⟨_, h3⟩ | ⟨h3, _⟩
  · have := h3.2.1 0x2D#8 (by simp)
    simp at this
  · exact absurd h3 (by omega)

/-- **C119**, violated. The size of the buffer that is passed is not used: a number that does not fit is written beyond its end. -/
theorem C119_small_buffer_violated : ¬ ∀ (v : BitVec 32) (buf : CString.Block), (int2str v buf buf.length).Defined := by
  intro h
  obtain ⟨b, hb⟩ := h 12345#32 (List.replicate 4 none)
  have : int2str 12345#32 (List.replicate 4 none) 4 = .ub := by decide +kernel
  simp only [List.length_replicate, this] at hb
  exact absurd hb (by simp)

/-- **C119.** A text set to a number is its decimal notation, whatever the text was before. -/
theorem C119_set_text (s : CString.Str) (v : BitVec 32) (w : BitVec 64) :
    (∃ s' t, setInt s v = .ok s' ∧ CString.getValue s' = .ok (some t) ∧ CString.length s' = t.length ∧ IsDecimal t v.toInt) ∧
    ∃ s' t, setLong s w = .ok s' ∧ CString.getValue s' = .ok (some t) ∧ CString.length s' = t.length ∧ IsDecimal t w.toInt := by
  constructor
  · obtain ⟨b, h1, _, t, h2, h3⟩ := C119_int_partial v (List.replicate 16 none) 16 (by simp)
    have hz : ∀ c ∈ t, c ≠ 0#8 := by
      have h : (decimal v.toInt).length + 1 ≤ 16 := by
        have := decimal_length (v := v.toInt) (k := 9) (by have := abs_toInt v; omega)
        omega
      have e := sprint_ok v.toInt (List.replicate 16 none) (by simpa using h)
      rw [show int2str v (List.replicate 16 none) 16 = sprint v.toInt (List.replicate 16 none) from rfl, e] at h1
      injection h1 with h1
      subst h1
      rw [readZ_text _ _ (decimal_noZero _)] at h2
      injection h2 with h2
      exact h2 ▸ decimal_noZero _
    obtain ⟨s', e, h4, h5⟩ := set_value s t hz
    exact ⟨s', t, by simp only [setInt, h1, h2, e, Res.bind_ok], h4, h5, h3⟩
  · obtain ⟨b, h1, _, t, h2, h3⟩ := (C119_long_partial w (List.replicate 32 none) 32 (by simp)).1
    have hz : ∀ c ∈ t, c ≠ 0#8 := by
      have h : (decimal w.toInt).length + 1 ≤ 32 := by
        have := decimal_length (v := w.toInt) (k := 19) (by have := abs_toInt w; omega)
        omega
      have e := sprint_ok w.toInt (List.replicate 32 none) (by simpa using h)
      rw [show long2str w (List.replicate 32 none) 32 = sprint w.toInt (List.replicate 32 none) from rfl, e] at h1
      injection h1 with h1
      subst h1
      rw [readZ_text _ _ (decimal_noZero _)] at h2
      injection h2 with h2
      exact h2 ▸ decimal_noZero _
    obtain ⟨s', e, h4, h5⟩ := set_value s t hz
    exact ⟨s', t, by simp only [setLong, h1, h2, e, Res.bind_ok], h4, h5, h3⟩

example : (do let s ← setInt CString.new (-7#32); CString.getValue s) = .ok (some [0x2D#8, 0x37#8]) := by decide +kernel

end Uecho.Props
