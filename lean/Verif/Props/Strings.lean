import Verif.Lemmas.Strings
/-!
# C96–C100: searching, trimming, splitting and replacing text
-/
namespace Uecho.Props
open Uecho Uecho.Spec Uecho.Lemmas Uecho.Strings

/-- **C96.** `uecho_strchr` returns the position of the first character that is one of the first `n` of `chars`, or -1 if there is none. -/
theorem C96_first (s chars : List Byte) (n : Nat) (hn : n ≤ chars.length) : ∃ r, strchr (some s) (some chars) n = .ok r ∧
    ((r = -1 ∧ ∀ c ∈ s, c ∉ chars.take n) ∨ ∃ a c b, s = a ++ c :: b ∧ r = a.length ∧ c ∈ chars.take n ∧ ∀ x ∈ a, x ∉ chars.take n) := by
  have key : ∀ (s : List Byte) (i : Nat), ∃ r, strchrLoop chars n s i = .ok r ∧ ((r = -1 ∧ ∀ c ∈ s, c ∉ chars.take n) ∨
      ∃ a c b, s = a ++ c :: b ∧ r = (i + a.length : Nat) ∧ c ∈ chars.take n ∧ ∀ x ∈ a, x ∉ chars.take n) := by
    intro s
    induction s with
    | nil => intro i; exact ⟨-1, rfl, .inl ⟨rfl, by simp⟩⟩
    | cons c s ih =>
      intro i
      simp only [strchrLoop, hasChar_zero hn, Res.bind_ok]
      by_cases hc : c ∈ chars.take n
      · exact ⟨i, by simp [hc], .inr ⟨[], c, s, rfl, by simp, hc, by simp⟩⟩
      · obtain ⟨r, h1, h2⟩ := ih (i + 1)
        refine ⟨r, by simpa [hc] using h1, ?_⟩
        rcases h2 with ⟨h2, h3⟩ | ⟨a, d, b, h2, h3, h4, h5⟩
        · exact .inl ⟨h2, by simpa [hc] using h3⟩
        · exact .inr ⟨c :: a, d, b, by simp [h2], by rw [h3, List.length_cons]; omega, h4, by simpa [hc] using h5⟩
  obtain ⟨r, h1, h2⟩ := key s 0
  exact ⟨r, h1, by simpa using h2⟩

example : strchr (some [0x61#8, 0x2C#8, 0x2C#8]) (some [0x2E#8, 0x2C#8]) 2 = .ok 1 := by decide

/-- **C96.** `uecho_strrchr` returns the position of the last such character, or -1. -/
theorem C96_last (s chars : List Byte) (n : Nat) (hn : n ≤ chars.length) : ∃ r, strrchr (some s) (some chars) n = .ok r ∧
    ((r = -1 ∧ ∀ c ∈ s, c ∉ chars.take n) ∨ ∃ a c b, s = a ++ c :: b ∧ r = a.length ∧ c ∈ chars.take n ∧ ∀ x ∈ b, x ∉ chars.take n) := by
  have key : ∀ (k : Nat) (s u : List Byte), s.length = k → (∀ c ∈ u, c ∉ chars.take n) → ∃ r, strrchrLoop chars n (s ++ u) k = .ok r ∧
      ((r = -1 ∧ ∀ c ∈ s ++ u, c ∉ chars.take n) ∨
      ∃ a c b, s ++ u = a ++ c :: b ∧ r = a.length ∧ c ∈ chars.take n ∧ ∀ x ∈ b, x ∉ chars.take n) := by
    intro k
    induction k with
    | zero =>
      intro s u hs hu
      have : s = [] := List.length_eq_zero_iff.1 hs
      subst this
      exact ⟨-1, rfl, .inl ⟨rfl, hu⟩⟩
    | succ k ih =>
      intro s u hs hu
      obtain ⟨s0, c, rfl⟩ : ∃ s0 c, s = s0 ++ [c] := ⟨s.dropLast, s.getLast (by intro h; simp [h] at hs), (List.dropLast_concat_getLast _).symm⟩
      have hk : s0.length = k := by simpa using hs
      have hrd : rd (s0 ++ [c] ++ u) k = .ok c := by simp [rd, ← hk]
      simp only [strrchrLoop, hrd, hasChar_zero hn, Res.bind_ok]
      by_cases hc : c ∈ chars.take n
      · exact ⟨k, by simp [hc], .inr ⟨s0, c, u, by simp, by rw [hk], hc, hu⟩⟩
      · obtain ⟨r, h1, h2⟩ := ih s0 (c :: u) hk (by simpa [hc] using hu)
        rw [show s0 ++ c :: u = s0 ++ [c] ++ u from by simp] at h1 h2
        exact ⟨r, by simpa only [hc, decide_false, Bool.false_eq_true, if_false] using h1, h2⟩
  obtain ⟨r, h1, h2⟩ := key s.length s [] rfl (by simp)
  rw [List.append_nil] at h1 h2
  exact ⟨r, h1, h2⟩

example : strrchr (some [0x61#8, 0x2C#8, 0x2C#8]) (some [0x2E#8, 0x2C#8]) 2 = .ok 2 := by decide

/-- **C97.** `uecho_strtrim` returns the text without the first `n` characters of `delim` at both ends; it does not touch memory outside the
text. -/
theorem C97_trim {m s delim : List Byte} (hm : HoldsText m s) {n : Nat} (hn : n ≤ delim.length) :
    ∃ m' p t, strtrim m delim n = .ok (m', p) ∧ cstr (m'.drop p) = .ok t ∧ Trimmed (delim.take n) s t := by
  obtain ⟨hz, rest, rfl⟩ := hm
  obtain ⟨t, b, rest', h1, h2, h3, h4⟩ := rtrimLoop_ok hn s.length s rest rfl
  have hzt : NoZero t := by subst h1; exact (noZero_append.1 hz).1
  have htd := List.takeWhile_append_dropWhile (p := fun c => decide (c ∈ delim.take n)) (l := t)
  have hpos : (t ++ 0#8 :: rest').drop (t.takeWhile (fun c => decide (c ∈ delim.take n))).length =
      t.dropWhile (fun c => decide (c ∈ delim.take n)) ++ 0#8 :: rest' := by
    generalize t.takeWhile (fun c => decide (c ∈ delim.take n)) = a at htd ⊢
    generalize t.dropWhile (fun c => decide (c ∈ delim.take n)) = b at htd ⊢
    rw [← htd, List.append_assoc, List.drop_left]
  refine ⟨t ++ 0#8 :: rest', (t.takeWhile (fun c => decide (c ∈ delim.take n))).length, t.dropWhile (fun c => decide (c ∈ delim.take n)), ?_, ?_, ?_⟩
  · simp only [strtrim, strrtrim, strltrim, cstr_text hz, Res.bind_ok, h4, cstr_text hzt, ltrimLoop_ok hn, Nat.zero_add, Res.pure_eq]
  · rw [hpos]
    refine cstr_text ?_ _
    rw [← htd] at hzt
    exact (noZero_append.1 hzt).2
  · refine ⟨t.takeWhile (fun c => decide (c ∈ delim.take n)), b, by rw [htd]; exact h1, ?_, h2, ?_, ?_⟩
    · intro c hc
      have := List.all_eq_true.1 (List.all_takeWhile (p := fun c => decide (c ∈ delim.take n)) (l := t)) c hc
      simpa using this
    · intro c hc
      have hne : t.dropWhile (fun c => decide (c ∈ delim.take n)) ≠ [] := by intro h; rw [h] at hc; cases hc
      have h5 := List.head_dropWhile_not (fun c => decide (c ∈ delim.take n)) hne
      rw [List.head?_eq_some_head hne] at hc
      cases hc
      simpa using h5
    · intro c hc
      refine h3 c ?_
      rw [← htd, List.getLast?_append, hc]; rfl

example : HoldsText [0x20#8, 0x61#8, 0x20#8, 0x62#8, 0x20#8, 0#8, 7#8] [0x20#8, 0x61#8, 0x20#8, 0x62#8, 0x20#8] ∧
    strtrim [0x20#8, 0x61#8, 0x20#8, 0x62#8, 0x20#8, 0#8, 7#8] [0x20#8] 1 = .ok ([0x20#8, 0x61#8, 0x20#8, 0x62#8, 0#8, 0#8, 7#8], 1) :=
  ⟨⟨by simp [NoZero], [7#8], rfl⟩, by decide⟩

/-- **C96.** Without a text or without characters there is nothing to find. -/
theorem C96_null (s chars : Option (List Byte)) (n : Nat) (h : s = none ∨ chars = none) :
    strchr s chars n = .ok (-1) ∧ strrchr s chars n = .ok (-1) := by
  rcases h with rfl | rfl
  · exact ⟨rfl, rfl⟩
  · cases s <;> exact ⟨rfl, rfl⟩

/-- `isspace` knows exactly the white characters. -/
theorem isSpace_white (c : Byte) : isSpace c = true ↔ White c := by
  unfold White
  revert c
  decide +kernel

theorem isSpace_not_white {c : Byte} (h : ¬ White c) : isSpace c = false := by
  cases h' : isSpace c with
  | false => rfl
  | true => exact absurd ((isSpace_white c).1 h') h

/-- **C97, partial** (white characters only at the end of the text). `uecho_strtrimwhite` removes them. -/
theorem C97_white_partial {m t w : List Byte} (hm : HoldsText m (t ++ w)) (ht : ∀ c ∈ t, ¬ White c) (hw : ∀ c ∈ w, White c) :
    ∃ m', strtrimwhite m = .ok m' ∧ HoldsText m' t := by
  replace ht : ∀ c ∈ t, isSpace c = false := fun c h => isSpace_not_white (ht c h)
  replace hw : ∀ c ∈ w, isSpace c = true := fun c h => (isSpace_white c).2 (hw c h)
  obtain ⟨hz, rest, rfl⟩ := hm
  by_cases h0 : t ++ w = []
  · obtain ⟨rfl, rfl⟩ := List.append_eq_nil_iff.1 h0
    exact ⟨[] ++ [] ++ 0#8 :: rest, rfl, noZero_nil, rest, rfl⟩
  have h0' : (t ++ w).length ≠ 0 := fun h => h0 (List.length_eq_zero_iff.1 h)
  have loop1 : ∀ (k : Nat) (w u : List Byte), (∀ c ∈ w, isSpace c = true) → w.length = k → ∀ len,
      whiteLoop (t ++ w ++ u) (t.length + k) len = whiteLoop (t ++ w ++ u) t.length (len - k) := by
    intro k
    induction k with
    | zero => intro w u _ _ len; rfl
    | succ k ih =>
      intro w u hw hk len
      obtain ⟨w0, c, rfl⟩ : ∃ w0 c, w = w0 ++ [c] := ⟨w.dropLast, w.getLast (by intro h; simp [h] at hk), (List.dropLast_concat_getLast _).symm⟩
      have hk' : w0.length = k := by simpa using hk
      have hrd : rd (t ++ (w0 ++ [c]) ++ u) (t.length + k) = .ok c := by simp [rd, ← hk']
      rw [← Nat.add_assoc, whiteLoop, hrd, Res.bind_ok, hw c (by simp), if_pos rfl]
      have := ih w0 (c :: u) (fun x hx => hw x (by simp [hx])) hk' (len - 1)
      rw [show t ++ w0 ++ c :: u = t ++ (w0 ++ [c]) ++ u from by simp] at this
      rw [this]; congr 1; omega
  have loop2 : ∀ (k : Nat) (t u : List Byte), (∀ c ∈ t, isSpace c = false) → t.length = k → ∀ len, whiteLoop (t ++ u) k len = .ok len := by
    intro k
    induction k with
    | zero => intro t u _ _ len; rfl
    | succ k ih =>
      intro t u ht hk len
      obtain ⟨t0, c, rfl⟩ : ∃ t0 c, t = t0 ++ [c] := ⟨t.dropLast, t.getLast (by intro h; simp [h] at hk), (List.dropLast_concat_getLast _).symm⟩
      have hk' : t0.length = k := by simpa using hk
      have hrd : rd (t0 ++ [c] ++ u) k = .ok c := by simp [rd, ← hk']
      rw [whiteLoop, hrd, Res.bind_ok, ht c (by simp)]
      have := ih t0 (c :: u) (fun x hx => ht x (by simp [hx])) hk' len
      rw [show t0 ++ c :: u = t0 ++ [c] ++ u from by simp] at this
      exact this
  have hlen : whiteLoop (t ++ w ++ 0#8 :: rest) (t ++ w).length (t ++ w).length = .ok t.length := by
    rw [List.length_append, loop1 w.length w (0#8 :: rest) hw rfl, List.append_assoc, loop2 t.length t _ ht rfl]
    congr 1; omega
  have hskip : skipLoop (t ++ w ++ 0#8 :: rest) t.length 0 = .ok 0 := by
    cases t with
    | nil => rfl
    | cons c t =>
      rw [List.length_cons, skipLoop]
      simp [rd, ht c (by simp)]
  have hwr : ∃ rest', wr (t ++ w ++ 0#8 :: rest) t.length 0#8 = .ok (t ++ 0#8 :: rest') := by
    cases w with
    | nil => exact ⟨rest, by rw [List.append_nil]; exact wr_mid⟩
    | cons c w => exact ⟨w ++ 0#8 :: rest, by rw [List.append_assoc]; exact wr_mid⟩
  obtain ⟨rest', hwr⟩ := hwr
  refine ⟨t ++ 0#8 :: rest', ?_, (noZero_append.1 hz).1, rest', rfl⟩
  simp only [strtrimwhite, cstr_text hz, Res.bind_ok, if_neg h0', hlen, hskip, Nat.lt_irrefl, if_false]
  exact hwr

example : strtrimwhite [0x61#8, 0x62#8, 0x20#8, 0x0A#8, 0#8] = .ok [0x61#8, 0x62#8, 0#8, 0x0A#8, 0#8] := by decide

/-- **C97, violated.** A white character inside the text makes `uecho_strtrimwhite` cut off the last character, and of a text with one
character after a leading white character nothing but white is left; with two, the first of them is left twice. -/
theorem C97_white_violated (x y w : Byte) (hx : x ≠ 0#8) (hy : y ≠ 0#8) (hw : White w) (hxs : ¬ White x) (hys : ¬ White y) :
    strtrimwhite [x, w, y, 0#8] = .ok [x, w, 0#8, 0#8] ∧ strtrimwhite [w, x, 0#8] = .ok [w, 0#8, 0#8] ∧
      strtrimwhite [w, x, y, 0#8] = .ok [x, x, 0#8, 0#8] := by
  replace hw := (isSpace_white w).2 hw
  replace hxs := isSpace_not_white hxs
  replace hys := isSpace_not_white hys
  have hw0 : w ≠ 0#8 := by rintro rfl; revert hw; decide
  refine ⟨?_, ?_, ?_⟩ <;> simp [strtrimwhite, cstr, hx, hy, hw0, whiteLoop, skipLoop, rd, wr, rdN, wrN, hw, hxs, hys]

example : strtrimwhite [0x61#8, 0x20#8, 0x62#8, 0#8] = .ok [0x61#8, 0x20#8, 0#8, 0#8] := by decide

/-- **C98, partial** (the text is not empty). A loop that takes tokens as long as there are more gets exactly the tokens of the text, in order. -/
theorem C98_tokens_partial {s delim : List Byte} (hs : NoZero s) (hd : NoZero delim) (h0 : s ≠ []) :
    ∃ t, tokenizerNew s delim = .ok t ∧ ∀ n, s.length ≤ n → ∃ ts t', takeTokens n t = .ok (ts, t') ∧ t'.hasNext = false ∧ Tokens delim s ts := by
  obtain ⟨t, h1, h2⟩ := tokenizerNew_spec hd h0
  refine ⟨t, h1, ?_⟩
  intro n hn
  obtain ⟨us, t', h3, h4, h5⟩ := takeTokens_spec hd hs n h2
  rw [List.nil_append] at h4
  obtain ⟨_, _, ⟨h6, _, h7⟩ | ⟨h6, a, tk, rest, _, e, h7, _, hk, _⟩⟩ := h4
  · exact ⟨us, t', h3, h6, h7⟩
  · exfalso
    have := tokens_length h7
    have hl := congrArg List.length e
    have hk' := List.length_pos_iff.2 hk
    have hu := h5 h6
    simp only [List.length_append] at hl
    omega

/-- **C98, partial** (there is a next token). After any number of tokens, `uecho_string_tokenizer_nextalltoken` returns the rest of the text from the
next token on, with all its separators. -/
theorem C98_rest_partial {s delim : List Byte} (hs : NoZero s) (hd : NoZero delim) (h0 : s ≠ []) {t t' : Tok} (ht : tokenizerNew s delim = .ok t)
    {n : Nat} {ts : List (List Byte)} (hn : takeTokens n t = .ok (ts, t')) (hm : t'.hasNext = true) :
    ∃ t'' a u, nextalltoken t' = .ok t'' ∧ t''.current = .ok u ∧ t''.hasNext = false ∧ s = a ++ u ∧ Tokens delim a ts ∧
      (∀ c, a.getLast? = some c → c ∈ delim) ∧ (∃ c, u.head? = some c ∧ c ∉ delim) := by
  obtain ⟨t1, h1, h2⟩ := tokenizerNew_spec hd h0
  rw [ht] at h1; cases h1
  obtain ⟨us, t2, h3, h4, h5⟩ := takeTokens_spec hd hs n h2
  rw [hn] at h3; cases h3
  rw [List.nil_append] at h4
  obtain ⟨_, _, ⟨h6, _⟩ | ⟨_, a, tk, rest, x, e, h7, h8, hk, hkn, hr, hnx, hx, hcase⟩⟩ := h4
  · rw [hm] at h6; cases h6
  · have hz : NoZero (tk ++ rest) := by rw [e, List.append_assoc] at hs; exact (noZero_append.1 hs).2
    have hzk : NoZero tk := (noZero_append.1 hz).1
    have hhead : ∃ c, (tk ++ rest).head? = some c ∧ c ∉ delim := by
      cases tk with
      | nil => exact absurd rfl hk
      | cons c tk => exact ⟨c, rfl, hkn c (by simp)⟩
    rcases hcase with ⟨rfl, hrep, hv, hns⟩ | ⟨c, r, rfl, hrep, hv, hns⟩
    · have hc : cstr (t'.value.drop a.length) = .ok tk := by
        rw [hv, ← hx, List.append_assoc, List.drop_left]; exact cstr_text hzk []
      have hw : wr t'.value (a.length + tk.length) t'.rep = .ok (x ++ tk ++ 0#8 :: []) := by
        rw [hv, hrep, ← hx, ← List.length_append]; exact wr_mid
      refine ⟨_, a, tk ++ [], by simp only [nextalltoken, hnx, hc, Res.bind_ok, hw]; rfl, ?_, rfl, by rw [e]; simp, h7, h8, hhead⟩
      simp only [Tok.current]
      rw [← hx, List.append_assoc, List.drop_left, List.append_nil]; exact cstr_text hzk []
    · have hc : cstr (t'.value.drop a.length) = .ok tk := by
        rw [hv, ← hx, List.append_assoc, List.append_assoc, List.drop_left]; exact cstr_text hzk _
      have hw : wr t'.value (a.length + tk.length) t'.rep = .ok (x ++ tk ++ c :: (r ++ [0#8])) := by
        rw [hv, hrep, ← hx, ← List.length_append, List.append_assoc]; exact wr_mid
      refine ⟨_, a, tk ++ c :: r, by simp only [nextalltoken, hnx, hc, Res.bind_ok, hw]; rfl, ?_, rfl, by rw [e]; simp, h7, h8, hhead⟩
      simp only [Tok.current]
      rw [← hx, show x ++ tk ++ c :: (r ++ [0#8]) = x ++ (tk ++ c :: r ++ 0#8 :: []) from by simp, List.drop_left]; exact cstr_text hz []

/-- `",a,,bc,"` split at commas: `"a"` and `"bc"`; after the first token the rest is `"bc,"`. -/
example : (do
      let t ← tokenizerNew [0x2C#8, 0x61#8, 0x2C#8, 0x2C#8, 0x62#8, 0x63#8, 0x2C#8] [0x2C#8]
      let r ← takeTokens 9 t
      let q ← takeTokens 1 t
      let u ← nextalltoken q.2
      let v ← u.current
      return (r.1, q.1, q.2.hasNext, v)) =
    .ok ([[0x61#8], [0x62#8, 0x63#8]], [[0x61#8]], true, [0x62#8, 0x63#8, 0x2C#8]) := by decide +kernel

/-- **C98, violated.** Splitting an empty text reads behind its end, or never ends. -/
theorem C98_empty_violated (delim : List Byte) (hd : NoZero delim) : tokenizerNew [] delim = .ub := by
  have h0 : ∀ c, c ∈ delim → c ≠ 0#8 := hd
  cases delim with
  | nil => decide
  | cons d ds =>
    have hd0 : (0#8 : Byte) ≠ d := fun h => h0 d (by simp) h.symm
    have e : delimLoop 0 0 (⟨[0#8], d :: ds, 0, szSub 0 1, none, none, false, 0#8⟩ : Tok) (d :: ds) false =
        .ok (⟨[0#8], d :: ds, 0, szSub 0 1, none, none, false, 0#8⟩, false) :=
      delimLoop_no (c := 0#8) rfl false (fun h => h0 _ h rfl)
    have e1 : delimLoop 1 1 (⟨[0#8], d :: ds, 0, szSub 0 1, none, none, false, 0#8⟩ : Tok) (d :: ds) false = .ub := rfl
    simp only [tokenizerNew, nexttoken, List.nil_append, List.length_nil, List.length_cons, scanLoop]
    rw [if_neg (by decide), e]
    simp only [Res.bind_ok, Bool.false_eq_true, if_false]
    rw [if_neg (by decide)]
    simp only [Nat.zero_add]
    rw [e1]
    rfl

/-- **C98, violated.** Asking for the rest when there is no next token writes through a NULL pointer. -/
theorem C98_no_rest_violated (t : Tok) (h : t.next = none) : nextalltoken t = .ub := by
  simp only [nextalltoken, h]

/-- Such a tokenizer: after `",,"` has been split at commas. -/
example : (tokenizerNew [0x2C#8, 0x2C#8] [0x2C#8] >>= nextalltoken) = .ub := by decide

/-- **C99, partial** (no pattern is empty or the beginning of another, and the result is not empty). `uecho_string_replace` ends and leaves the text with
the patterns replaced from left to right. If the result is empty, the text stays as it is. -/
theorem C99_replace_partial {s : CString.Str} {text : List Byte} (hs : CString.getValue s = .ok (some text)) (hz : NoZero text)
    {ps : List (List Byte × List Byte)} (hp : PrefixFree ps) (hto : ∀ p ∈ ps, NoZero p.2) :
    ∃ s' out, replace text.length s ps = .ok (some s') ∧ Replaced ps text out ∧
      CString.getValue s' = .ok (some (if out = [] then text else out)) := by
  obtain ⟨rep, out, h1, h2, h3⟩ := replaceLoop_spec (text := text) hp text.length 0 CString.new none ⟨rfl, rfl⟩ (Nat.zero_le _) (by omega)
  rw [List.drop_zero] at h3
  by_cases ho : out = []
  · subst ho
    refine ⟨s, [], ?_, h3, by simpa using hs⟩
    have hv : CString.getValue rep = .ok none := by
      simp only [append, if_true] at h2
      unfold CString.getValue
      unfold Holds at h2
      cases hr : rep.value with
      | none => rfl
      | some m => rw [hr] at h2; exact h2.elim
    simp only [replace, hs, Res.bind_ok, Option.getD_some, h1, hv, CString.set, Res.pure_eq]
  · have hh : Holds rep (some out) := by simpa [append, ho] using h2
    have hzo := replaced_noZero hto h3 hz
    obtain ⟨s', h4, h5⟩ := set_holds s out
    refine ⟨s', out, ?_, h3, by rw [if_neg ho]; exact getValue_holds h5 hzo⟩
    simp only [replace, hs, Res.bind_ok, Option.getD_some, h1, getValue_holds hh hzo, h4, Res.pure_eq]

/-- `"abcab"` with `"ab"` → `"x"`, `"c"` → `""`: `"xx"`. -/
example : PrefixFree [([0x61#8, 0x62#8], [0x78#8]), ([0x63#8], [])] ∧
    (do
      let s ← CString.set CString.new (some [0x61#8, 0x62#8, 0x63#8, 0x61#8, 0x62#8])
      let r ← replace 5 s [([0x61#8, 0x62#8], [0x78#8]), ([0x63#8], [])]
      match r with
      | some s => CString.getValue s
      | none => .ub) = .ok (some [0x78#8, 0x78#8]) := by
  refine ⟨⟨by simp, by simp [List.cons_prefix_cons]⟩, by decide +kernel⟩

/-- **C99, violated.** If all characters are to be removed, nothing is replaced. -/
theorem C99_empty_result_violated (c : Byte) (hc : c ≠ 0#8) : Replaced [([c], [])] [c] [] ∧
    ∃ s s', CString.set CString.new (some [c]) = .ok s ∧ replace 1 s [([c], [])] = .ok (some s') ∧ CString.getValue s' = .ok (some [c]) := by
  have hr : Replaced [([c], [])] [c] [] := by
    have := Replaced.hit (ps := [([c], [])]) (before := []) (f := [c]) (to := []) (after := []) (rest := []) (out := []) rfl (by simp) .nil
    simpa using this
  refine ⟨hr, ⟨some [some c, some 0#8], 2, 1⟩, ⟨some [some c, some 0#8], 2, 1⟩, rfl, ?_, ?_⟩
  · simp [replace, CString.getValue, CString.readZ, hc, replaceLoop, replacePass, CString.add, CString.addN, CString.new, CString.set]
  · simp [CString.getValue, CString.readZ, hc]

/-- **C99, violated.** With patterns of which one begins another, a later pattern wins after a replacement: `"abc"` with `"b"` → `"x"`, `"a"` → `"y"`,
`"bc"` → `"z"` gives `"yz"` instead of `"yxc"`. -/
theorem C99_order_violated : Replaced [([0x62#8], [0x78#8]), ([0x61#8], [0x79#8]), ([0x62#8, 0x63#8], [0x7A#8])] [0x61#8, 0x62#8, 0x63#8] [0x79#8, 0x78#8, 0x63#8] ∧
    (do
      let s ← CString.set CString.new (some [0x61#8, 0x62#8, 0x63#8])
      let r ← replace 3 s [([0x62#8], [0x78#8]), ([0x61#8], [0x79#8]), ([0x62#8, 0x63#8], [0x7A#8])]
      match r with
      | some s => CString.getValue s
      | none => .ub) = .ok (some [0x79#8, 0x7A#8]) := by
  refine ⟨?_, by decide +kernel⟩
  have h1 : Replaced [([0x62#8], [0x78#8]), ([0x61#8], [0x79#8]), ([0x62#8, 0x63#8], [0x7A#8])] [0x63#8] [0x63#8] :=
    .miss (by simp [List.cons_prefix_cons]) .nil
  have h2 : Replaced [([0x62#8], [0x78#8]), ([0x61#8], [0x79#8]), ([0x62#8, 0x63#8], [0x7A#8])] ([0x62#8] ++ [0x63#8]) ([0x78#8] ++ [0x63#8]) :=
    .hit (before := []) rfl (by simp) h1
  exact .hit (before := [([0x62#8], [0x78#8])]) (f := [0x61#8]) (to := [0x79#8]) (rest := [0x62#8, 0x63#8]) rfl (by simp [List.cons_prefix_cons]) h2

/-- **C99, violated.** With an empty pattern the replacement never ends, whatever the text. -/
theorem C99_empty_pattern_violated {s : CString.Str} {text : List Byte} (hs : CString.getValue s = .ok (some text)) (h0 : text ≠ []) (to : List Byte)
    (fuel : Nat) : replace fuel s [([], to)] = .ok none := by
  have key : ∀ (fuel : Nat) (rep : CString.Str) (acc : Option (List Byte)), Holds rep acc → replaceLoop text [([], to)] fuel 0 rep = .ok none := by
    intro fuel
    induction fuel with
    | zero =>
      intro rep acc h
      unfold replaceLoop
      rw [if_neg (by have := List.length_pos_iff.2 h0; omega)]
    | succ fuel ih =>
      intro rep acc h
      obtain ⟨rep1, e1, h1⟩ := add_holds h to
      unfold replaceLoop
      rw [if_neg (by have := List.length_pos_iff.2 h0; omega)]
      simp only [replacePass, List.isPrefixOf_nil_left, if_true, e1, Res.bind_ok, List.length_nil, Nat.add_zero]
      exact ih rep1 _ h1
  simp only [replace, hs, Res.bind_ok, Option.getD_some, key fuel CString.new none ⟨rfl, rfl⟩, Res.pure_eq]

/-- **C100, partial** (the added text is shorter than `cnt`, and the buffer has room for `cnt` characters). `uecho_strncat` appends the text. -/
theorem C100_append_partial {m s : List Byte} (hm : HoldsText m s) {u : List Byte} (hu : NoZero u) {cnt : Nat} (hc : u.length < cnt)
    (hroom : s.length + cnt ≤ m.length) : ∃ m', strncat m u cnt = .ok m' ∧ HoldsText m' (s ++ u) ∧ m'.length = m.length := by
  obtain ⟨hz, rest, rfl⟩ := hm
  have hrep : List.replicate (cnt - u.length) 0#8 = 0#8 :: List.replicate (cnt - u.length - 1) 0#8 := by
    rw [← List.replicate_succ]; congr 1; omega
  have hl : (u ++ List.replicate (cnt - u.length) 0#8).length = cnt := by simp; omega
  refine ⟨s ++ (u ++ List.replicate (cnt - u.length) 0#8) ++ (s ++ 0#8 :: rest).drop (s.length + cnt), ?_,
    ⟨noZero_append.2 ⟨hz, hu⟩, List.replicate (cnt - u.length - 1) 0#8 ++ (s ++ 0#8 :: rest).drop (s.length + cnt), by rw [hrep]; simp⟩, ?_⟩
  · simp only [strncat, cstr_text hz, Res.bind_ok, strncpyAt, wrN]
    rw [List.take_of_length_le (by omega), hl, if_pos hroom, List.take_left]
  · rw [List.length_append, List.length_append, hl, List.length_drop]; omega

example : strncat [0x61#8, 0#8, 9#8, 9#8, 9#8] [0x62#8] 2 = .ok [0x61#8, 0x62#8, 0#8, 9#8, 9#8] := by decide

/-- **C100, violated.** If the added text has `cnt` or more characters, the result has no terminator: a reader goes on with what follows in the buffer. -/
theorem C100_unterminated_violated {m s : List Byte} (hm : HoldsText m s) {u : List Byte} (hu : NoZero u) {cnt : Nat} (hc : cnt ≤ u.length)
    (hroom : s.length + cnt ≤ m.length) : ∃ m', strncat m u cnt = .ok m' ∧
      cstr m' = (do let r ← cstr (m.drop (s.length + cnt)); return s ++ u.take cnt ++ r) := by
  obtain ⟨hz, rest, rfl⟩ := hm
  have hl : (u.take cnt).length = cnt := by simp; omega
  have hr : List.replicate (cnt - u.length) (0#8 : Byte) = [] := by rw [Nat.sub_eq_zero_of_le hc]; rfl
  refine ⟨s ++ u.take cnt ++ (s ++ 0#8 :: rest).drop (s.length + cnt), ?_, ?_⟩
  · simp only [strncat, cstr_text hz, Res.bind_ok, strncpyAt, wrN, hr, List.append_nil]
    rw [hl, if_pos hroom, List.take_left]
  · have key : ∀ (a r : List Byte), NoZero a → cstr (a ++ r) = (do let x ← cstr r; return a ++ x) := by
      intro a r ha
      induction a with
      | nil => cases h : cstr r <;> simp [h]
      | cons c a ih =>
        rw [noZero_cons] at ha
        rw [List.cons_append, cstr, if_neg ha.1, ih ha.2]
        cases h : cstr r <;> simp
    exact key _ _ (noZero_append.2 ⟨hz, fun c h => hu c (List.mem_of_mem_take h)⟩)

/-- `"a"` and `"b"` of `"bc"`: the reader sees the old content behind. -/
example : (strncat [0x61#8, 0#8, 0x78#8, 0#8] [0x62#8, 0x63#8] 1 >>= cstr) = .ok [0x61#8, 0x62#8, 0x78#8] := by decide

end Uecho.Props
