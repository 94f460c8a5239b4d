import Verif.Spec.Strings
import Verif.Lemmas.CString
/-! # Lemmas for the string functions -/
namespace Uecho.Lemmas
open Uecho Uecho.Spec Uecho.Strings

theorem noZero_nil : NoZero [] := by intro c h; cases h
theorem noZero_cons {c : Byte} {s : List Byte} : NoZero (c :: s) ↔ c ≠ 0#8 ∧ NoZero s := by simp [NoZero]
theorem noZero_append {s u : List Byte} : NoZero (s ++ u) ↔ NoZero s ∧ NoZero u := by
  simp only [NoZero, List.mem_append]
  exact ⟨fun h => ⟨fun c hc => h c (.inl hc), fun c hc => h c (.inr hc)⟩, fun h c hc => hc.elim (h.1 c) (h.2 c)⟩

theorem cstr_text {s : List Byte} (h : NoZero s) (rest : List Byte) : cstr (s ++ 0#8 :: rest) = .ok s := by
  induction s with
  | nil => rfl
  | cons c s ih =>
    rw [noZero_cons] at h
    simp only [List.cons_append, cstr, if_neg h.1, ih h.2, Res.bind_ok, Res.pure_eq]

theorem cstr_inv : ∀ {m s : List Byte}, cstr m = .ok s → HoldsText m s := by
  intro m
  induction m with
  | nil => intro s h; cases h
  | cons c m ih =>
    intro s h
    unfold cstr at h
    split at h
    · rename_i hc; cases h; exact ⟨noZero_nil, m, by rw [hc]; rfl⟩
    · rename_i hc
      obtain ⟨cs, h1, h2⟩ := Res.bind_eq_ok.1 h
      cases h2
      obtain ⟨h3, rest, h4⟩ := ih h1
      exact ⟨noZero_cons.2 ⟨hc, h3⟩, rest, by rw [h4]; rfl⟩

theorem hasChar_ok (chars : List Byte) (c : Byte) : ∀ k j, j + k ≤ chars.length → hasChar chars c k j = .ok (decide (c ∈ (chars.drop j).take k)) := by
  intro k
  induction k with
  | zero => intro j _; simp [hasChar]
  | succ k ih =>
    intro j hj
    have hlt : j < chars.length := by omega
    rw [List.drop_eq_getElem_cons hlt, List.take_succ_cons]
    simp only [hasChar, rd, List.getElem?_eq_getElem hlt, Res.bind_ok]
    split
    · rename_i hc; simp [hc]
    · rename_i hc; rw [ih (j + 1) (by omega)]; simp [hc]

theorem hasChar_zero {chars : List Byte} {n : Nat} (hn : n ≤ chars.length) (c : Byte) : hasChar chars c n 0 = .ok (decide (c ∈ chars.take n)) := by
  rw [hasChar_ok chars c n 0 (by omega), List.drop_zero]

theorem ltrimLoop_ok {delim : List Byte} {n : Nat} (hn : n ≤ delim.length) : ∀ (s : List Byte) (i : Nat),
    ltrimLoop delim n s i = .ok (i + (s.takeWhile (· ∈ delim.take n)).length) := by
  intro s
  induction s with
  | nil => intro i; rfl
  | cons c s ih =>
    intro i
    simp only [ltrimLoop, hasChar_zero hn, Res.bind_ok]
    by_cases hc : c ∈ delim.take n
    · simp [hc, ih]; omega
    · simp [hc]

/-- The characters of `set` at the end are dropped. -/
theorem rtrimLoop_ok {delim : List Byte} {n : Nat} (hn : n ≤ delim.length) : ∀ (k : Nat) (s : List Byte) (rest : List Byte), s.length = k →
    ∃ t b rest', s = t ++ b ∧ (∀ c ∈ b, c ∈ delim.take n) ∧ (∀ c, t.getLast? = some c → c ∉ delim.take n) ∧
      rtrimLoop delim n (s ++ 0#8 :: rest) k = .ok (t ++ 0#8 :: rest') := by
  intro k
  induction k with
  | zero =>
    intro s rest hs
    have : s = [] := List.length_eq_zero_iff.1 hs
    subst this
    exact ⟨[], [], rest, rfl, by simp, by simp, rfl⟩
  | succ k ih =>
    intro s rest hs
    obtain ⟨s0, c, rfl⟩ : ∃ s0 c, s = s0 ++ [c] := ⟨s.dropLast, s.getLast (by intro h; simp [h] at hs), (List.dropLast_concat_getLast _).symm⟩
    have hk : s0.length = k := by simpa using hs
    have hrd : rd (s0 ++ [c] ++ 0#8 :: rest) k = .ok c := by simp [rd, ← hk]
    have hwr : wr (s0 ++ [c] ++ 0#8 :: rest) k 0#8 = .ok (s0 ++ 0#8 :: 0#8 :: rest) := by
      rw [← hk, List.append_assoc]; exact wr_mid
    simp only [rtrimLoop, hrd, hasChar_zero hn, Res.bind_ok]
    by_cases hc : c ∈ delim.take n
    · obtain ⟨t, b, rest', h1, h2, h3, h4⟩ := ih s0 (0#8 :: rest) hk
      refine ⟨t, b ++ [c], rest', by rw [h1, List.append_assoc], ?_, h3, ?_⟩
      · intro x hx
        rcases List.mem_append.1 hx with hx | hx
        · exact h2 x hx
        · rw [List.mem_singleton.1 hx]; exact hc
      · simp only [hc, decide_true, if_true, hwr, Res.bind_ok]; exact h4
    · refine ⟨s0 ++ [c], [], rest, by simp, by simp, ?_, by simp [hc]⟩
      intro x hx
      simp at hx
      subst hx
      exact hc

/-! ## Tokenizer -/

theorem delimLoop_no {i k : Nat} {t : Tok} {c : Byte} (hrd : rd t.value i = .ok c) : ∀ {ds : List Byte} (b : Bool), c ∉ ds →
    delimLoop i k t ds b = .ok (t, b) := by
  intro ds
  induction ds with
  | nil => intro b _; rfl
  | cons d ds ih =>
    intro b h
    simp only [List.mem_cons, not_or] at h
    simp only [delimLoop, hrd, Res.bind_ok, if_neg h.1]
    exact ih b h.2

theorem delimLoop_skip {i : Nat} {t : Tok} {c : Byte} (hrd : rd t.value i = .ok c) : ∀ {ds : List Byte} (b : Bool), c ∈ ds →
    delimLoop i 0 t ds b = .ok ({ t with nextStart := i + 1 }, true) := by
  intro ds
  induction ds with
  | nil => intro b h; cases h
  | cons d ds ih =>
    intro b h
    simp only [delimLoop, hrd, Res.bind_ok, if_true]
    split
    · rfl
    · rename_i hc
      exact ih b ((List.mem_cons.1 h).resolve_left hc)

theorem delimLoop_end {i k : Nat} (hk : k ≠ 0) {t : Tok} {c : Byte} (hrd : rd t.value i = .ok c) {v : List Byte} (hwr : wr t.value i 0#8 = .ok v)
    (hv : rd v i = .ok 0#8) : ∀ {ds : List Byte} (b : Bool), c ∈ ds → NoZero ds →
    delimLoop i k t ds b = .ok ({ t with hasNext := true, rep := c, value := v, next := some t.nextStart, nextStart := i + 1 }, true) := by
  intro ds
  induction ds with
  | nil => intro b h; cases h
  | cons d ds ih =>
    intro b h hz
    simp only [delimLoop, hrd, Res.bind_ok, if_neg hk]
    split
    · rename_i hc
      rw [hwr, Res.bind_ok]
      refine delimLoop_no (c := 0#8) hv _ ?_
      intro h0
      exact (noZero_cons.1 hz).2 _ h0 rfl
    · rename_i hc
      exact ih b ((List.mem_cons.1 h).resolve_left hc) (noZero_cons.1 hz).2

/-- What `nexttoken` makes of the rest of the text. -/
def found (t : Tok) (pre d tk : List Byte) : List Byte → Tok
  | [] => { t with nextStart := pre.length + d.length }
  | c :: r =>
      { t with
        hasNext := true, rep := c, value := pre ++ d ++ tk ++ 0#8 :: r ++ [0#8], next := some (pre.length + d.length),
        nextStart := pre.length + d.length + tk.length + 1 }

theorem scan_spec {D : List Byte} (hD : NoZero D) : ∀ (r : List Byte) (fuel : Nat) (pre tok : List Byte) (t : Tok), r.length < fuel →
    t.value = pre ++ tok ++ r ++ [0#8] → t.nextStart = pre.length → t.lastPos + 1 = pre.length + tok.length + r.length →
    t.hasNext = false → t.delim = D → (∀ c ∈ tok, c ∉ D) →
    ∃ d tk rest, tok ++ r = d ++ tk ++ rest ∧ (∀ c ∈ d, c ∈ D) ∧ (∀ c ∈ tk, c ∉ D) ∧ (∀ c, rest.head? = some c → c ∈ D) ∧
      (tk = [] → rest = []) ∧ scanLoop fuel (pre.length + tok.length) tok.length t = .ok (found t pre d tk rest, tk.length) := by
  intro r
  induction r with
  | nil =>
    intro fuel pre tok t hf hv hn hl hh hd ht
    cases fuel with
    | zero => cases hf
    | succ fuel =>
      refine ⟨[], tok, [], by simp, by simp, ht, by simp, fun _ => rfl, ?_⟩
      simp only [List.length_nil] at hl
      simp only [scanLoop]
      rw [if_pos (by omega)]
      cases t; simp only at hn; simp [found, hn]
  | cons c r ih =>
    intro fuel pre tok t hf hv hn hl hh hd ht
    cases fuel with
    | zero => cases hf
    | succ fuel =>
      simp only [List.length_cons] at hl hf
      have hrd : rd t.value (pre.length + tok.length) = .ok c := by
        rw [hv, ← List.length_append]; simp [rd]
      simp only [scanLoop]
      rw [if_neg (by omega), hd]
      by_cases hc : c ∈ D
      · by_cases hk : tok = []
        · subst hk
          obtain ⟨d, tk, rest, h1, h2, h3, h4, h5, h6⟩ := ih fuel (pre ++ [c]) [] { t with nextStart := pre.length + 1 } (by omega)
            (by simp [hv]) (by simp) (by simp only [List.length_append, List.length_cons, List.length_nil] at *; omega) hh hd (by simp)
          refine ⟨c :: d, tk, rest, by simpa using h1, ?_, h3, h4, h5, ?_⟩
          · intro x hx
            rcases List.mem_cons.1 hx with rfl | hx
            · exact hc
            · exact h2 x hx
          · have hrd' : rd t.value (pre.length + 0) = .ok c := hrd
            rw [List.length_nil, delimLoop_skip hrd' _ hc]
            simp only [Res.bind_ok, hh, Bool.false_eq_true, if_false, if_true, Nat.add_zero]
            simp only [List.length_append, List.length_cons, List.length_nil, Nat.add_zero] at h6
            rw [show pre.length + (0 + 1) = pre.length + 1 from by omega] at h6
            rw [hh] at h6
            refine h6.trans ?_
            cases rest <;> simp [found, hh] <;> omega
        · have hk' : tok.length ≠ 0 := fun h => hk (List.length_eq_zero_iff.1 h)
          refine ⟨[], tok, c :: r, by simp, by simp, ht, by simp [hc], fun h => absurd h hk, ?_⟩
          have hwr : wr t.value (pre.length + tok.length) 0#8 = .ok (pre ++ tok ++ 0#8 :: (r ++ [0#8])) := by
            rw [hv, ← List.length_append, List.append_assoc, List.cons_append]; exact wr_mid
          rw [delimLoop_end hk' hrd hwr (by rw [← List.length_append]; simp [rd]) _ hc hD]
          simp [found, hn]
      · obtain ⟨d, tk, rest, h1, h2, h3, h4, h5, h6⟩ := ih fuel pre (tok ++ [c]) t (by omega) (by simp [hv]) hn
          (by simp only [List.length_append, List.length_cons, List.length_nil]; omega) hh hd (by
            intro x hx
            rcases List.mem_append.1 hx with hx | hx
            · exact ht x hx
            · rw [List.mem_singleton.1 hx]; exact hc)
        refine ⟨d, tk, rest, by simpa using h1, h2, h3, h4, h5, ?_⟩
        rw [delimLoop_no hrd _ hc]
        simp only [Res.bind_ok, hh, Bool.false_eq_true, if_false]
        simpa [Nat.add_assoc] using h6

theorem tokens_snoc {D : List Byte} {a : List Byte} {ss : List (List Byte)} (h : Tokens D a ss) (ha : ∀ c, a.getLast? = some c → c ∈ D) {tk dd : List Byte}
    (hk : tk ≠ []) (hn : ∀ c ∈ tk, c ∉ D) (hd : ∀ c ∈ dd, c ∈ D) : Tokens D (a ++ tk ++ dd) (ss ++ [tk]) := by
  have hh : ∀ c, dd.head? = some c → c ∈ D := fun c hc => hd c (List.mem_of_mem_head? hc)
  induction h with
  | none h1 => exact .some h1 hk hn hh (.none hd)
  | @some d t rest ts h1 h2 h3 h4 h5 ih =>
    cases rest with
    | nil =>
      exfalso
      have hl := ha (t.getLast h2) (by rw [List.append_nil, List.getLast?_append, List.getLast?_eq_some_getLast h2]; rfl)
      exact h3 _ (List.getLast_mem h2) hl
    | cons c rest =>
      have := ih (by
        intro x hx
        refine ha x ?_
        rw [List.getLast?_append, hx]; rfl)
      rw [show d ++ t ++ c :: rest ++ tk ++ dd = d ++ t ++ (c :: rest ++ tk ++ dd) from by simp]
      exact .some h1 h2 h3 (fun x hx => h4 x (by simpa using hx)) this

/-- The state of the tokenizer over the text `s` after the tokens `ss` have been taken. -/
def TokInv (s D : List Byte) (ss : List (List Byte)) (t : Tok) : Prop :=
  t.delim = D ∧ t.lastPos + 1 = s.length ∧
  ((t.hasNext = false ∧ t.next = none ∧ Tokens D s ss) ∨
   (t.hasNext = true ∧ ∃ a tk rest x, s = a ++ tk ++ rest ∧ Tokens D a ss ∧ (∀ c, a.getLast? = some c → c ∈ D) ∧ tk ≠ [] ∧ (∀ c ∈ tk, c ∉ D) ∧
      (∀ c, rest.head? = some c → c ∈ D) ∧ t.next = some a.length ∧ x.length = a.length ∧
      ((rest = [] ∧ t.rep = 0#8 ∧ t.value = x ++ tk ++ [0#8] ∧ t.nextStart = s.length) ∨
       (∃ c r, rest = c :: r ∧ t.rep = c ∧ t.value = x ++ tk ++ 0#8 :: r ++ [0#8] ∧ t.nextStart = a.length + tk.length + 1))))

/-- One call scans on from a state whose unread text is `r`; `a0` is the text before it, whose tokens are `ss`. -/
theorem nexttoken_spec {s D : List Byte} (hD : NoZero D) {ss : List (List Byte)} {a0 r : List Byte} (hs : s = a0 ++ r) (ha : Tokens D a0 ss)
    (hla : r ≠ [] → ∀ c, a0.getLast? = some c → c ∈ D) {t : Tok} {pre : List Byte} (hpre : pre.length = a0.length) (hv : t.value = pre ++ r ++ [0#8])
    (hn : t.nextStart = pre.length) (hl : t.lastPos + 1 = s.length) (hd : t.delim = D) :
    ∃ t', nexttoken t = .ok t' ∧ t'.curr = t.next ∧ (∃ v, t'.value = pre ++ v ∧ v.length = r.length + 1 ∧ (r = [] → v = [0#8])) ∧ TokInv s D ss t' := by
  obtain ⟨d, tk, rest, h1, h2, h3, h4, h5, h6⟩ := scan_spec hD r (t.value.length + 1) pre []
    { t with curr := t.next, next := none, hasNext := false, rep := 0#8 } (by simp [hv]; omega) (by simpa using hv) hn
    (by simp only [hl, hs, List.length_append, List.length_nil]; omega) rfl hd (by simp)
  simp only [List.length_nil, Nat.add_zero, List.nil_append] at h6 h1
  have tok_none : Tokens D (a0 ++ d) ss := by
    by_cases hr : r = []
    · subst hr
      have : d = [] := by simp at h1; exact h1.1
      rw [this, List.append_nil]; exact ha
    · have : ∀ {a : List Byte} {ss : List (List Byte)}, Tokens D a ss → (∀ c, a.getLast? = some c → c ∈ D) → Tokens D (a ++ d) ss := by
        intro a ss h
        induction h with
        | none h => intro _; exact .none fun c hc => (List.mem_append.1 hc).elim (h c) (h2 c)
        | @some d0 t0 rest0 ts0 g1 g2 g3 g4 g5 ih =>
          intro hl
          rw [List.append_assoc]
          refine .some g1 g2 g3 ?_ (ih ?_)
          · intro c hc
            cases rest0 with
            | nil => exact h2 c (List.mem_of_mem_head? hc)
            | cons e rest0 => exact g4 c (by simpa using hc)
          · intro c hc
            exact hl c (by rw [List.getLast?_append, hc]; rfl)
      exact this ha (hla hr)
  have last_ok : r ≠ [] → ∀ c, (a0 ++ d).getLast? = some c → c ∈ D := by
    intro hr c hc
    rw [List.getLast?_append] at hc
    cases hg : d.getLast? with
    | none => rw [hg] at hc; exact hla hr c (by simpa using hc)
    | some e =>
      rw [hg] at hc
      simp at hc
      subst hc
      exact h2 _ (List.mem_of_getLast? hg)
  have hns : nexttoken t = (if (found { t with curr := t.next, next := none, hasNext := false, rep := 0#8 } pre d tk rest).hasNext = false ∧ 0 < tk.length then
      .ok { found { t with curr := t.next, next := none, hasNext := false, rep := 0#8 } pre d tk rest with
        hasNext := true,
        next := some (found { t with curr := t.next, next := none, hasNext := false, rep := 0#8 } pre d tk rest).nextStart,
        nextStart := (found { t with curr := t.next, next := none, hasNext := false, rep := 0#8 } pre d tk rest).lastPos + 1 }
      else .ok (found { t with curr := t.next, next := none, hasNext := false, rep := 0#8 } pre d tk rest)) := by
    unfold nexttoken
    rw [show t.nextStart = pre.length from hn] at h6 ⊢
    rw [h6]
    rfl
  cases rest with
  | nil =>
    rw [List.append_nil] at h1
    by_cases hk : tk = []
    · subst hk
      rw [List.append_nil] at h1
      subst h1
      rw [if_neg (by simp)] at hns
      refine ⟨_, hns, rfl, ⟨r ++ [0#8], by simp [found, hv], by simp, by rintro rfl; rfl⟩, hd, hl, .inl ⟨rfl, rfl, ?_⟩⟩
      rw [hs]; exact tok_none
    · have hk' : 0 < tk.length := List.length_pos_iff.2 hk
      rw [if_pos ⟨rfl, hk'⟩] at hns
      refine ⟨_, hns, rfl, ⟨r ++ [0#8], by simp [found, hv], by simp, by rintro rfl; rfl⟩, hd, hl,
        .inr ⟨rfl, a0 ++ d, tk, [], pre ++ d, by rw [hs, h1]; simp, tok_none, last_ok (by intro h; simp [h, hk] at h1), hk, h3, by simp, ?_, ?_, .inl ⟨rfl, rfl, ?_, ?_⟩⟩⟩
      · simp [found, hpre]
      · simp [hpre]
      · simp [found, hv, h1]
      · exact hl
  | cons c r' =>
    have hk : tk ≠ [] := fun h => by cases h5 h
    rw [if_neg (by simp [found])] at hns
    refine ⟨_, hns, rfl, ⟨d ++ tk ++ 0#8 :: r' ++ [0#8], by simp [found], by simp [h1]; omega, ?_⟩, hd, hl,
        .inr ⟨rfl, a0 ++ d, tk, c :: r', pre ++ d, by rw [hs, h1]; simp, tok_none, last_ok (by intro h; simp [h, hk] at h1), hk, h3, h4, ?_, ?_, .inr ⟨c, r', rfl, rfl, ?_, ?_⟩⟩⟩
    · rintro rfl; simp at h1
    · simp [found, hpre]
    · simp [hpre]
    · simp [found]
    · simp [found, hpre]

/-- Taking the pending token. -/
theorem take_one {s D : List Byte} (hD : NoZero D) (hs : NoZero s) {ss : List (List Byte)} {t : Tok} (h : TokInv s D ss t) (hh : t.hasNext = true) :
    ∃ t' tk, nexttoken t = .ok t' ∧ t'.current = .ok tk ∧ TokInv s D (ss ++ [tk]) t' := by
  obtain ⟨hd, hl, ⟨h0, _⟩ | ⟨_, a, tk, rest, x, e, hta, hla, hk, hkn, hr, hnx, hx, hcase⟩⟩ := h
  · rw [hh] at h0; cases h0
  · have hz : NoZero tk := (noZero_append.1 (noZero_append.1 (e ▸ hs)).1).2
    have hcur : ∀ (t' : Tok) v, t'.curr = t.next → t'.value = x ++ tk ++ 0#8 :: v → t'.current = .ok tk := by
      intro t' v h1 h2
      unfold Tok.current
      rw [h1, hnx, h2]
      simp only
      rw [← hx, List.append_assoc, List.drop_left]
      exact cstr_text hz v
    rcases hcase with ⟨rfl, hrep, hv, hn⟩ | ⟨c, r, rfl, hrep, hv, hn⟩
    · rw [List.append_nil] at e
      obtain ⟨t', h1, h2, ⟨v, h3, h4, h5⟩, h6⟩ := nexttoken_spec hD (a0 := a ++ tk) (r := []) (s := s) (ss := ss ++ [tk]) (by rw [e]; simp)
        (by have := tokens_snoc hta hla hk hkn (dd := []) (by simp); simpa using this) (fun h => absurd rfl h) (t := t) (pre := x ++ tk) (by simp [hx]) (by simp [hv])
        (by rw [hn, e]; simp [hx]) hl hd
      refine ⟨t', tk, h1, hcur t' [] h2 ?_, h6⟩
      rw [h3, h5 rfl]
    · have hcD := hr c rfl
      obtain ⟨t', h1, h2, ⟨v, h3, h4, h5⟩, h6⟩ := nexttoken_spec hD (a0 := a ++ tk ++ [c]) (r := r) (s := s) (ss := ss ++ [tk]) (by rw [e]; simp)
        (tokens_snoc hta hla hk hkn (dd := [c]) (by simp [hcD])) (by intro _ y hy; simp at hy; rw [← hy]; exact hcD) (t := t)
        (pre := x ++ tk ++ [0#8]) (by simp [hx]) (by simp [hv]) (by rw [hn]; simp [hx]; omega) hl hd
      refine ⟨t', tk, h1, hcur t' v h2 ?_, h6⟩
      rw [h3]; simp

end Uecho.Lemmas

namespace Uecho.Lemmas
open Uecho Uecho.Spec Uecho.Strings Uecho.CString

theorem takeTokens_spec {s D : List Byte} (hD : NoZero D) (hs : NoZero s) : ∀ (n : Nat) {ss : List (List Byte)} {t : Tok}, TokInv s D ss t →
    ∃ us t', takeTokens n t = .ok (us, t') ∧ TokInv s D (ss ++ us) t' ∧ (t'.hasNext = true → us.length = n) := by
  intro n
  induction n with
  | zero => intro ss t h; exact ⟨[], t, rfl, by simpa using h, fun _ => rfl⟩
  | succ n ih =>
    intro ss t h
    by_cases hh : t.hasNext = true
    · obtain ⟨t1, tk, h1, h2, h3⟩ := take_one hD hs h hh
      obtain ⟨us, t2, h4, h5, h6⟩ := ih h3
      refine ⟨tk :: us, t2, ?_, by simpa using h5, fun h => by rw [List.length_cons, h6 h]⟩
      unfold takeTokens
      rw [if_pos hh, h1, Res.bind_ok, h2, Res.bind_ok, h4]
      rfl
    · refine ⟨[], t, ?_, by simpa using h, fun h => absurd h hh⟩
      unfold takeTokens
      rw [if_neg hh]

theorem tokenizerNew_spec {s D : List Byte} (hD : NoZero D) (h0 : s ≠ []) : ∃ t, tokenizerNew s D = .ok t ∧ TokInv s D [] t := by
  have hl : szSub s.length 1 + 1 = s.length := by
    have := List.length_pos_iff.2 h0
    unfold szSub; rw [if_pos (by omega)]; omega
  obtain ⟨t', h1, _, _, h2⟩ := nexttoken_spec hD (s := s) (ss := []) (a0 := []) (r := s) (by simp) (.none (by simp)) (by simp)
    (t := ⟨s ++ [0#8], D, 0, szSub s.length 1, none, none, false, 0#8⟩) (pre := []) rfl rfl rfl hl rfl
  exact ⟨t', h1, h2⟩

theorem tokens_length {D : List Byte} : ∀ {s : List Byte} {ts : List (List Byte)}, Tokens D s ts → ts.length ≤ s.length := by
  intro s ts h
  induction h with
  | none => simp
  | some h1 h2 h3 h4 h5 ih =>
    have := List.length_pos_iff.2 h2
    simp only [List.length_append, List.length_cons]; omega

/-! ## Replacement -/

theorem getValue_holds {s : Str} {v : List Byte} (h : Holds s (some v)) (hz : NoZero v) : getValue s = .ok (some v) := by
  unfold Holds at h
  unfold getValue
  cases hv : s.value with
  | none => rw [hv] at h; exact h.elim
  | some m =>
    rw [hv] at h
    obtain ⟨_, _, _, rest, h⟩ := h
    simp only [h, readZ_holds, Res.bind_ok, Res.pure_eq]
    congr 2
    have : ∀ v : List Byte, NoZero v → v.takeWhile (· ≠ 0#8) = v := by
      intro v
      induction v with
      | nil => intro _; rfl
      | cons c v ih =>
        intro hz
        rw [noZero_cons] at hz
        rw [List.takeWhile_cons_of_pos (by simpa using hz.1), ih hz.2]
    exact this v hz

theorem set_holds (s : Str) (v : List Byte) : ∃ s', set s (some v) = .ok s' ∧ Holds s' (some v) := by
  obtain ⟨s', h1, h2⟩ := holds_setN (s := new) (t := none) ⟨rfl, rfl⟩ (some v) v.length (by simp [TextOp.Ok])
  exact ⟨s', h1, by simpa [TextOp.apply] using h2⟩

theorem add_holds {s : Str} {t : Option (List Byte)} (h : Holds s t) (v : List Byte) : ∃ s', add s (some v) = .ok s' ∧ Holds s' (append t v) := by
  obtain ⟨s', h1, h2⟩ := holds_addN h (some v) v.length (by simp [TextOp.Ok])
  exact ⟨s', h1, by simpa [TextOp.apply] using h2⟩

theorem unique_match {ps : List (List Byte × List Byte)} (hp : PrefixFree ps) {f to : List Byte} (hm : (f, to) ∈ ps) {r : List Byte} :
    ∃ before after, ps = before ++ (f, to) :: after ∧ ∀ p ∈ before, ¬ p.1 <+: f ++ r := by
  obtain ⟨a, b, rfl⟩ := List.append_of_mem hm
  refine ⟨a, b, rfl, ?_⟩
  intro p hpa hpre
  obtain ⟨h1, h2⟩ := (List.pairwise_append.1 hp.2).2.2 p hpa (f, to) (by simp)
  rcases Nat.le_total p.1.length f.length with h | h
  · exact h1 (List.prefix_of_prefix_length_le hpre (List.prefix_append f r) h)
  · exact h2 (List.prefix_of_prefix_length_le (List.prefix_append f r) hpre h)

/-- One pass over the patterns `qs`. -/
theorem replacePass_spec {text : List Byte} {ps : List (List Byte × List Byte)} (hp : PrefixFree ps) : ∀ (qs : List (List Byte × List Byte)),
    (∀ q ∈ qs, q ∈ ps) → ∀ (pos : Nat) (r : Bool) (rep : Str) (acc : Option (List Byte)), Holds rep acc → pos ≤ text.length →
    ∃ pos' r' rep' o, replacePass text qs pos r rep = .ok (pos', r', rep') ∧ Holds rep' (append acc o) ∧ pos ≤ pos' ∧ pos' ≤ text.length ∧
      (∀ out, Replaced ps (text.drop pos') out → Replaced ps (text.drop pos) (o ++ out)) ∧
      (r = true → r' = true) ∧ (r' = true → r = true ∨ pos < pos') ∧ (r' = false → pos' = pos ∧ o = [] ∧ ∀ q ∈ qs, ¬ q.1 <+: text.drop pos) := by
  intro qs
  induction qs with
  | nil =>
    intro _ pos r rep acc h hl
    exact ⟨pos, r, rep, [], rfl, by simpa [append] using h, Nat.le_refl _, hl, by simp, id, fun h => .inl h, by simp⟩
  | cons q qs ih =>
    intro hq pos r rep acc h hl
    obtain ⟨f, to⟩ := q
    have hm : (f, to) ∈ ps := hq _ (by simp)
    have hqs : ∀ q ∈ qs, q ∈ ps := fun q h => hq q (by simp [h])
    by_cases hpre : f <+: text.drop pos
    · obtain ⟨rest, hrest⟩ := hpre
      have hne : 0 < f.length := List.length_pos_iff.2 (hp.1 _ hm)
      have hlen := congrArg List.length hrest
      simp only [List.length_append, List.length_drop] at hlen
      obtain ⟨rep1, e1, h1⟩ := add_holds h to
      obtain ⟨pos', r', rep', o, g1, g2, g3, g4, g5, g0, g6, g7⟩ := ih hqs (pos + f.length) true rep1 _ h1 (by omega)
      refine ⟨pos', r', rep', to ++ o, ?_, ?_, by omega, g4, ?_, fun _ => g0 rfl, fun _ => .inr (by omega), ?_⟩
      · unfold replacePass
        rw [if_pos (List.isPrefixOf_iff_prefix.2 ⟨rest, hrest⟩), e1, Res.bind_ok, g1]
      · rw [← append_append]; exact g2
      · intro out ho
        have hd : text.drop (pos + f.length) = rest := by
          rw [← List.drop_drop, ← hrest, List.drop_left]
        have := g5 out ho
        rw [hd] at this
        obtain ⟨before, after, e2, h2⟩ := unique_match hp hm (r := rest)
        rw [← hrest, List.append_assoc]
        exact .hit e2 h2 this
      · intro hr
        rw [g0 rfl] at hr; cases hr
    · obtain ⟨pos', r', rep', o, g1, g2, g3, g4, g5, g0, g6, g7⟩ := ih hqs pos r rep acc h hl
      refine ⟨pos', r', rep', o, ?_, g2, g3, g4, g5, g0, g6, ?_⟩
      · unfold replacePass
        rw [if_neg (fun h => hpre (List.isPrefixOf_iff_prefix.1 h)), g1]
      · intro hr
        obtain ⟨a, b, c⟩ := g7 hr
        refine ⟨a, b, ?_⟩
        intro q hq
        rcases List.mem_cons.1 hq with rfl | hq
        · exact hpre
        · exact c q hq


theorem replaceLoop_spec {text : List Byte} {ps : List (List Byte × List Byte)} (hp : PrefixFree ps) : ∀ (fuel pos : Nat) (rep : Str)
    (acc : Option (List Byte)), Holds rep acc → pos ≤ text.length → text.length ≤ pos + fuel →
    ∃ rep' out, replaceLoop text ps fuel pos rep = .ok (some rep') ∧ Holds rep' (append acc out) ∧ Replaced ps (text.drop pos) out := by
  intro fuel
  induction fuel with
  | zero =>
    intro pos rep acc h hl hf
    refine ⟨rep, [], ?_, by simpa [append] using h, ?_⟩
    · unfold replaceLoop; rw [if_pos (by omega)]
    · rw [List.drop_eq_nil_of_le (by omega)]; exact .nil
  | succ fuel ih =>
    intro pos rep acc h hl hf
    by_cases hend : text.length ≤ pos
    · refine ⟨rep, [], ?_, by simpa [append] using h, ?_⟩
      · unfold replaceLoop; rw [if_pos hend]
      · rw [List.drop_eq_nil_of_le hend]; exact .nil
    · obtain ⟨pos', r', rep', o, g1, g2, g3, g4, g5, _, g6, g7⟩ := replacePass_spec hp ps (fun _ h => h) pos false rep acc h hl
      cases r' with
      | true =>
        have hlt : pos < pos' := (g6 rfl).resolve_left (by simp)
        obtain ⟨rep2, out, k1, k2, k3⟩ := ih pos' rep' _ g2 g4 (by omega)
        refine ⟨rep2, o ++ out, ?_, by rw [← append_append]; exact k2, g5 out k3⟩
        unfold replaceLoop
        rw [if_neg hend]
        simp only [g1, Res.bind_ok, if_true]
        exact k1
      | false =>
        obtain ⟨rfl, rfl, hno⟩ := g7 rfl
        have hlt : pos' < text.length := by omega
        have hd := List.drop_eq_getElem_cons hlt
        obtain ⟨rep1, e1, h1⟩ := holds_addN g2 (some (text.drop pos')) 1 (by simp [TextOp.Ok]; omega)
        have h1' : Holds rep1 (append acc [text[pos']]) := by
          have e : (List.drop pos' text).take 1 = [text[pos']] := by rw [hd]; rfl
          have : (TextOp.addN (some (text.drop pos')) 1).apply (append acc []) = append acc [text[pos']] := by
            simp only [TextOp.apply, e, append_append, List.nil_append]
          rw [← this]; exact h1
        obtain ⟨rep2, out, k1, k2, k3⟩ := ih (pos' + 1) rep1 _ h1' hlt (by omega)
        refine ⟨rep2, text[pos'] :: out, ?_, ?_, ?_⟩
        · unfold replaceLoop
          rw [if_neg hend]
          simp only [g1, Res.bind_ok, Bool.false_eq_true, if_false, e1]
          exact k1
        · rw [append_append] at k2; exact k2
        · rw [hd]
          exact .miss (by rw [← hd]; exact hno) k3

theorem replaced_noZero {ps : List (List Byte × List Byte)} (hp : ∀ p ∈ ps, NoZero p.2) {text out : List Byte} (h : Replaced ps text out)
    (hz : NoZero text) : NoZero out := by
  induction h with
  | nil => exact hz
  | @hit b f to a r o e _ _ ih => exact noZero_append.2 ⟨hp (f, to) (by rw [e]; simp), ih (noZero_append.1 hz).2⟩
  | miss _ _ ih => exact noZero_cons.2 ⟨(noZero_cons.1 hz).1, ih (noZero_cons.1 hz).2⟩

end Uecho.Lemmas
