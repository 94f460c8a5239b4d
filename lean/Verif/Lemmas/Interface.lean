import Verif.Spec.Interface
import Verif.Lemmas.HeapCalls
import Verif.Lemmas.Strings
/-! # Lemmas for C112–C114 -/
namespace Uecho.Lemmas
open Uecho Uecho.Spec Uecho.Net Uecho.Heap Uecho.Lemmas.Blocks

theorem ifLoop_eq (l : List IfAddr) : ∀ acc, ifLoop l acc = acc ++ l.filterMap listed := by
  induction l with
  | nil => intro acc; simp [ifLoop]
  | cons i l ih =>
    intro acc
    rcases i with ⟨n, a, k, u, lo, pp⟩
    rcases a with _ | a | a | a <;> rcases k with _ | k | k | k <;> cases u <;> cases lo <;>
      simp [ifLoop, ih, listed, getnameinfo, List.filterMap_cons]

/-- `lan`, as the code reads it. -/
def lanWord (i : IfAddr) : Option (BitVec 32 × BitVec 32) :=
  match i.addr, i.mask with
  | some a, some k => if i.up && !i.loopback && !i.pointToPoint then some (a.sin, k.sin) else none
  | _, _ => none

theorem lanWord_eq {l : List IfAddr} (h : Ipv4Only l) : l.filterMap lanWord = l.filterMap lan := by
  induction l with
  | nil => rfl
  | cons i l ih =>
    have h1 := h i (by simp)
    have h2 := ih fun j hj => h j (by simp [hj])
    have : lanWord i = lan i := by
      rcases i with ⟨n, a, k, u, lo, pp⟩
      rcases a with _ | a
      · rfl
      rcases k with _ | k
      · cases a <;> rfl
      by_cases hu : u = true ∧ lo = false ∧ pp = false
      · obtain ⟨rfl, rfl, rfl⟩ := hu
        obtain ⟨⟨x, rfl⟩, ⟨y, rfl⟩⟩ := h1 rfl rfl rfl a k rfl rfl
        rfl
      · cases a <;> cases k <;> cases u <;> cases lo <;> cases pp <;> first | rfl | exact absurd ⟨rfl, rfl, rfl⟩ hu
    simp only [List.filterMap_cons, this, h2]

theorem replaceText_triple (p : Option (Nat × String)) (a : BitVec 32) : Triple (ptr p) (replaceText p a) (fun r => ptr r) (fun r => r.map (·.2) = some (ntoa a)) :=
  (freeOpt_triple p).bind (K := []) (by simp) fun _ _ => malloc_triple.bind (K := []) (by simp) fun b _ => .pure (by simp [ptr]) rfl

/-- The last of a list, or what there was before. -/
def lastOr (l : List (BitVec 32 × BitVec 32)) (o : Option String) : Option String :=
  match l.getLast? with
  | some p => some (ntoa p.1)
  | none => o

theorem lastOr_cons (p : BitVec 32 × BitVec 32) (l : List (BitVec 32 × BitVec 32)) (o : Option String) :
    lastOr (p :: l) o = lastOr l (some (ntoa p.1)) := by
  cases l with
  | nil => rfl
  | cons q l => simp [lastOr, List.getLast?_cons_cons, List.getLast?_cons]

theorem selectLoop_triple (r : BitVec 32) (l : List IfAddr) : ∀ cand auto, Triple (ptr cand ++ ptr auto) (selectLoop r l cand auto) (fun x => ptr x.1 ++ ptr x.2)
    (fun x => match (l.filterMap lanWord).find? (onNet r) with
      | some p => x.1.map (·.2) = some (ntoa p.1)
      | none => x.1.map (·.2) = lastOr ((l.filterMap lanWord).filter fun p => !linkLocal p) (cand.map (·.2)) ∧
          x.2.map (·.2) = lastOr ((l.filterMap lanWord).filter linkLocal) (auto.map (·.2))) := by
  induction l with
  | nil => intro cand auto; exact .pure (.refl _) ⟨rfl, rfl⟩
  | cons i l ih =>
    intro cand auto
    rcases i with ⟨n, a, k, u, lo, pp⟩
    rcases a with _ | a
    · exact ih cand auto
    rcases k with _ | k
    · cases u <;> cases lo <;> cases pp <;> exact ih cand auto
    by_cases hu : (u && !lo && !pp) = true
    · simp only [Bool.and_eq_true, Bool.not_eq_true'] at hu
      obtain ⟨⟨rfl, rfl⟩, rfl⟩ := hu
      have e : lanWord ⟨n, some a, some k, true, false, false⟩ = some (a.sin, k.sin) := rfl
      simp only [selectLoop, Bool.not_true, Bool.false_eq_true, if_false, List.filterMap_cons, e]
      by_cases h1 : (a.sin &&& k.sin == r &&& k.sin) = true
      · simp only [h1, if_true]
        refine (replaceText_triple cand a.sin).bind (K := ptr auto) (.refl _) fun c hc => .pure (.refl _) ?_
        have : onNet r (a.sin, k.sin) = true := h1
        simp only [List.find?_cons, this]
        exact hc
      · simp only [h1]
        have hn : onNet r (a.sin, k.sin) = false := by simpa [onNet] using h1
        simp only [List.find?_cons, hn]
        by_cases h2 : (a.sin &&& k.sin == autoIpNet) = true
        · simp only [h2, if_true]
          have hl : linkLocal (a.sin, k.sin) = true := h2
          refine (replaceText_triple auto a.sin).bind (K := ptr cand) (by perm) fun c hc => ?_
          refine ((ih cand c).perm (by perm)).weak fun x hx => ?_
          simp only [List.filter_cons, hl, Bool.not_true, Bool.false_eq_true, if_false, if_true, lastOr_cons, ← hc]
          exact hx
        · simp only [h2]
          have hl : linkLocal (a.sin, k.sin) = false := by simpa [linkLocal, autoIpNet] using h2
          refine (replaceText_triple cand a.sin).bind (K := ptr auto) (.refl _) fun c hc => ?_
          refine (ih c auto).weak fun x hx => ?_
          simp only [List.filter_cons, hl, Bool.not_false, Bool.false_eq_true, if_false, if_true, lastOr_cons, ← hc]
          exact hx
    · have e : lanWord ⟨n, some a, some k, u, lo, pp⟩ = none := by simp only [lanWord, hu]; rfl
      have e' : selectLoop r (⟨n, some a, some k, u, lo, pp⟩ :: l) cand auto = selectLoop r l cand auto := by
        cases u <;> cases lo <;> cases pp <;> first | rfl | exact absurd rfl hu
      rw [e', List.filterMap_cons, e]
      exact ih cand auto

theorem selectAddr_triple (l : List IfAddr) (r : BitVec 32) : Triple [] (selectAddr (some l) r) (fun x => ptr x)
    (fun x => x.map (·.2) = some (bestAddr (l.filterMap lanWord) r)) := by
  refine (selectLoop_triple r l none none).bind (K := []) (by simp [ptr]) fun x hx => ?_
  have hb : bestAddr (l.filterMap lanWord) r = match (generalizing := false) x with
      | (some c, _) => c.2
      | (none, some a) => a.2
      | (none, none) => "127.0.0.1" := by
    unfold bestAddr
    simp only [lastOr, Option.map_none] at hx
    generalize (l.filterMap lanWord).find? (onNet r) = o1 at hx ⊢
    generalize ((l.filterMap lanWord).filter fun p => !linkLocal p).getLast? = o2 at hx ⊢
    generalize ((l.filterMap lanWord).filter linkLocal).getLast? = o3 at hx ⊢
    rcases x with ⟨_ | c, _ | a⟩ <;> rcases o1 with _ | p <;> rcases o2 with _ | q <;> rcases o3 with _ | t <;> simp_all
  rw [hb]
  rcases x with ⟨_ | c, a⟩
  · rcases a with _ | a
    · exact malloc_triple.bind (K := []) (by simp [ptr]) fun b _ => .pure (by simp [ptr]) rfl
    · exact .pure (by simp [ptr]) rfl
  · exact (freeOpt_triple a).bind (K := ptr (some c)) (by simp only [List.append_nil]; perm) fun _ _ => .pure (by simp) rfl

end Uecho.Lemmas
namespace Uecho.Lemmas
open Uecho Uecho.Spec Uecho.Net Uecho.Strings

theorem dec_inj {a b : Nat} (h : (toString a).toList = (toString b).toList) : a = b := by
  rw [Nat.toString_eq_repr, Nat.toString_eq_repr, Nat.toList_repr, Nat.toList_repr] at h
  rw [← Nat.ofDigitChars_ten_toDigits (n := a), ← Nat.ofDigitChars_ten_toDigits (n := b), h]

theorem dot_not_dec (a : Nat) : '.' ∉ (toString a).toList := by
  rw [Nat.toString_eq_repr, Nat.toList_repr]
  intro h
  have := Nat.isDigit_of_mem_toDigits (by omega) (by omega) h
  exact absurd this (by decide)

theorem split_dot {a b x y : List Char} (ha : '.' ∉ a) (hb : '.' ∉ b) (h : a ++ '.' :: x = b ++ '.' :: y) : a = b ∧ x = y := by
  induction a generalizing b with
  | nil => cases b with
    | nil => simpa using h
    | cons c b =>
      simp only [List.nil_append, List.cons_append, List.cons.injEq] at h
      exact absurd (by simp [← h.1]) hb
  | cons c a ih => cases b with
    | nil =>
      simp only [List.nil_append, List.cons_append, List.cons.injEq] at h
      exact absurd (by simp [h.1]) ha
    | cons d b =>
      simp only [List.cons_append, List.cons.injEq] at h
      obtain ⟨k1, k2⟩ := ih (fun m => ha (by simp [m])) (fun m => hb (by simp [m])) h.2
      exact ⟨by rw [h.1, k1], k2⟩

theorem ntoa_inj {a b : BitVec 32} (h : ntoa a = ntoa b) : a = b := by
  have h := congrArg String.toList h
  have dot : ".".toList = ['.'] := rfl
  simp only [ntoa, String.toList_append, dot, List.append_assoc, List.cons_append, List.nil_append] at h
  obtain ⟨h1, h⟩ := split_dot (dot_not_dec _) (dot_not_dec _) h
  obtain ⟨h2, h⟩ := split_dot (dot_not_dec _) (dot_not_dec _) h
  obtain ⟨h3, h4⟩ := split_dot (dot_not_dec _) (dot_not_dec _) h
  have h1 := dec_inj h1
  have h2 := dec_inj h2
  have h3 := dec_inj h3
  have h4 := dec_inj h4
  refine BitVec.eq_of_toNat_eq ?_
  omega

theorem dec_short {n : Nat} (h : n < 256) : (toString n).toList.length ≤ 3 := by
  have : ∀ m : Fin 256, (toString m.val).toList.length ≤ 3 := by decide +kernel
  exact this ⟨n, h⟩

theorem ntoa_short (a : BitVec 32) : (ntoa a).toList.length ≤ 15 := by
  have h := a.isLt
  have h1 := dec_short (n := a.toNat / 2 ^ 24) (by omega)
  have h2 := dec_short (n := a.toNat / 2 ^ 16 % 2 ^ 8) (by omega)
  have h3 := dec_short (n := a.toNat / 2 ^ 8 % 2 ^ 8) (by omega)
  have h4 := dec_short (n := a.toNat % 2 ^ 8) (by omega)
  have dot : ".".toList.length = 1 := rfl
  simp only [ntoa, String.toList_append, List.length_append, dot]
  omega

theorem strchr_found {a b : List Byte} {c : Byte} (ha : c ∉ a) : strchr (some (a ++ c :: b)) (some [c]) 1 = .ok (a.length : Int) := by
  have : ∀ (a : List Byte) i, c ∉ a → strchrLoop [c] 1 (a ++ c :: b) i = .ok ((i + a.length : Nat) : Int) := by
    intro a
    induction a with
    | nil => intro i _; simp [strchrLoop, hasChar, rd, Res.pure_eq]
    | cons x a ih =>
      intro i h
      have hx : x ≠ c := fun e => h (by simp [e])
      have := ih (i + 1) fun m => h (by simp [m])
      simp only [List.cons_append, strchrLoop, hasChar, rd, List.getElem?_cons_zero, Res.bind_ok, hx, if_false, Res.pure_eq]
      simp only [Bool.false_eq_true, if_false, this, List.length_cons]
      congr 2
      omega
  have h := this a 0 ha
  simp only [Nat.zero_add] at h
  exact h

theorem strchr_absent {a : List Byte} {c : Byte} (ha : c ∉ a) : strchr (some a) (some [c]) 1 = .ok (-1) := by
  have : ∀ (a : List Byte) i, c ∉ a → strchrLoop [c] 1 a i = .ok (-1) := by
    intro a
    induction a with
    | nil => intro i _; rfl
    | cons x a ih =>
      intro i h
      have hx : x ≠ c := fun e => h (by simp [e])
      have := ih (i + 1) fun m => h (by simp [m])
      simp only [strchrLoop, hasChar, rd, List.getElem?_cons_zero, Res.bind_ok, hx, if_false, Res.pure_eq]
      simp only [Bool.false_eq_true, if_false, this]
  exact this a 0 ha

/-- The buffer of the scope after both writes. -/
theorem scopeBuf (t : List Byte) : (do
      let buf ← strncpyAt (List.replicate 9 0xFF#8) 0 t 8
      wrN buf 8 [0#8]) = .ok (t.take 8 ++ 0#8 :: List.replicate (8 - t.length) 0#8) := by
  have hl : (t.take 8 ++ List.replicate (8 - t.length) 0#8).length = 8 := by simp only [List.length_append, List.length_take, List.length_replicate]; omega
  have h1 : strncpyAt (List.replicate 9 0xFF#8) 0 t 8 = .ok ((t.take 8 ++ List.replicate (8 - t.length) 0#8) ++ [0xFF#8]) := by
    rw [strncpyAt, wrN, if_pos (by rw [hl]; simp), hl]
    rfl
  rw [h1, Res.bind_ok, wrN, if_pos (by rw [List.length_append, hl]; simp)]
  rw [List.take_left' hl, List.drop_eq_nil_of_le (by rw [List.length_append, hl]; simp)]
  simp only [List.append_nil, List.append_assoc]
  congr 2
  rw [← List.replicate_succ', List.replicate_succ]

theorem digits_bound : ∀ (s : List Byte) (n : Nat), digits s n < (n + 1) * 10 ^ s.length := by
  intro s
  induction s with
  | nil => intro n; simp [digits]
  | cons c s ih =>
    intro n
    rw [digits, List.length_cons, Nat.pow_succ]
    have p : 0 < 10 ^ s.length := Nat.pow_pos (by omega)
    split
    · rename_i h
      have := ih (10 * n + (c.toNat - 0x30))
      refine Nat.lt_of_lt_of_le this ?_
      rw [Nat.mul_comm (10 ^ s.length), ← Nat.mul_assoc]
      exact Nat.mul_le_mul_right _ (by omega)
    · have : (n + 1) * 1 ≤ (n + 1) * (10 ^ s.length * 10) := Nat.mul_le_mul_left _ (by omega)
      omega

theorem digits_short {s : List Byte} (h : s.length ≤ 8) : digits s 0 < 10 ^ 8 := by
  have h1 := digits_bound s 0
  have h2 : 10 ^ s.length ≤ 10 ^ 8 := Nat.pow_le_pow_right (by omega) h
  omega

theorem atoi_short {s : List Byte} (h : s.length ≤ 8) : ∃ v, atoi s = .ok v ∧ -10 ^ 8 < v ∧ v < 10 ^ 8 := by
  unfold atoi
  have hd : (s.dropWhile fun c => c == 0x20 || (decide (9 ≤ c.toNat) && decide (c.toNat ≤ 13))).length ≤ 8 :=
    Nat.le_trans (List.dropWhile_sublist _).length_le h
  generalize (s.dropWhile fun c => c == 0x20 || (decide (9 ≤ c.toNat) && decide (c.toNat ≤ 13))) = t at hd
  have hb : -10 ^ 8 < signed t ∧ signed t < 10 ^ 8 := by
    unfold signed
    split
    · rename_i cs
      have := digits_short (s := cs) (by simp only [List.length_cons] at hd; omega)
      omega
    · rename_i cs
      have := digits_short (s := cs) (by simp only [List.length_cons] at hd; omega)
      omega
    · have := digits_short hd
      omega
  exact ⟨signed t, if_pos (by omega), hb⟩

theorem digits_text (ds : List (Fin 10)) (n : Nat) : digits (digitText ds) n = ds.foldl (fun n d => 10 * n + d.val) n := by
  induction ds generalizing n with
  | nil => rfl
  | cons d ds ih =>
    have : (BitVec.ofNat 8 (0x30 + d.val)).toNat = 0x30 + d.val := by
      rw [BitVec.toNat_ofNat]; omega
    rw [digitText, List.map_cons, digits, if_pos (by rw [this]; omega), this]
    have := ih (10 * n + (48 + d.val - 48))
    rw [digitText] at this
    rw [this, List.foldl_cons]
    congr 1
    omega

theorem atoi_digitText {ds : List (Fin 10)} (h : ds.length ≤ 8) : atoi (digitText ds) = .ok (decimal ds) := by
  have e : ((digitText ds).dropWhile fun c => c == 0x20 || (decide (9 ≤ c.toNat) && decide (c.toNat ≤ 13))) = digitText ds ∧
      signed (digitText ds) = digits (digitText ds) 0 := by
    cases ds with
    | nil => exact ⟨rfl, rfl⟩
    | cons d ds =>
      have : ∀ d : Fin 10, (BitVec.ofNat 8 (0x30 + d.val) == 0x20 || (decide (9 ≤ (BitVec.ofNat 8 (0x30 + d.val)).toNat) &&
          decide ((BitVec.ofNat 8 (0x30 + d.val)).toNat ≤ 13))) = false ∧ BitVec.ofNat 8 (0x30 + d.val) ≠ 0x2D ∧
          BitVec.ofNat 8 (0x30 + d.val) ≠ 0x2B := by decide +kernel
      obtain ⟨h1, h2, h3⟩ := this d
      rw [digitText, List.map_cons]
      generalize BitVec.ofNat 8 (0x30 + d.val) = c at *
      refine ⟨by rw [List.dropWhile_cons, h1]; rfl, ?_⟩
      unfold signed
      split
      · rename_i e; exact absurd (List.cons.inj e).1 h2
      · rename_i e; exact absurd (List.cons.inj e).1 h3
      · rfl
  have hs := digits_short (s := digitText ds) (by simpa [digitText] using h)
  unfold atoi
  rw [e.1, e.2]
  simp only
  rw [if_pos (by omega), digits_text]
  rfl

theorem scope_eq {s a b : List Byte} (hs : NoZero s) (he : s = a ++ 0x25#8 :: b) (ha : 0x25#8 ∉ a) (h6 : isIpv6Address (some s) = .ok true) :
    getIpv6ScopeId (some s) = atoi (b.take 8) := by
  unfold getIpv6ScopeId
  rw [h6]
  have hd : s.drop ((a.length : Int).toNat + 1) = b := by
    rw [he, Int.toNat_natCast, ← List.drop_drop, List.drop_left]
    rfl
  have hz : NoZero (b.take 8) := fun c hc => hs c (by rw [he]; simp [List.mem_of_mem_take hc])
  have := scopeBuf b
  simp only [Res.bind_ok, Bool.not_true, Bool.false_eq_true, if_false]
  conv => lhs; arg 1; rw [he]
  rw [strchr_found ha, Res.bind_ok, if_neg (by omega), hd, ← Res.bind_assoc]
  rw [this, Res.bind_ok, cstr_text hz, Res.bind_ok]

theorem isIpv6_eq {c : Byte} (s : List Byte) (hc : c ≠ 0x3A#8) : isIpv6Address (some (c :: s)) = .ok (decide (0x3A#8 ∈ c :: s)) := by
  rw [isIpv6Address]
  by_cases h : 0x3A#8 ∈ s
  · obtain ⟨a, b, rfl, ha⟩ := List.eq_append_cons_of_mem h
    have := strchr_found (a := c :: a) (b := b) (c := 0x3A#8) (by simp [ha, Ne.symm hc])
    simp only [List.cons_append] at this
    rw [this]
    simp [Res.pure_eq]
  · rw [strchr_absent (by simp [h, Ne.symm hc])]
    simp [h, Ne.symm hc, Res.pure_eq]

theorem digitText_noZero (ds : List (Fin 10)) : NoZero (digitText ds) := by
  intro c hc
  obtain ⟨d, _, rfl⟩ := List.mem_map.1 hc
  have : ∀ d : Fin 10, BitVec.ofNat 8 (0x30 + d.val) ≠ 0#8 := by decide +kernel
  exact this d

theorem scope_digits {c : Byte} {a : List Byte} (ds : List (Fin 10)) (hc : c ≠ 0x3A#8) (h6 : 0x3A#8 ∈ a) (hp : 0x25#8 ∉ c :: a) (hz : NoZero (c :: a)) :
    getIpv6ScopeId (some (c :: a ++ 0x25#8 :: digitText ds)) = .ok (decimal (ds.take 8)) := by
  have h : isIpv6Address (some (c :: a ++ 0x25#8 :: digitText ds)) = .ok true := by
    rw [List.cons_append, isIpv6_eq _ hc]
    simp [h6]
  rw [scope_eq (noZero_append.2 ⟨hz, noZero_cons.2 ⟨by decide, digitText_noZero ds⟩⟩) rfl hp h]
  rw [← atoi_digitText (ds := ds.take 8) (by simp; omega)]
  simp [digitText, List.map_take]

theorem decimal_from (ds : List (Fin 10)) : ∀ n, n ≤ ds.foldl (fun n d => 10 * n + d.val) n ∧ (ds ≠ [] → 10 * n ≤ ds.foldl (fun n d => 10 * n + d.val) n) := by
  induction ds with
  | nil => intro n; simp
  | cons d ds ih =>
    intro n
    have := (ih (10 * n + d.val)).1
    rw [List.foldl_cons]
    omega

theorem decimal_take_lt {d : Fin 10} {ds : List (Fin 10)} (hd : d ≠ 0) (hl : 8 ≤ ds.length) : decimal ((d :: ds).take 8) < decimal (d :: ds) := by
  have e : d :: ds = (d :: ds).take 8 ++ (d :: ds).drop 8 := (List.take_append_drop 8 _).symm
  have h1 : 1 ≤ decimal ((d :: ds).take 8) := by
    rw [List.take_succ_cons, decimal, List.foldl_cons]
    have := (decimal_from (ds.take 7) (10 * 0 + d.val)).1
    have : d.val ≠ 0 := fun h => hd (Fin.ext h)
    omega
  have hne : (d :: ds).drop 8 ≠ [] := by
    intro h
    have := congrArg List.length h
    simp only [List.length_drop, List.length_cons, List.length_nil] at this
    omega
  have h2 := (decimal_from ((d :: ds).drop 8) (decimal ((d :: ds).take 8))).2 hne
  have h3 : decimal (d :: ds) = ((d :: ds).drop 8).foldl (fun n d => 10 * n + d.val) (decimal ((d :: ds).take 8)) := by
    conv => lhs; rw [e]
    rw [decimal, decimal, List.foldl_append]
  omega

theorem isIpv6_defined (s : List Byte) : ∃ b, isIpv6Address (some s) = .ok b := by
  cases s with
  | nil => exact ⟨false, rfl⟩
  | cons c s =>
    by_cases hc : c = 0x3A#8
    · have := strchr_found (a := []) (b := s) (c := 0x3A#8) (by simp)
      simp only [List.nil_append] at this
      rw [hc, isIpv6Address, this]
      exact ⟨_, rfl⟩
    · exact ⟨_, isIpv6_eq s hc⟩

theorem scope_no_percent {s : List Byte} (hp : 0x25#8 ∉ s) : getIpv6ScopeId (some s) = .ok 0 := by
  obtain ⟨b, hb⟩ := isIpv6_defined s
  rw [getIpv6ScopeId, hb, Res.bind_ok]
  cases b
  · rfl
  · simp only [Bool.not_true, Bool.false_eq_true, if_false]
    rw [strchr_absent hp]
    rfl

end Uecho.Lemmas
