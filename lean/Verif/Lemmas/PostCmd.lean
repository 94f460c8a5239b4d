import Verif.Spec.PostCmd
import Verif.Lemmas.Section
import Verif.Lemmas.Node
import Verif.Lemmas.Reply
/-! # Lemmas for C149 -/
namespace Uecho.Lemmas
open Uecho Uecho.Spec Uecho.PostCmd

def plainDigit (c : Char) (v : Nat) : Bool :=
  decide (hexDigit c = some v) && !isSpace c && decide (c ≠ '+') && decide (c ≠ '-') && decide (c ≠ 'x') && decide (c ≠ 'X')

theorem digit_plain {c : Char} {v : Nat} (h : IsDigit c v) : plainDigit c v = true := by
  have key : ∀ v : Fin 16, plainDigit ("0123456789abcdef".toList[v.val]?.getD 'z') v = true ∧
      plainDigit ("0123456789ABCDEF".toList[v.val]?.getD 'z') v = true := by decide
  have hv : v < 16 := by
    rcases h with h | h
    · exact (List.getElem?_eq_some_iff.1 h).1
    · exact (List.getElem?_eq_some_iff.1 h).1
  rcases h with h | h
  · have := (key ⟨v, hv⟩).1; simp only [h, Option.getD_some] at this; exact this
  · have := (key ⟨v, hv⟩).2; simp only [h, Option.getD_some] at this; exact this

structure PD (c : Char) (v : Nat) : Prop where
  hex : hexDigit c = some v
  space : isSpace c = false
  plus : c ≠ '+'
  minus : c ≠ '-'
  x : c ≠ 'x'
  X : c ≠ 'X'

theorem digit_pd {c : Char} {v : Nat} (h : IsDigit c v) : PD c v := by
  have := digit_plain h
  simp only [plainDigit, Bool.and_eq_true, Bool.not_eq_true', decide_eq_true_eq] at this
  obtain ⟨⟨⟨⟨⟨a, b⟩, c⟩, d⟩, e⟩, f⟩ := this
  exact ⟨a, b, c, d, e, f⟩

theorem scanDigits_eq (l : Bool) {a : Char} {s : List Char} {va : Nat} (ha : hexDigit a = some va)
    (hs : ∀ c, s.head? = some c → c ≠ 'x' ∧ c ≠ 'X') :
    scanDigits l (a :: s) = some (value (digits (a :: s)), (digits (a :: s)).length) := by
  unfold scanDigits
  split
  · rename_i x s' heq
    injection heq with h1 h2
    subst h2
    have := hs x rfl
    rw [if_neg (by simp [this.1, this.2]), h1]
  · rw [if_neg (by simp [digits, ha])]

theorem scanNumber_eq (l : Bool) {a : Char} {s : List Char} {va : Nat} (ha : PD a va)
    (hs : ∀ c, s.head? = some c → c ≠ 'x' ∧ c ≠ 'X') (hv : value (digits (a :: s)) < 2 ^ 32) :
    scanNumber l (a :: s) = .ok (some (BitVec.ofNat 32 (value (digits (a :: s))), (digits (a :: s)).length)) := by
  unfold scanNumber
  simp only [List.head?_cons, Option.some.injEq, ha.minus, ha.plus, decide_false, Bool.or_self, Bool.false_eq_true, if_false,
    List.drop_zero, scanDigits_eq l ha.hex hs, if_pos hv, Nat.zero_add]

theorem widen (x : Byte) : BitVec.ofNat 32 x.toNat = x.setWidth 32 := by
  apply BitVec.eq_of_toNat_eq
  simp

/-- a byte spelled -/
theorem scan_byte (l : Bool) {a b : Char} {x : Byte} (ha : IsDigit a (x.toNat / 16)) (hb : IsDigit b (x.toNat % 16)) (s : List Char) :
    scanHex l (some 2) (a :: b :: s) = .ok (some (x.setWidth 32, s)) := by
  have pa := digit_pd ha
  have pb := digit_pd hb
  have hd : digits [a, b] = [x.toNat / 16, x.toNat % 16] := by simp [digits, pa.hex, pb.hex]
  have hval : value (digits [a, b]) = x.toNat := by rw [hd]; simp [value]; omega
  have hx := x.isLt
  unfold scanHex
  simp only [List.dropWhile_cons, pa.space, Bool.false_eq_true, if_false, List.take_succ_cons, List.take_zero]
  rw [scanNumber_eq l pa (by simp [pb.x, pb.X]) (by rw [hval]; omega), hval]
  simp only [Res.bind_ok, Res.pure_eq, hd, widen]
  rfl

theorem scan_all (l : Bool) {a : Char} {s : List Char} {va : Nat} (ha : PD a va)
    (hs : ∀ c, s.head? = some c → c ≠ 'x' ∧ c ≠ 'X') (hv : value (digits (a :: s)) < 2 ^ 32) (old : CInt) :
    scan1 l none (a :: s) old = .ok (BitVec.ofNat 32 (value (digits (a :: s)))) := by
  unfold scan1 scanHex
  simp only [List.dropWhile_cons, ha.space, Bool.false_eq_true, if_false]
  rw [scanNumber_eq l ha hs hv]
  rfl

/-- the code of an object -/
theorem scan_code (l : Bool) {x y z : Byte} {s : List Char} (h : Spells [x, y, z] s) (old : CInt) :
    scan1 l none s old = .ok (BitVec.ofNat 32 (x.toNat * 65536 + y.toNat * 256 + z.toNat)) := by
  cases h with | cons a1 b1 h => cases h with | cons a2 b2 h => cases h with | cons a3 b3 h => cases h with | nil =>
  have p1 := digit_pd a1; have q1 := digit_pd b1
  have p2 := digit_pd a2; have q2 := digit_pd b2
  have p3 := digit_pd a3; have q3 := digit_pd b3
  have hx := x.isLt; have hy := y.isLt; have hz := z.isLt
  have hval : value [x.toNat / 16, x.toNat % 16, y.toNat / 16, y.toNat % 16, z.toNat / 16, z.toNat % 16] =
      x.toNat * 65536 + y.toNat * 256 + z.toNat := by simp only [value, List.foldl]; omega
  rw [scan_all l p1 (by simp [q1.x, q1.X])]
  · simp only [digits, p1.hex, q1.hex, p2.hex, q2.hex, p3.hex, q3.hex, hval]
  · simp only [digits, p1.hex, q1.hex, p2.hex, q2.hex, p3.hex, q3.hex, hval]; omega

theorem scan_esv (l : Bool) {x : Byte} {s : List Char} (h : Spells [x] s) (old : CInt) : scan1 l none s old = .ok (x.setWidth 32) := by
  cases h with | cons a1 b1 h => cases h with | nil =>
  have p1 := digit_pd a1; have q1 := digit_pd b1
  have hx := x.isLt
  have hval : value [x.toNat / 16, x.toNat % 16] = x.toNat := by simp only [value, List.foldl]; omega
  rw [scan_all l p1 (by simp [q1.x, q1.X])]
  · simp only [digits, p1.hex, q1.hex, hval, widen]
  · simp only [digits, p1.hex, q1.hex, hval]; omega

theorem spells_length {xs : List Byte} {s : List Char} (h : Spells xs s) : s.length = 2 * xs.length := by
  induction h with
  | nil => rfl
  | cons _ _ _ ih => simp only [List.length_cons, ih]; omega

theorem spells_split {xs ys : List Byte} {s : List Char} (h : Spells (xs ++ ys) s) :
    ∃ t u, s = t ++ u ∧ Spells xs t ∧ Spells ys u := by
  induction xs generalizing s with
  | nil => exact ⟨[], s, rfl, .nil, h⟩
  | cons x xs ih =>
    cases h with
    | cons a b h =>
      obtain ⟨t, u, rfl, h1, h2⟩ := ih h
      exact ⟨_ :: _ :: t, u, rfl, .cons a b h1, h2⟩

theorem readData_spelled (l : Bool) {xs : List Byte} {s : List Char} (h : Spells xs s) (r : List Char) :
    ∀ b, ∃ b', readData l xs.length (s ++ r) b = .ok (xs, b') := by
  induction h with
  | nil => intro b; exact ⟨b, rfl⟩
  | @cons x a b xs s ha hb _ ih =>
    intro old
    obtain ⟨b', h2⟩ := ih (x.setWidth 32)
    refine ⟨b', ?_⟩
    simp only [List.length_cons, readData, List.cons_append, scan1, scan_byte l ha hb, Res.bind_ok, Res.pure_eq, List.drop_succ_cons,
      List.drop_zero, h2, Res.ok.injEq, Prod.mk.injEq, List.cons.injEq, true_and, and_true]
    simp

/-- set properties one after the other -/
def setAll : Message → List Prop8 → Res Message
  | m, [] => .ok m
  | m, q :: qs => do
      let m ← m.setProperty q.1 q.2
      setAll m qs

theorem loop_succ (l : Bool) (k pos : Nat) (s : List Char) (v : Vars) (m : Message) (hs : ¬ s.length < 4) :
    loop l (k + 1) pos s v m = (scan2 l s v) >>= fun v =>
        if v.pdc = 0#32 then (m.setProperty (v.epc.setWidth 8) []) >>= fun m => loop l k (pos + 4) (s.drop 4) v m
        else if v.pdc.toInt * 2 < - 2 ^ 31 ∨ 2 ^ 31 ≤ v.pdc.toInt * 2 then .ub
        else if (pos + 4 + v.pdc.toInt * 2 : Int) < 0 ∨ (pos : Int) + s.length < pos + 4 + v.pdc.toInt * 2 then .ok m
        else if v.pdc.toInt < 0 then (m.setProperty (v.epc.setWidth 8) []) >>= fun m => loop l k (pos + 4) (s.drop 4) v m
        else (readData l v.pdc.toNat (s.drop 4) v.edtByte) >>= fun x => (m.setProperty (v.epc.setWidth 8) x.1) >>= fun m =>
            loop l k (pos + 4 + v.pdc.toNat * 2) ((s.drop 4).drop (v.pdc.toNat * 2)) { v with edtByte := x.2 } m := by
  show (if s.length < 4 then _ else _) = _
  rw [if_neg hs]

/-- the loop reads what was typed, and goes on -/
theorem loop_typed (l : Bool) : ∀ (ps : List Prop8) (s r : List Char) (k pos : Nat) (v : Vars) (m : Message),
    (∀ q ∈ ps, q.2.length ≤ 255) → Spells (typed ps) s → ps.length ≤ k →
      ∃ v', loop l k pos (s ++ r) v m = (setAll m ps) >>= fun m' => loop l (k - ps.length) (pos + s.length) r v' m'
  | [], s, r, k, pos, v, m, _, hs, _ => by
      cases hs
      exact ⟨v, rfl⟩
  | (c, d) :: ps, s, r, k + 1, pos, v, m, hlen, hs, hk => by
      have hd : d.length ≤ 255 := hlen (c, d) (by simp)
      have hs0 : Spells (c :: BitVec.ofNat 8 d.length :: (d ++ typed ps)) s := by
        simpa [typed, List.flatMap_cons] using hs
      clear hs
      cases hs0 with | @cons _ a1 b1 _ _ ha1 hb1 hs1 => cases hs1 with | @cons _ a2 b2 _ s2 ha2 hb2 hs2 =>
      obtain ⟨t, u, rfl, ht, hu⟩ := spells_split hs2
      have hpdc : ((BitVec.ofNat 8 d.length).setWidth 32).toNat = d.length := by simp; omega
      have hint : ((BitVec.ofNat 8 d.length).setWidth 32).toInt = d.length := by
        rw [BitVec.toInt_eq_toNat_of_lt (by rw [hpdc]; omega), hpdc]
      have hepc : (c.setWidth 32).setWidth 8 = c := by simp
      have hsc : scan2 l (a1 :: b1 :: a2 :: b2 :: ((t ++ u) ++ r)) v = .ok { v with epc := c.setWidth 32, pdc := (BitVec.ofNat 8 d.length).setWidth 32 } := by
        simp only [scan2, scan_byte l ha1 hb1, scan_byte l ha2 hb2, Res.bind_ok, Res.pure_eq]
      have htl := spells_length ht
      simp only [List.cons_append]
      rw [loop_succ _ _ _ _ _ _ (by simp)]
      simp only [hsc, Res.bind_ok, List.drop_succ_cons, List.drop_zero, hepc, hint]
      by_cases h0 : d = []
      · subst h0
        cases ht
        rw [if_pos (by simp)]
        simp only [List.nil_append, setAll, List.length_cons, Res.bind_assoc]
        cases hm : m.setProperty c [] with
        | ub => exact ⟨v, rfl⟩
        | ok m1 =>
          obtain ⟨v', h⟩ := loop_typed l ps u r k (pos + 4) _ m1 (fun q hq => hlen q (by simp [hq])) hu (by simpa using hk)
          refine ⟨v', ?_⟩
          simp only [Res.bind_ok]
          rw [h]
          simp only [Nat.add_sub_add_right, show pos + (u.length + 1 + 1 + 1 + 1) = pos + 4 + u.length by omega]
      · have hpos : 0 < d.length := List.length_pos_iff.2 h0
        rw [if_neg (by intro h; have := congrArg BitVec.toNat h; rw [hpdc] at this; simp at this; exact h0 this),
          if_neg (by omega), if_neg (by simp only [List.length_cons, List.length_append]; omega), if_neg (by omega)]
        rw [hpdc, List.append_assoc]
        obtain ⟨b', hb'⟩ := readData_spelled l ht (u ++ r) v.edtByte
        simp only [hb', Res.bind_ok, setAll, List.length_cons, Res.bind_assoc]
        cases hm : m.setProperty c d with
        | ub => exact ⟨v, rfl⟩
        | ok m1 =>
          simp only [Res.bind_ok]
          obtain ⟨v', h⟩ := loop_typed l ps u r k (pos + 4 + d.length * 2)
            { epc := c.setWidth 32, pdc := (BitVec.ofNat 8 d.length).setWidth 32, edtByte := b' } m1
            (fun q hq => hlen q (by simp [hq])) hu (by simpa using hk)
          refine ⟨v', ?_⟩
          rw [List.drop_append_of_le_length (by omega), show t.drop (d.length * 2) = [] from List.drop_eq_nil_of_le (by omega), List.nil_append, h]
          simp only [Nat.add_sub_add_right, List.length_append, htl,
            show pos + (2 * d.length + u.length + 1 + 1 + 1 + 1) = pos + 4 + d.length * 2 + u.length by omega]

theorem loop_short (l : Bool) (k pos : Nat) (r : List Char) (v : Vars) (m : Message) (h : r.length < 4) : loop l k pos r v m = .ok m := by
  cases k with
  | zero => rfl
  | succ k => show (if _ then _ else _) = _; rw [if_pos h]

/-- data that is cut off: the loop ends -/
theorem loop_cut (l : Bool) {k pos : Nat} {c i : Byte} {s r : List Char} (hs : Spells [c, i] s) (hr : r.length < 2 * i.toNat) (v : Vars)
    (m : Message) : loop l k pos (s ++ r) v m = .ok m := by
  cases k with
  | zero => rfl
  | succ k =>
    cases hs with | cons a1 b1 h1 => cases h1 with | cons a2 b2 h2 => cases h2 with | nil =>
    have hi := i.isLt
    have hn : (i.setWidth 32).toNat = i.toNat := by simp; omega
    have hint : (i.setWidth 32).toInt = i.toNat := by
      rw [BitVec.toInt_eq_toNat_of_lt (by rw [hn]; omega), hn]
    simp only [List.cons_append, List.nil_append]
    rw [loop_succ _ _ _ _ _ _ (by simp)]
    simp only [scan2, scan_byte l a1 b1, scan_byte l a2 b2, Res.bind_ok, Res.pure_eq, hint]
    rw [if_neg (by intro h; have := congrArg BitVec.toNat h; rw [hn] at this; simp at this; rw [this] at hr; simp at hr),
      if_neg (by omega), if_pos (by simp only [List.length_cons]; omega)]

theorem setProperty_new {m : Message} (hm : Inv m) {c : Byte} (hc : c ∉ codes (view m.ep)) (d : List Byte) :
    m.setProperty c d = if m.ep.length < 255 then .ok { m with opc := m.opc + 1, ep := m.ep ++ [{ Property.new with code := c, data := d }] } else .ub := by
  have hf : m.ep.find? (fun p => p.code == c) = none := by
    rw [List.find?_eq_none]
    intro p hp he
    apply hc
    simp only [codes, view, List.map_map, List.mem_map]
    exact ⟨p, hp, by simpa using he⟩
  unfold Message.setProperty
  rw [propSet_eq hm.ep, hf]
  simp only
  split <;> rfl

theorem setAll_new : ∀ (ps : List Prop8) (m : Message), Inv m → (codes (view m.ep ++ ps)).Nodup → m.ep.length + ps.length ≤ 255 →
    ∃ m', setAll m ps = .ok m' ∧ Inv m' ∧ view m'.ep = view m.ep ++ ps ∧ m' = { m with opc := m'.opc, ep := m'.ep }
  | [], m, hm, _, _ => ⟨m, rfl, hm, by simp, rfl⟩
  | (c, d) :: ps, m, hm, hnd, hlen => by
      simp only [List.length_cons] at hlen
      have hc : c ∉ codes (view m.ep) := by
        unfold codes at hnd ⊢
        rw [List.map_append, List.nodup_append] at hnd
        intro h
        exact hnd.2.2 _ h c (by simp) rfl
      have h1 := setProperty_new hm hc d
      rw [if_pos (by omega)] at h1
      have hm1 : Inv { m with opc := m.opc + 1, ep := m.ep ++ [{ Property.new with code := c, data := d }] } := by
        refine ⟨⟨?_, hm.epSet, hm.epGet⟩, hm.ehd1, hm.ehd2⟩
        have := hm.ep
        simp only [List.length_append, List.length_cons, List.length_nil]
        rw [BitVec.toNat_add, ← this]
        simp
        omega
      have hv : view (m.ep ++ [{ Property.new with code := c, data := d }]) = view m.ep ++ [(c, d)] := by simp [view]
      obtain ⟨m', g1, g2, g3, g4⟩ := setAll_new ps _ hm1 (by
          show (codes (view (m.ep ++ _) ++ ps)).Nodup
          rw [hv]; simpa using hnd) (by simp; omega)
      refine ⟨m', ?_, g2, ?_, ?_⟩
      · simp only [setAll, h1, Res.bind_ok]; exact g1
      · rw [g3]
        show view (m.ep ++ _) ++ ps = _
        rw [hv]; simp
      · rw [g4]

theorem setAll_full : ∀ (ps : List Prop8) (m : Message), Inv m → (codes (view m.ep ++ ps)).Nodup → 255 < m.ep.length + ps.length →
    setAll m ps = .ub
  | [], m, hm, _, h => by
      exfalso
      have := hm.ep
      have := m.opc.isLt
      simp at h; omega
  | (c, d) :: ps, m, hm, hnd, hlen => by
      simp only [List.length_cons] at hlen
      have hc : c ∉ codes (view m.ep) := by
        unfold codes at hnd ⊢
        rw [List.map_append, List.nodup_append] at hnd
        intro h
        exact hnd.2.2 _ h c (by simp) rfl
      have h1 := setProperty_new hm hc d
      by_cases hl : m.ep.length < 255
      · rw [if_pos hl] at h1
        have hm1 : Inv { m with opc := m.opc + 1, ep := m.ep ++ [{ Property.new with code := c, data := d }] } := by
          refine ⟨⟨?_, hm.epSet, hm.epGet⟩, hm.ehd1, hm.ehd2⟩
          have := hm.ep
          simp only [List.length_append, List.length_cons, List.length_nil]
          rw [BitVec.toNat_add, ← this]
          simp
          omega
        have hv : view (m.ep ++ [{ Property.new with code := c, data := d }]) = view m.ep ++ [(c, d)] := by simp [view]
        simp only [setAll, h1, Res.bind_ok]
        exact setAll_full ps _ hm1 (by
          show (codes (view (m.ep ++ _) ++ ps)).Nodup
          rw [hv]; simpa using hnd) (by simp; omega)
      · rw [if_neg hl] at h1
        simp only [setAll, h1]; rfl

/-- the message before properties are added -/
def blank (dst : Byte × Byte × Byte) (esv : Byte) : Message := { Message.new with esv := esv, deoj := dst }

theorem blank_inv (dst esv) : Inv (blank dst esv) := ⟨⟨rfl, rfl, rfl⟩, rfl, rfl⟩

/-- the object the request is for: the one typed if the node has it -/
def target3 (n : Node) (x : Byte × Byte × Byte) : Byte × Byte × Byte := if (destObj n x).isSome then x else (0x00#8, 0x00#8, 0x00#8)

theorem request_eq (l : Bool) (v : Vars) (c0 e0 : CInt) (n : Node) {x : Byte × Byte × Byte} {esv : Byte} {objT esvT : List Char}
    (ho : Spells [x.1, x.2.1, x.2.2] objT) (he : Spells [esv] esvT) (props : List Char) :
    request l v c0 e0 n objT esvT props = loop l props.length 0 props v (blank (target3 n x) esv) := by
  unfold request
  have hcode : BitVec.ofNat 32 (x.1.toNat * 65536 + x.2.1.toNat * 256 + x.2.2.toNat) = BitVec.ofNat 32 (eojNat x) := rfl
  rw [scan_code l ho, hcode]
  simp only [Res.bind_ok, getObject_dest, scan_esv l he]
  have hw : (esv.setWidth 32).setWidth 8 = esv := by simp
  rw [hw]
  unfold target3
  cases h : destObj n x with
  | none =>
    have hd : Message.eojOfCode 0#32 = .ok (0x00#8, 0x00#8, 0x00#8) := by with_unfolding_all rfl
    simp only [Message.setDestinationObjectCode, hd, Res.bind_ok, Res.pure_eq]
    rfl
  | some o =>
    have hd : Message.eojOfCode o.getCode = .ok x := by rw [getCode_ofNat, destObj_code h, eojOfCode_eq]
    simp only [Message.setDestinationObjectCode, hd, Res.bind_ok, Res.pure_eq]
    rfl

/-! ### any text -/

theorem hexDigit_lt {c : Char} {v : Nat} (h : hexDigit c = some v) : v < 16 := by
  unfold hexDigit at h
  have a0 : ∀ x y : Char, x ≤ y ↔ x.toNat ≤ y.toNat := fun x y => Iff.rfl
  simp only [a0] at h
  have e1 : '0'.toNat = 48 := rfl
  have e2 : '9'.toNat = 57 := rfl
  have e3 : 'a'.toNat = 97 := rfl
  have e4 : 'f'.toNat = 102 := rfl
  have e5 : 'A'.toNat = 65 := rfl
  have e6 : 'F'.toNat = 70 := rfl
  simp only [e1, e2, e3, e4, e5, e6] at h
  split at h
  · injection h with h; omega
  · split at h
    · injection h with h; omega
    · split at h
      · injection h with h; omega
      · cases h

theorem digits_lt : ∀ (s : List Char), (digits s).length ≤ s.length ∧ ∀ d ∈ digits s, d < 16
  | [] => by simp [digits]
  | c :: s => by
      have ih := digits_lt s
      unfold digits
      split
      · rename_i v hv
        refine ⟨by simp; exact ih.1, ?_⟩
        intro d hd
        rcases List.mem_cons.1 hd with rfl | hd
        · exact hexDigit_lt hv
        · exact ih.2 d hd
      · simp

theorem foldl_lt : ∀ (ds : List Nat) (a : Nat), (∀ d ∈ ds, d < 16) → ds.foldl (fun a d => 16 * a + d) a < (a + 1) * 16 ^ ds.length
  | [], a, _ => by simp
  | d :: ds, a, h => by
      have h1 := foldl_lt ds (16 * a + d) (fun x hx => h x (by simp [hx]))
      have h2 := h d (by simp)
      simp only [List.foldl_cons, List.length_cons]
      refine Nat.lt_of_lt_of_le h1 ?_
      rw [Nat.pow_succ, Nat.mul_comm (16 ^ ds.length), ← Nat.mul_assoc]
      exact Nat.mul_le_mul_right _ (by omega)

theorem value_lt (s : List Char) : value (digits s) < 16 ^ s.length := by
  have h := foldl_lt (digits s) 0 (digits_lt s).2
  rw [Nat.zero_add, Nat.one_mul] at h
  exact Nat.lt_of_lt_of_le h (Nat.pow_le_pow_right (by omega) (digits_lt s).1)

theorem scanDigits_lt {l : Bool} {s : List Char} {r : Nat × Nat} (h : scanDigits l s = some r) : r.1 < 16 ^ s.length := by
  have hpos : ∀ k, 0 < 16 ^ k := fun k => Nat.pow_pos (by omega)
  unfold scanDigits at h
  split at h
  · split at h
    · split at h
      · split at h
        · cases h; exact hpos _
        · cases h
      · cases h
        refine Nat.lt_of_lt_of_le (value_lt _) (Nat.pow_le_pow_right (by omega) (by simp; omega))
    · cases h; exact value_lt _
  · split at h
    · cases h
    · cases h; exact value_lt _

/-- a number of at most `k ≤ 8` characters is defined and small -/
theorem scanNumber_small (l : Bool) {s : List Char} {k : Nat} (hk : k ≤ 8) (hs : s.length ≤ k) :
    ∃ r, scanNumber l s = .ok r ∧ ∀ v i, r = some (v, i) → ∃ a : Nat, a < 16 ^ k ∧ (v = BitVec.ofNat 32 a ∨ v = - BitVec.ofNat 32 a) := by
  have h8 : 16 ^ k ≤ 2 ^ 32 := by
    calc 16 ^ k ≤ 16 ^ 8 := Nat.pow_le_pow_right (by omega) hk
      _ = 2 ^ 32 := by decide
  unfold scanNumber
  simp only
  generalize (if (decide (s.head? = some '-') || decide (s.head? = some '+')) = true then 1 else 0) = j
  cases hd : scanDigits l (s.drop j) with
  | none => exact ⟨none, rfl, by simp⟩
  | some r =>
    have h1 := scanDigits_lt hd
    have h2 : 16 ^ (s.drop j).length ≤ 16 ^ k := Nat.pow_le_pow_right (by omega) (by simp; omega)
    simp only
    rw [if_pos (by omega)]
    refine ⟨_, rfl, ?_⟩
    intro v i hv
    simp only [Option.some.injEq, Prod.mk.injEq] at hv
    refine ⟨r.1, by omega, ?_⟩
    rw [← hv.1]
    split
    · exact .inr rfl
    · exact .inl rfl

theorem scanHex_two (l : Bool) (s : List Char) :
    ∃ r, scanHex l (some 2) s = .ok r ∧ ∀ v t, r = some (v, t) → - 256 ≤ v.toInt ∧ v.toInt < 256 := by
  obtain ⟨r, h1, h2⟩ := scanNumber_small l (k := 2) (by omega) (s := (s.dropWhile isSpace).take 2) (by simp; omega)
  unfold scanHex
  simp only [h1, Res.bind_ok]
  cases r with
  | none => exact ⟨none, rfl, by simp⟩
  | some x =>
    obtain ⟨v, i⟩ := x
    refine ⟨_, rfl, ?_⟩
    intro v' t hv
    simp only [Option.some.injEq, Prod.mk.injEq] at hv
    obtain ⟨a, ha, hv2⟩ := h2 v i rfl
    have ha : a < 256 := ha
    have hi : (BitVec.ofNat 32 a).toInt = a := by
      rw [BitVec.toInt_eq_toNat_of_lt] <;> simp <;> omega
    rw [← hv.1]
    rcases hv2 with h | h
    · rw [h, hi]; omega
    · rw [h, BitVec.toInt_neg, hi]
      have : ((-(a : Int)).bmod (2 ^ 32)) = -(a : Int) := by
        apply Int.bmod_eq_of_le <;> omega
      rw [this]; omega

theorem scan1_none (l : Bool) {s : List Char} (hs : s.length ≤ 8) (old : CInt) : ∃ v, scan1 l none s old = .ok v := by
  have hd : (s.dropWhile isSpace).length ≤ 8 := Nat.le_trans (List.dropWhile_sublist _).length_le hs
  obtain ⟨r, h1, _⟩ := scanNumber_small l (k := 8) (by omega) hd
  unfold scan1 scanHex
  simp only [h1, Res.bind_ok]
  cases r with
  | none => exact ⟨_, rfl⟩
  | some x => exact ⟨_, rfl⟩

theorem scan1_two (l : Bool) (s : List Char) (old : CInt) : ∃ v, scan1 l (some 2) s old = .ok v := by
  obtain ⟨r, h1, _⟩ := scanHex_two l s
  unfold scan1
  simp only [h1, Res.bind_ok]
  cases r with
  | none => exact ⟨_, rfl⟩
  | some x => exact ⟨_, rfl⟩

def SmallVars (v : CInt) : Prop := - 2 ^ 30 ≤ v.toInt ∧ v.toInt < 2 ^ 30

theorem scan2_ok (l : Bool) (s : List Char) {v : Vars} (hv : SmallVars v.pdc) : ∃ v', scan2 l s v = .ok v' ∧ SmallVars v'.pdc := by
  obtain ⟨r, h1, h2⟩ := scanHex_two l s
  unfold scan2
  simp only [h1, Res.bind_ok]
  cases r with
  | none => exact ⟨v, rfl, hv⟩
  | some x =>
    obtain ⟨x, t⟩ := x
    obtain ⟨r, h3, h4⟩ := scanHex_two l t
    simp only [h3, Res.bind_ok]
    cases r with
    | none => exact ⟨_, rfl, hv⟩
    | some y =>
      obtain ⟨y, u⟩ := y
      refine ⟨_, rfl, ?_⟩
      have := h4 y u rfl
      exact ⟨by show _ ≤ y.toInt; omega, by show y.toInt < _; omega⟩

theorem readData_ok (l : Bool) : ∀ (k : Nat) (s : List Char) (b : CInt), ∃ r, readData l k s b = .ok r
  | 0, _, _ => ⟨_, rfl⟩
  | k + 1, s, b => by
      obtain ⟨v, h1⟩ := scan1_two l s b
      obtain ⟨r, h2⟩ := readData_ok l k (s.drop 2) v
      refine ⟨(v.setWidth 8 :: r.1, r.2), ?_⟩
      simp only [readData, h1, h2, Res.bind_ok]; rfl

theorem setProperty_ok {m : Message} (hm : Inv m) (hl : m.ep.length < 255) (c : Byte) (d : List Byte) :
    ∃ m', m.setProperty c d = .ok m' ∧ Inv m' ∧ m'.ep.length ≤ m.ep.length + 1 := by
  unfold Message.setProperty
  rw [propSet_eq hm.ep]
  split
  · refine ⟨_, rfl, ⟨⟨?_, hm.epSet, hm.epGet⟩, hm.ehd1, hm.ehd2⟩, ?_⟩
    · simp only [modifyFirst_length]; exact hm.ep
    · simp only [modifyFirst_length]; omega
  · rw [if_pos hl]
    refine ⟨_, rfl, ⟨⟨?_, hm.epSet, hm.epGet⟩, hm.ehd1, hm.ehd2⟩, ?_⟩
    · have := hm.ep
      simp only [List.length_append, List.length_cons, List.length_nil]
      rw [BitVec.toNat_add, ← this]
      simp
      omega
    · simp

theorem loop_ok (l : Bool) : ∀ (k pos : Nat) (s : List Char) (v : Vars) (m : Message), Inv m → SmallVars v.pdc → m.ep.length + s.length / 4 ≤ 255 →
    ∃ m', loop l k pos s v m = .ok m' ∧ Inv m'
  | 0, _, _, _, m, hm, _, _ => ⟨m, rfl, hm⟩
  | k + 1, pos, s, v, m, hm, hv, hl => by
      by_cases hs : s.length < 4
      · exact ⟨m, loop_short _ _ _ _ _ _ hs, hm⟩
      rw [loop_succ _ _ _ _ _ _ hs]
      obtain ⟨v', h1, h2⟩ := scan2_ok l s hv
      simp only [h1, Res.bind_ok]
      unfold SmallVars at h2
      have hdiv : m.ep.length + 1 + (s.length - 4) / 4 ≤ 255 := by omega
      split
      · obtain ⟨m1, g1, g2, g3⟩ := setProperty_ok hm (by omega) (v'.epc.setWidth 8) []
        simp only [g1, Res.bind_ok]
        exact loop_ok l k _ _ v' m1 g2 h2 (by simp only [List.length_drop]; omega)
      · rw [if_neg (by omega)]
        split
        · exact ⟨m, rfl, hm⟩
        · split
          · obtain ⟨m1, g1, g2, g3⟩ := setProperty_ok hm (by omega) (v'.epc.setWidth 8) []
            simp only [g1, Res.bind_ok]
            exact loop_ok l k _ _ v' m1 g2 h2 (by simp only [List.length_drop]; omega)
          · obtain ⟨r, hr⟩ := readData_ok l v'.pdc.toNat (s.drop 4) v'.edtByte
            obtain ⟨m1, g1, g2, g3⟩ := setProperty_ok hm (by omega) (v'.epc.setWidth 8) r.1
            simp only [hr, g1, Res.bind_ok]
            refine loop_ok l k _ _ _ m1 g2 h2 ?_
            have : (s.length - 4 - v'.pdc.toNat * 2) / 4 ≤ (s.length - 4) / 4 := Nat.div_le_div_right (by omega)
            simp only [List.length_drop]; omega

theorem request_ok (l : Bool) {v : Vars} (hv : SmallVars v.pdc) (c0 e0 : CInt) (n : Node) {objT esvT props : List Char}
    (ho : objT.length ≤ 8) (he : esvT.length ≤ 8) (hp : props.length < 1024) :
    ∃ m, request l v c0 e0 n objT esvT props = .ok m ∧ Inv m := by
  obtain ⟨c, h1⟩ := scan1_none l ho c0
  obtain ⟨s, h2⟩ := scan1_none l he e0
  unfold request
  simp only [h1, h2, Res.bind_ok]
  have key : ∀ d : CInt, ∃ m, ((Message.new.setEsv (s.setWidth 8)).setDestinationObjectCode d >>= fun m => loop l props.length 0 props v m) = .ok m ∧
      Inv m := by
    intro d
    obtain ⟨x, h3⟩ := eojOfCode_ok d
    simp only [Message.setDestinationObjectCode, h3, Res.bind_ok, Res.pure_eq]
    exact loop_ok l _ _ _ _ _ ⟨⟨rfl, rfl, rfl⟩, rfl, rfl⟩ hv (by
      show 0 + props.length / 4 ≤ 255
      omega)
  exact key _

/-! ### printing -/

theorem printByte_spells (x : Byte) : Spells [x] (printByte x.toNat) := by
  have key : ∀ v : Fin 16, "0123456789ABCDEF".toList[v.val]? = some (Nat.digitChar v.val).toUpper := by decide
  have hx := x.isLt
  exact .cons (.inr (key ⟨x.toNat / 16, by omega⟩)) (.inr (key ⟨x.toNat % 16, by omega⟩)) .nil

theorem spells_append {xs ys : List Byte} {s t : List Char} (h1 : Spells xs s) (h2 : Spells ys t) : Spells (xs ++ ys) (s ++ t) := by
  induction h1 with
  | nil => exact h2
  | cons a b _ ih => exact .cons a b ih

theorem printData_spells (d : List Byte) : Spells d (d.flatMap fun x => printByte x.toNat) := by
  induction d with
  | nil => exact .nil
  | cons x d ih => exact spells_append (printByte_spells x) ih

end Uecho.Lemmas
