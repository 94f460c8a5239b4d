import Verif.Spec.DumpCmd
import Verif.Lemmas.PostCmd
import Verif.Lemmas.SearchCmd
import Verif.Props.Controller
/-! # Lemmas about uechodump -/
namespace Uecho.Lemmas
open Uecho Uecho.Spec Uecho.DumpCmd Uecho.Props

theorem words_nosp : ∀ {u : List Char}, ' ' ∉ u → words u = [u]
  | [], _ => rfl
  | c :: u, h => by
      rw [List.mem_cons, not_or] at h
      simp only [words, if_neg (Ne.symm h.1), words_nosp h.2]

theorem words_append : ∀ {u : List Char} (v : List Char), ' ' ∉ u → words (u ++ ' ' :: v) = u :: words v
  | [], v, _ => by simp [words]
  | c :: u, v, h => by
      rw [List.mem_cons, not_or] at h
      simp only [List.cons_append, words, if_neg (Ne.symm h.1), words_append v h.2]

/-- The number a list of digits adds to. -/
def addDigits (base : Nat) (o : Option Nat) (w : List Char) : Option Nat :=
  w.foldl (fun acc c => acc.bind fun a =>
    let d := "0123456789ABCDEF".toList.idxOf c
    if d < base then some (base * a + d) else none) o

theorem digit_key : ∀ d : Fin 16, "0123456789ABCDEF".toList.idxOf (Nat.digitChar d.val).toUpper = d.val ∧ (Nat.digitChar d.val).toUpper ≠ ' ' := by
  decide

theorem digit_key10 : ∀ d : Fin 10, "0123456789ABCDEF".toList.idxOf (Nat.digitChar d.val) = d.val ∧ Nat.digitChar d.val ≠ ' ' := by
  decide

theorem digits16 (n : Nat) : addDigits 16 (some 0) ((Nat.toDigits 16 n).map Char.toUpper) = some n ∧
    ' ' ∉ (Nat.toDigits 16 n).map Char.toUpper := by
  induction n using Nat.strongRecOn with
  | ind n ih =>
    rw [Nat.toDigits_eq_if (by decide)]
    by_cases h : n < 16
    · rw [if_pos h]
      obtain ⟨k1, k2⟩ := digit_key ⟨n, h⟩
      simp only at k1 k2
      simp only [List.map_cons, List.map_nil, addDigits, List.foldl_cons, List.foldl_nil, Option.bind_some, k1, if_pos h]
      exact ⟨by simp, by simpa using Ne.symm k2⟩
    · rw [if_neg h]
      obtain ⟨i1, i2⟩ := ih (n / 16) (by omega)
      have h2 : n % 16 < 16 := by omega
      obtain ⟨k1, k2⟩ := digit_key ⟨n % 16, h2⟩
      simp only at k1 k2
      unfold addDigits at i1 ⊢
      rw [List.map_append, List.foldl_append, i1]
      simp only [List.map_cons, List.map_nil, List.foldl_cons, List.foldl_nil, Option.bind_some, k1, if_pos h2]
      refine ⟨congrArg some (by omega), ?_⟩
      rw [List.mem_append, not_or]
      exact ⟨i2, by simpa using Ne.symm k2⟩

theorem digits10 (n : Nat) : addDigits 10 (some 0) (Nat.toDigits 10 n) = some n ∧ ' ' ∉ Nat.toDigits 10 n := by
  induction n using Nat.strongRecOn with
  | ind n ih =>
    rw [Nat.toDigits_eq_if (by decide)]
    by_cases h : n < 10
    · rw [if_pos h]
      obtain ⟨k1, k2⟩ := digit_key10 ⟨n, h⟩
      simp only at k1 k2
      simp only [addDigits, List.foldl_cons, List.foldl_nil, Option.bind_some, k1, if_pos h]
      exact ⟨by simp, by simpa using Ne.symm k2⟩
    · rw [if_neg h]
      obtain ⟨i1, i2⟩ := ih (n / 10) (by omega)
      have h2 : n % 10 < 10 := by omega
      obtain ⟨k1, k2⟩ := digit_key10 ⟨n % 10, h2⟩
      simp only at k1 k2
      unfold addDigits at i1 ⊢
      rw [List.foldl_append, i1]
      simp only [List.foldl_cons, List.foldl_nil, Option.bind_some, k1, if_pos h2]
      refine ⟨congrArg some (by omega), ?_⟩
      rw [List.mem_append, not_or]
      exact ⟨i2, by simpa using Ne.symm k2⟩

theorem number_eq {base : Nat} {w : List Char} (h : w ≠ []) : number base w = addDigits base (some 0) w := by
  unfold number addDigits
  rw [if_neg h]

theorem zeros (k : Nat) : addDigits 16 (some 0) (List.replicate k '0') = some 0 := by
  induction k with
  | zero => rfl
  | succ k ih =>
    rw [List.replicate_succ]
    exact ih

theorem hex_number (w n : Nat) : number 16 (hex w n) = some n ∧ ' ' ∉ hex w n := by
  obtain ⟨d1, d2⟩ := digits16 n
  have h0 : (Nat.toDigits 16 n).map Char.toUpper ≠ [] := by simpa using Nat.toDigits_ne_nil
  have h1 : hex w n ≠ [] := by
    unfold hex
    simp only [ne_eq, List.append_eq_nil_iff, not_and]
    exact fun _ => h0
  refine ⟨?_, ?_⟩
  · rw [number_eq h1]
    unfold hex
    have := zeros (w - ((Nat.toDigits 16 n).map Char.toUpper).length)
    unfold addDigits at this d1 ⊢
    rw [List.foldl_append, this]
    exact d1
  · unfold hex
    simp only [List.mem_append, not_or]
    exact ⟨fun h => by simp [List.mem_replicate] at h, d2⟩

theorem dec_number (n : Nat) : number 10 (Nat.toDigits 10 n) = some n ∧ ' ' ∉ Nat.toDigits 10 n := by
  obtain ⟨d1, d2⟩ := digits10 n
  exact ⟨by rw [number_eq Nat.toDigits_ne_nil]; exact d1, d2⟩

theorem spells_nosp {xs : List Byte} {s : List Char} (h : Spells xs s) : ' ' ∉ s := by
  have key : ∀ {c : Char} {v : Nat}, IsDigit c v → c ≠ ' ' := by
    intro c v h hc
    subst hc
    have : ∀ l : List Char, ' ' ∉ l → l[v]? ≠ some ' ' := fun l hl h => hl (List.mem_of_getElem? h)
    rcases h with h | h
    · exact this _ (by decide) h
    · exact this _ (by decide) h
  induction h with
  | nil => simp
  | cons a b _ ih => simp [ih, Ne.symm (key a), Ne.symm (key b)]

theorem tid_nat (e : Endian) (a b : Byte) (m : Message) (h0 : m.tid0 = a) (h1 : m.tid1 = b) : (m.getTid e).toNat = tidNat e (a, b) := by
  unfold Message.getTid tidNat hton16
  rw [h0, h1]
  have ha := a.isLt
  have hb := b.isLt
  cases e with
  | little =>
    simp only [BitVec.toNat_setWidth]
    have : ((BitVec.extractLsb' 0 8 (a ++ b) ++ BitVec.extractLsb' 8 8 (a ++ b) : BitVec 16)).toNat = a.toNat + 256 * b.toNat := by
      have h1 : BitVec.extractLsb' 0 8 (a ++ b) = b := by
        ext i hi
        have : (a ++ b).getLsbD i = b.getLsbD i := by erw [BitVec.getLsbD_append]; simp [hi]
        simpa [hi, BitVec.getLsbD_eq_getElem] using this
      have h2 : BitVec.extractLsb' 8 8 (a ++ b) = a := by
        ext i hi
        have : (a ++ b).getLsbD (8 + i) = a.getLsbD i := by erw [BitVec.getLsbD_append]; simp
        simpa [hi, BitVec.getLsbD_eq_getElem] using this
      rw [h1, h2, BitVec.toNat_append, Nat.shiftLeft_eq, Nat.mul_comm, ← Nat.two_pow_add_eq_or_of_lt ha]
      omega
    rw [this]; omega
  | big =>
    simp only [BitVec.toNat_setWidth]
    rw [BitVec.toNat_append, Nat.shiftLeft_eq, Nat.mul_comm, ← Nat.two_pow_add_eq_or_of_lt hb]
    omega

theorem printCodes (ps : List Byte) : Spells ps (ps.flatMap fun x => PostCmd.printByte x.toNat) := printData_spells ps

theorem text_reads {e : Endian} {a : String} {f : Frame} (hf : f.WF) (ha : ' ' ∉ a.toList) :
    ∃ t, text e (reqMsg f (some a)) = .ok t ∧ Reads e a f t := by
  have hs : (reqMsg f (some a)).getSourceObjectCode = .ok (BitVec.ofNat 32 (eojNat f.seoj)) := codeOfEoj_eq f.seoj
  have hd : (reqMsg f (some a)).getDestinationObjectCode = .ok (BitVec.ofNat 32 (eojNat f.deoj)) := codeOfEoj_eq f.deoj
  have hlt : ∀ x : Byte × Byte × Byte, (BitVec.ofNat 32 (eojNat x)).toNat = eojNat x := by
    intro x
    have h1 := x.1.isLt; have h2 := x.2.1.isLt; have h3 := x.2.2.isLt
    rw [BitVec.toNat_ofNat]
    unfold eojNat
    exact Nat.mod_eq_of_lt (by omega)
  have hp : ∃ ps, Message.slots (reqMsg f (some a)).opc (reqMsg f (some a)).ep = .ok ps ∧ ps.map (·.code) = plainCodes f ∧
      (reqMsg f (some a)).opc.toNat = (plainCodes f).length := by
    unfold plainCodes reqMsg parsed Message.slots
    cases hb : f.body with
    | setGet s g => exact ⟨[], by simp [Message.new], rfl, rfl⟩
    | plain ps =>
      have hl : ps.length ≤ 255 := by
        unfold Frame.WF at hf; rw [hb] at hf; exact hf.2.1
      have h2 := ofNat8_toNat hl
      refine ⟨ps.map mkProp, ?_, ?_, ?_⟩
      · simp only [h2, List.length_map, Nat.le_refl, if_true]
        rw [List.take_of_length_le (by simp)]
      · rw [List.map_map]
        apply List.map_congr_left
        intro x _; rfl
      · simp only [h2, List.length_map]
  obtain ⟨ps, hp1, hp2, hp3⟩ := hp
  have hcodes : (ps.flatMap fun p => PostCmd.printByte p.code.toNat) = (plainCodes f).flatMap fun x => PostCmd.printByte x.toNat := by
    rw [← hp2, List.flatMap_map]
  have hsp := printCodes (plainCodes f)
  have htext : text e (reqMsg f (some a)) = .ok (a.toList ++ ' ' :: hex 1 (reqMsg f (some a)).ehd1.toNat ++ ' ' :: hex 1 (reqMsg f (some a)).ehd2.toNat ++
      ' ' :: hex 2 ((reqMsg f (some a)).getTid e).toNat ++
        ' ' :: hex 3 (BitVec.ofNat 32 (eojNat f.seoj)).toNat ++ ' ' :: hex 3 (BitVec.ofNat 32 (eojNat f.deoj)).toNat ++
        ' ' :: hex 2 (reqMsg f (some a)).esv.toNat ++
        ' ' :: Nat.toDigits 10 (reqMsg f (some a)).opc.toNat ++ ' ' :: ps.flatMap fun p => PostCmd.printByte p.code.toNat) := by
    unfold text
    rw [show (reqMsg f (some a)).fromAddr = some a from rfl]
    simp only [hs, hd, hp1, Res.bind_ok, Res.pure_eq]
  refine ⟨_, htext, ?_⟩
  rw [hcodes, hp3, hlt, hlt, tid_nat e f.tid.1 f.tid.2 (reqMsg f (some a)) rfl rfl,
    show (reqMsg f (some a)).ehd1 = 0x10#8 from rfl, show (reqMsg f (some a)).ehd2 = 0x81#8 from rfl,
    show (reqMsg f (some a)).esv = f.esv from rfl]
  refine ⟨hex 1 0x10, hex 1 0x81, hex 2 (tidNat e f.tid), hex 3 (eojNat f.seoj), hex 3 (eojNat f.deoj), hex 2 f.esv.toNat,
    Nat.toDigits 10 (plainCodes f).length, _, ?_, (hex_number _ _).1, (hex_number _ _).1, (hex_number _ _).1, (hex_number _ _).1,
    (hex_number _ _).1, (hex_number _ _).1, (dec_number _).1, hsp⟩
  simp only [List.append_assoc, List.cons_append]
  rw [words_append _ ha, words_append _ (hex_number _ _).2, words_append _ (hex_number _ _).2, words_append _ (hex_number _ _).2,
    words_append _ (hex_number _ _).2, words_append _ (hex_number _ _).2, words_append _ (hex_number _ _).2,
    words_append _ (dec_number _).2, words_nosp (spells_nosp hsp)]
  rfl

/-- What the command keeps. -/
structure Dumps (e : Endian) (db : Db) (c : Ctrl) : Prop where
  fit : Fit e db c
  listens : c.hasMsgListener = true
  noPost : c.postRes = none

theorem receive_dumps {e : Endian} {db : Db} {orc : Oracle} {c c' : Ctrl} {h h' : Heap} {loc : Option String} {a : String} {d : List Byte}
    {ev : List CEvent} (hc : Dumps e db c) (hr : c.receive e db orc h loc (some a) d = .ok (c', h', ev)) : Dumps e db c' := by
  have hset : c'.hasMsgListener = c.hasMsgListener ∧ c'.postRes = c.postRes ∧ SameIds c.node c'.node := by
    rcases receive_any e db orc (reach_cinv hc.fit.reach) hr with ⟨_, rfl, _⟩ | ⟨_, _, _, _, _, _, _, hs, rfl, _⟩
    · exact ⟨rfl, rfl, .refl _⟩
    · exact ⟨rfl, rfl, hs⟩
  have hprof : (destObj c'.node profileEoj).isSome := by
    have h1 := congrArg (List.map Prod.fst) hset.2.2.objs
    simp only [List.map_map] at h1
    have h2 : ∀ n : Node, (destObj n profileEoj).isSome = (n.objs.map (Prod.fst ∘ fun o => (objEoj o, o.hasNode))).contains profileEoj := by
      intro n
      unfold destObj
      rw [Bool.eq_iff_iff, List.find?_isSome]
      simp
    rw [h2, h1, ← h2]
    exact hc.fit.profile
  exact ⟨⟨.receive orc loc a d hc.fit.reach hr, receive_handlers (g := ⟨loc, a, d⟩) hc.fit.handlers (C76_local_node orc loc a d hr).1, hprof⟩,
    hset.1.trans hc.listens, hset.2.1.trans hc.noPost⟩

theorem datagram_spec {e : Endian} {db : Db} {s : St} (hc : Dumps e db s.c) (a : SearchCmd.Arrival) (ha : ' ' ∉ a.sender.toList) :
    ∃ s' o, datagram e db s a = .ok s' ∧ Dumps e db s'.c ∧ s'.out = s.out ++ o ∧ s'.sent = s.sent ∧
      ∀ is out, Prints e is out → Prints e (.datagram a :: is) (o ++ out) := by
  obtain ⟨c1, h1, ev, hr⟩ := C71_receive_safe_partial hc.fit.reach a.orc s.h a.loc a.sender a.data hc.fit.handlers (by
    intro r x _ hx; rw [hc.noPost] at hx; cases hx)
  have hk := receive_dumps hc hr
  have hcount := (C76_local_node a.orc a.loc a.sender a.data hr).2
  unfold datagram
  have hp := parse_spec (m := Message.new) inv_new.toMsgWF a.data _ (Nat.le_refl _)
  rw [List.take_length] at hp
  cases hd : decode a.data with
  | none =>
    rw [hd] at hp hcount
    obtain ⟨m, hp, _⟩ := hp
    have hn : CEvent.message ∉ ev := by
      rw [← List.count_eq_zero, hcount]; simp
    refine ⟨{ s with c := c1, h := h1 }, [], ?_, hk, by simp, rfl, fun is out hi => .other ?_ hi⟩
    · unfold Message.parsePacket
      rw [hp, hr]
      simp [hn]
    · intro f rest hf hx
      rw [hx, decode_complete hf] at hd
      cases hd
  | some x =>
    obtain ⟨f, rest⟩ := x
    obtain ⟨hx, hf⟩ := decode_sound hd
    rw [hd] at hp hcount
    simp only at hp
    have hn : CEvent.message ∈ ev := by
      rw [← List.count_pos_iff, hcount, if_pos ⟨hc.listens, by simp⟩]; decide
    obtain ⟨t, ht, hreads⟩ := text_reads (e := e) hf ha
    have hm : ((parsed Message.new f).setSourceAddress a.loc).setSourceAddress (some a.sender) = reqMsg f (some a.sender) := by
      unfold Message.setSourceAddress reqMsg; cases a.loc <;> rfl
    refine ⟨{ s with c := c1, h := h1, out := s.out ++ [.message t] }, [.message t], ?_, hk, rfl, rfl,
      fun is out hi => .frame f rest t hf hx hreads hi⟩
    unfold Message.parsePacket
    rw [hp, hr]
    simp only [Bool.not_true, Bool.false_eq_true, if_false, Res.bind_ok, Res.pure_eq, hm, hn, if_true, ht]

theorem lower_s (k : Byte) : lower k = 0x73#8 ↔ k = 0x73#8 ∨ k = 0x53#8 := by
  revert k; decide +kernel

theorem key_spec {e : Endian} {db : Db} {s : St} (hc : Dumps e db s.c) (k : Option Byte) :
    ∃ s' o ts, key e s k = .ok (s', decide (k = some 0x71#8)) ∧ Dumps e db s'.c ∧ s'.out = s.out ++ o ∧
      s'.sent = s.sent ++ (ts : List (Byte × Byte)).map (fun t => CEvent.node (sends none ⟨t, profileEoj, profileEoj, 0x62, .plain [(0xD6, [])]⟩)) ∧
      ts.length = (if asksSearch k then 1 else 0) ∧
      ∀ is out, Prints e is out → Prints e (.key k :: is) (o ++ out) := by
  cases k with
  | none => exact ⟨s, [], [], by simp [key], hc, by simp, by simp, by simp [asksSearch], fun is out hi => .nothing hi⟩
  | some k =>
    unfold key
    by_cases h : lower k = 0x73#8
    · obtain ⟨p, hp⟩ := Option.isSome_iff_exists.1 hc.fit.profile
      obtain ⟨c', t, h1, h2⟩ := C69_search_request e s.c p hp
      have hr : CtrlReach e db c' := .search _ hc.fit.reach h1
      have hc' : c'.hasMsgListener = s.c.hasMsgListener ∧ c'.postRes = s.c.postRes ∧ c'.node.objs = s.c.node.objs := by
        unfold Ctrl.search Ctrl.searchWithEsv Ctrl.announceMessage at h1
        rw [searchNew_eq] at h1
        simp only [Res.bind_ok] at h1
        rw [announceMessage_eq e s.c.node (m := Message.setEsv _ Esv.readRequest) ⟨⟨rfl, rfl, rfl⟩, rfl, rfl⟩, hp] at h1
        simp only [Res.bind_ok, Res.pure_eq, Res.ok.injEq, Prod.mk.injEq] at h1
        rw [← h1.1]
        exact ⟨rfl, rfl, rfl⟩
      have hs : asksSearch (some k) = true := by
        unfold asksSearch
        rcases (lower_s k).1 h with rfl | rfl <;> decide
      refine ⟨{ s with c := c', sent := s.sent ++ [.node (sends none ⟨t, profileEoj, profileEoj, 0x62, .plain [(0xD6, [])]⟩)] }, [], [t], ?_, ?_,
        by simp, rfl, by rw [if_pos hs]; rfl, fun is out hi => .search hs hi⟩
      · simp only [if_pos h, h1, Res.bind_ok, Res.pure_eq, Option.some.injEq]
        rfl
      · refine ⟨⟨hr, ?_, ?_⟩, hc'.1.trans hc.listens, hc'.2.1.trans hc.noPost⟩
        · intro o ho; exact hc.fit.handlers o (hc'.2.2 ▸ ho)
        · unfold destObj; rw [hc'.2.2]; exact hc.fit.profile
    · have hs : asksSearch (some k) = false := by
        unfold asksSearch
        have h' : ¬(k = 0x73#8 ∨ k = 0x53#8) := fun hk => h ((lower_s k).2 hk)
        simp only [not_or] at h'
        simp [h'.1, h'.2]
      refine ⟨{ s with out := s.out ++ [.usage] }, [.usage], [], ?_, hc, rfl, by simp, by rw [hs]; rfl, fun is out hi => .usage hs hi⟩
      simp only [if_neg h, Res.bind_ok, Res.pure_eq, Option.some.injEq]

theorem run_dumps {e : Endian} {db : Db} : ∀ (is : List In) {s : St}, Dumps e db s.c →
    (∀ a, In.datagram a ∈ is → ' ' ∉ a.sender.toList) →
    ∃ s' o ts, run e db is s = .ok (s', is.any asksQuit) ∧ s'.out = s.out ++ o ∧ Prints e (untilQuit is) o ∧
      s'.sent = s.sent ++ (ts : List (Byte × Byte)).map (fun t => CEvent.node (sends none ⟨t, profileEoj, profileEoj, 0x62, .plain [(0xD6, [])]⟩)) ∧
      ts.length = searchesOf (untilQuit is)
  | [], s, _, _ => ⟨s, [], [], rfl, by simp, .nil, by simp, rfl⟩
  | .datagram a :: is, s, hc, ha => by
      obtain ⟨s1, o1, h1, h2, h3, h4, h5⟩ := datagram_spec hc a (ha a (by simp))
      obtain ⟨s2, o2, ts, k1, k2, k3, k4, k5⟩ := run_dumps is h2 (fun b hb => ha b (by simp [hb]))
      refine ⟨s2, o1 ++ o2, ts, ?_, by rw [k2, h3, List.append_assoc], ?_, by rw [k4, h4], ?_⟩
      · simp only [run, h1, Res.bind_ok, k1, List.any_cons, asksQuit, Bool.false_or]
      · simp only [untilQuit, asksQuit, Bool.false_eq_true, if_false]
        exact h5 _ _ k3
      · simp only [untilQuit, asksQuit, Bool.false_eq_true, if_false, searchesOf, List.countP_cons] at k5 ⊢
        exact k5
  | .key k :: is, s, hc, ha => by
      obtain ⟨s1, o1, t1, h1, h2, h3, h4, h6, h5⟩ := key_spec hc k
      by_cases hq : k = some 0x71#8
      · subst hq
        refine ⟨s1, o1, t1, ?_, h3, ?_, h4, ?_⟩
        · simp only [run, h1, Res.bind_ok, decide_true, if_true, Res.pure_eq, List.any_cons, asksQuit, Bool.true_or]
        · simp only [untilQuit, asksQuit, decide_true, if_true]
          have := h5 [] [] .nil
          rwa [List.append_nil] at this
        · rw [h6]
          simp only [untilQuit, asksQuit, decide_true, if_true]
          decide
      · obtain ⟨s2, o2, ts, k1, k2, k3, k4, k5⟩ := run_dumps is h2 (fun b hb => ha b (by simp [hb]))
        refine ⟨s2, o1 ++ o2, t1 ++ ts, ?_, by rw [k2, h3, List.append_assoc], ?_, by rw [k4, h4, List.map_append, List.append_assoc], ?_⟩
        · simp only [run, h1, Res.bind_ok, hq, decide_false, Bool.false_eq_true, if_false, k1, List.any_cons, asksQuit, Bool.false_or]
        · simp only [untilQuit, asksQuit, hq, decide_false, Bool.false_eq_true, if_false]
          exact h5 _ _ k3
        · rw [List.length_append, h6, k5]
          simp only [untilQuit, asksQuit, hq, decide_false, Bool.false_eq_true, if_false, searchesOf, List.countP_cons]
          omega

end Uecho.Lemmas
