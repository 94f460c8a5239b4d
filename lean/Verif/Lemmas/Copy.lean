import Verif.Lemmas.Bytes
import Verif.Lemmas.Int
/-! Lemmas: TIDs, object codes and copying of messages. -/
set_option linter.unusedSimpArgs false
namespace Uecho.Lemmas
open Uecho Uecho.Spec

theorem hton16_hton16 (e : Endian) (v : BitVec 16) : hton16 e (hton16 e v) = v := by
  cases e with
  | big => rfl
  | little =>
    simp only [hton16]
    apply BitVec.eq_of_getLsbD_eq
    intro i hi
    simp only [BitVec.getLsbD_append, BitVec.getLsbD_extractLsb']
    by_cases h : i < 8
    · have : 8 + i < 16 := by omega
      have h3 : ¬ 8 + i < 8 := by omega
      simp [h, h3]
    · have h2 : i - 8 < 8 := by omega
      have : ¬ (8 + (i - 8)) < 8 := by omega
      simp [h, h2]
      congr 1; omega

theorem append_extract (n : BitVec 16) :
    (n.extractLsb' 8 8 ++ n.extractLsb' 0 8 : BitVec 16) = n := by
  apply BitVec.eq_of_getLsbD_eq
  intro i hi
  simp only [BitVec.getLsbD_append, BitVec.getLsbD_extractLsb']
  by_cases h : i < 8
  · simp [h]
  · have h2 : i - 8 < 8 := by omega
    simp [h, h2]
    rw [show 8 + (i - 8) = i by omega]

theorem extract_append_hi (a b : Byte) : (a ++ b : BitVec 16).extractLsb' 8 8 = a := by
  apply BitVec.eq_of_getLsbD_eq
  intro i hi
  have h3 : ¬ 8 + i < 8 := by omega
  rw [BitVec.getLsbD_extractLsb', BitVec.getLsbD_append]
  simp [hi, h3]
theorem extract_append_lo (a b : Byte) : (a ++ b : BitVec 16).extractLsb' 0 8 = b := by
  apply BitVec.eq_of_getLsbD_eq
  intro i hi
  rw [BitVec.getLsbD_extractLsb', BitVec.getLsbD_append]
  simp [hi]

/-- value stored by `settid` -/
def tidVal (v : BitVec 32) : BitVec 32 := if 65535#32 < v then v % 65535#32 else v

theorem getTid_setTid (e : Endian) (m : Message) (v : BitVec 32) :
    (m.setTid e v).getTid e = tidVal v := by
  unfold Message.setTid Message.getTid
  simp only [append_extract, hton16_hton16]
  have hlt : (tidVal v).toNat < 65536 := by
    unfold tidVal
    split
    · rw [BitVec.toNat_umod]; have := Nat.mod_lt v.toNat (show 0 < 65535 by omega)
      simp; omega
    · rename_i h; rw [BitVec.lt_def] at h; simp at h; omega
  apply BitVec.eq_of_toNat_eq
  change ((tidVal v).setWidth 16 |>.setWidth 32).toNat = _
  simp only [BitVec.toNat_setWidth]
  omega

theorem setTid_getTid (e : Endian) (m s : Message) :
    m.setTid e (s.getTid e) = { m with tid0 := s.tid0, tid1 := s.tid1 } := by
  unfold Message.setTid Message.getTid
  have h1 : ∀ w : BitVec 16, ¬ 65535#32 < w.setWidth 32 := by
    intro w h; rw [BitVec.lt_def] at h; have := w.isLt; simp at h; omega
  have h2 : ∀ w : BitVec 16, (w.setWidth 32).setWidth 16 = w := by
    intro w; apply BitVec.eq_of_toNat_eq; simp
  simp only [h1, if_false, h2, hton16_hton16, extract_append_hi, extract_append_lo]

theorem eoj_code (x : Byte × Byte × Byte) :
    ∃ c, Message.codeOfEoj x = .ok c ∧ Message.eojOfCode c = .ok x := by
  obtain ⟨a, b, c⟩ := x
  refine ⟨_, byte2integer_three a b c, ?_⟩
  obtain ⟨a', b', c', h, ha, hb, hc⟩ :=
    integer2byte_three (BitVec.ofNat 32 (a.toNat * 65536 + b.toNat * 256 + c.toNat))
  have := a.isLt; have := b.isLt; have := c.isLt
  have e32 : (2 : Nat) ^ 32 = 4294967296 := by decide
  rw [BitVec.toNat_ofNat, e32] at ha hb hc
  have : a' = a := BitVec.eq_of_toNat_eq (by omega)
  have : b' = b := BitVec.eq_of_toNat_eq (by omega)
  have : c' = c := BitVec.eq_of_toNat_eq (by omega)
  subst a' b' c'
  simp [Message.eojOfCode, h]

theorem copy_prop (p : Property) :
    p.copy = { name := p.name, code := p.code, attr := p.attr, type := 0, data := p.data,
               hasParent := false } := by
  unfold Property.copy
  rw [setData_fst]
  cases h : p.name <;> simp [Property.setName, Property.setCode, Property.setAttribute, Property.new, h]

theorem propGet_lt {o : Byte} {l : List Property} (h : l.length = o.toNat) {n : Nat}
    (hn : n < l.length) : Message.propGet o l n = .ok (some l[n]) := by
  unfold Message.propGet
  have : l ≠ [] := by intro hh; subst hh; simp at hn
  rw [if_neg this]
  have : szSub o.toNat 1 = o.toNat - 1 := by unfold szSub; rw [if_pos (by omega)]
  rw [this, if_neg (by omega), rd_eq hn]; rfl

theorem propGet_ge {o : Byte} {l : List Property} (h : l.length = o.toNat) {n : Nat}
    (hn : l.length ≤ n) : Message.propGet o l n = .ok none := by
  unfold Message.propGet
  by_cases hl : l = []
  · simp [hl]
  · have : l.length ≠ 0 := by simpa using hl
    have : szSub o.toNat 1 = o.toNat - 1 := by unfold szSub; rw [if_pos (by omega)]
    rw [if_neg hl, this, if_pos (by omega)]

theorem addProperty_eq {m : Message} (p : Property) (h : m.ep.length = m.opc.toNat)
    (h' : m.ep.length < 255) :
    m.addProperty p = .ok { m with opc := m.opc + 1, ep := m.ep ++ [p] } := by
  unfold Message.addProperty
  rw [propAdd_eq p h h']; rfl

theorem copyProps_eq (src : Message) (hs : MsgWF src) : ∀ (k : Nat) (dst : Message),
    k ≤ src.ep.length → dst.ep = (src.ep.take (src.ep.length - k)).map Property.copy →
    dst.ep.length = dst.opc.toNat →
    Message.copyProps src (List.range' (src.ep.length - k) k) dst =
      .ok { dst with opc := src.opc, ep := src.ep.map Property.copy }
  | 0, dst, _, h2, h3 => by
      have : dst.opc = src.opc := by
        apply BitVec.eq_of_toNat_eq
        rw [← h3, ← hs.ep, h2]; simp
      have h4 : dst.ep = src.ep.map Property.copy := by rw [h2]; simp
      simp only [Message.copyProps, List.range', ← this, ← h4]
  | k + 1, dst, h1, h2, h3 => by
      have hlt := src.opc.isLt
      have hle : src.ep.length = src.opc.toNat := hs.ep
      have hdl : dst.ep.length = src.ep.length - (k + 1) := by
        rw [h2]; simp
      simp only [List.range', Message.copyProps, Message.getProperty]
      rw [propGet_lt hs.ep (by omega)]
      simp only [Res.bind_ok]
      rw [addProperty_eq _ h3 (by omega)]
      simp only [Res.bind_ok]
      rw [show src.ep.length - (k + 1) + 1 = src.ep.length - k by omega]
      rw [copyProps_eq src hs k _ (by omega)]
      · simp only
        rw [h2, show src.ep.length - k = src.ep.length - (k + 1) + 1 by omega]
        rw [List.take_succ_eq_append_getElem (by omega)]
        simp only [List.map_append, List.map_cons, List.map_nil]
      · simp only [List.length_append, List.length_cons, List.length_nil]
        rw [BitVec.toNat_add]
        simp
        omega

/-- `uecho_message_set` on well-formed messages. -/
theorem setFrom_eq (e : Endian) {dst src : Message} (hd : MsgWF dst) (hs : MsgWF src) :
    dst.setFrom e src = .ok { src with
        ep := src.ep.map Property.copy, opcSet := 0, epSet := [], opcGet := 0, epGet := [] } := by
  unfold Message.setFrom
  rw [clear_eq hd]
  obtain ⟨c1, a1, b1⟩ := eoj_code src.seoj
  obtain ⟨c2, a2, b2⟩ := eoj_code src.deoj
  simp only [Res.bind_ok, setTid_getTid, Message.getSourceObjectCode, a1,
    Message.setSourceObjectCode, b1, Message.getDestinationObjectCode, a2,
    Message.setDestinationObjectCode, b2, Res.pure_eq]
  have hr : List.range src.opc.toNat = List.range' (src.ep.length - src.ep.length) src.ep.length := by
    rw [List.range_eq_range', hs.ep]; simp
  rw [hr]
  rw [copyProps_eq src hs src.ep.length _ (Nat.le_refl _)]
  · cases src with
    | mk a b c d s d' ev o ep o2 e2 o3 e3 f t =>
      cases f <;> cases t <;> rfl
  · cases src.fromAddr <;> cases src.toAddr <;> simp [Message.setDestinationAddress,
      Message.setSourceAddress, Message.setEsv, Message.setEhd]
  · cases src.fromAddr <;> cases src.toAddr <;> rfl

theorem map_some_inj : ∀ {a b : List Byte}, a.map some = b.map some → a = b
  | [], [], _ => rfl
  | [], _ :: _, h => by simp at h
  | _ :: _, [], h => by simp at h
  | x :: a, y :: b, h => by
      simp only [List.map_cons, List.cons.injEq, Option.some.injEq] at h
      rw [h.1, map_some_inj h.2]

theorem equals_eq {m1 m2 : Message} (h1 : MsgWF m1) (h2 : MsgWF m2) :
    m1.equals m2 = .ok (decide (encMsg m1 = encMsg m2)) := by
  unfold Message.equals
  rw [size_eq h1, size_eq h2, getBytes_eq h1, getBytes_eq h2]
  simp only [Res.bind_ok]
  by_cases h : (encMsg m1).length = (encMsg m2).length
  · have t1 : List.take (encMsg m1).length (List.map some (encMsg m1)) = List.map some (encMsg m1) :=
      List.take_of_length_le (by simp)
    have t2 : List.take (encMsg m1).length (List.map some (encMsg m2)) = List.map some (encMsg m2) :=
      List.take_of_length_le (by simp; omega)
    simp only [h, ne_eq, not_true_eq_false, if_false]
    rw [← h, t1, t2]
    have hinj : (List.map some (encMsg m1) = List.map some (encMsg m2)) ↔ encMsg m1 = encMsg m2 := by
      constructor
      · intro hh
        exact map_some_inj hh
      · intro hh; rw [hh]
    simp [h]
    rw [Bool.eq_iff_iff]
    simp [hinj]
  · simp only [ne_eq, h, not_false_eq_true, if_true, Res.pure_eq, Res.ok.injEq]
    symm; simp
    intro hh; exact h (by rw [hh])

end Uecho.Lemmas
