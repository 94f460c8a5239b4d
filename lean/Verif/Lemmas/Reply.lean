import Verif.Lemmas.Listener
/-! Lemmas: closed form of what a node does with a received frame. -/
set_option linter.unusedSimpArgs false
namespace Uecho.Lemmas
open Uecho Uecho.Spec

/-! ### object codes -/

theorem eojNat_lt (x : Byte × Byte × Byte) : eojNat x < 16777216 := by
  have := x.1.isLt; have := x.2.1.isLt; have := x.2.2.isLt; unfold eojNat; omega

theorem codeOfEoj_eq (x : Byte × Byte × Byte) :
    Message.codeOfEoj x = .ok (BitVec.ofNat 32 (eojNat x)) := byte2integer_three ..

theorem eojOfCode_eq (x : Byte × Byte × Byte) :
    Message.eojOfCode (BitVec.ofNat 32 (eojNat x)) = .ok x := by
  obtain ⟨c, h1, h2⟩ := eoj_code x
  rw [codeOfEoj_eq] at h1
  injection h1 with h1
  rw [h1]; exact h2

theorem code_toNat (x : Byte × Byte × Byte) : (BitVec.ofNat 32 (eojNat x)).toNat = eojNat x := by
  have := eojNat_lt x
  rw [BitVec.toNat_ofNat]
  have e32 : (2 : Nat) ^ 32 = 4294967296 := by decide
  omega

theorem eojNat_inj {x y : Byte × Byte × Byte} (h : eojNat x = eojNat y) : x = y := by
  obtain ⟨a, b, c⟩ := x
  obtain ⟨a', b', c'⟩ := y
  unfold eojNat at h
  have := a.isLt; have := b.isLt; have := c.isLt; have := a'.isLt; have := b'.isLt; have := c'.isLt
  simp only at h
  have h1 : a = a' := BitVec.eq_of_toNat_eq (by omega)
  have h2 : b = b' := BitVec.eq_of_toNat_eq (by omega)
  have h3 : c = c' := BitVec.eq_of_toNat_eq (by omega)
  rw [h1, h2, h3]

theorem getCode_ofNat (o : Obj) : o.getCode = BitVec.ofNat 32 (eojNat (objEoj o)) := by
  apply BitVec.eq_of_toNat_eq
  rw [code_toNat, getCode_toNat]; rfl

theorem isCode_iff (o : Obj) (x : Byte × Byte × Byte) :
    (o.getCode == BitVec.ofNat 32 (eojNat x)) = (objEoj o == x) := by
  rw [Bool.eq_iff_iff, beq_iff_eq, beq_iff_eq, getCode_ofNat]
  constructor
  · intro h
    have := congrArg BitVec.toNat h
    rw [code_toNat, code_toNat] at this
    exact eojNat_inj this
  · intro h; rw [h]

theorem getObject_dest (n : Node) (x : Byte × Byte × Byte) :
    n.getObject (BitVec.ofNat 32 (eojNat x)) = destObj n x := by
  unfold Node.getObject destObj
  congr 1
  funext o
  exact isCode_iff o x

theorem profileCode_eq : Node.profileCode = BitVec.ofNat 32 (eojNat profileEoj) := by decide

/-! ### sending -/

theorem rdN_all {α} (l : List α) (h : k = l.length) : rdN l 0 k = .ok l := by
  unfold rdN; subst h; simp

theorem encMsg_pos (m : Message) : (encMsg m).length ≠ 0 := by unfold encMsg; simp

theorem announce_inv {m : Message} (h : Inv m) :
    (m.getBytes >>= fun b => m.size >>= fun s => Node.announceBytes b s) =
      .ok [sends none (toFrame m)] := by
  rw [getBytes_eq h.toMsgWF, size_eq h.toMsgWF]
  simp only [Res.bind_ok, Node.announceBytes, encMsg_pos, if_false]
  rw [rdN_all _ (by simp)]
  simp [sends, encMsg_eq_encode h.toMsgWF h.ehd1 h.ehd2]

theorem send_inv {m : Message} (h : Inv m) (a : String) :
    (m.getBytes >>= fun b => m.size >>= fun s => Node.sendBytes (some a) b s) =
      .ok [sends (some a) (toFrame m)] := by
  rw [getBytes_eq h.toMsgWF, size_eq h.toMsgWF]
  simp only [Res.bind_ok, Node.sendBytes, encMsg_pos, if_false]
  rw [rdN_all _ (by simp)]
  simp [sends, encMsg_eq_encode h.toMsgWF h.ehd1 h.ehd2]

/-- TID bytes on the wire -/
def tidBytes (e : Endian) (v : BitVec 32) : Byte × Byte :=
  ((Message.new.setTid e v).tid0, (Message.new.setTid e v).tid1)

def nextT (t : BitVec 32) : BitVec 32 := if 65535#32 ≤ t then 1#32 else t + 1#32

theorem nextTid_eq (n : Node) : n.nextTid = { n with lastTid := nextT n.lastTid } := rfl

def annFrame (t : Byte × Byte) (p : Property) : Frame :=
  ⟨t, profileEoj, profileEoj, 0x73#8, .plain [(p.code, p.data)]⟩

theorem setTid_eq (e : Endian) (m : Message) (v : BitVec 32) :
    m.setTid e v = { m with tid0 := (tidBytes e v).1, tid1 := (tidBytes e v).2 } := by
  unfold tidBytes Message.setTid; rfl

theorem eojOfCode_ok (c : CInt) : ∃ x, Message.eojOfCode c = .ok x := by
  obtain ⟨a, b, d, h, _⟩ := integer2byte_three c
  exact ⟨(a, b, d), by simp [Message.eojOfCode, h]⟩

theorem destObj_code {n : Node} {x : Byte × Byte × Byte} {o : Obj} (h : destObj n x = some o) :
    objEoj o = x := by
  unfold destObj at h
  have := List.find?_some h
  simpa using this

theorem destObj_mem {n : Node} {x : Byte × Byte × Byte} {o : Obj} (h : destObj n x = some o) :
    o ∈ n.objs := List.mem_of_find?_eq_some h

/-- announcing a well-formed message -/
theorem announceMessage_eq (e : Endian) (n : Node) {m : Message} (h : Inv m) :
    n.announceMessage e m = .ok
      (match destObj n profileEoj with
       | none => (n.nextTid, m.setTid e (nextT n.lastTid), [])
       | some _ =>
         let m' : Message := { m.setTid e (nextT n.lastTid) with seoj := profileEoj }
         (n.nextTid, m', [sends none (toFrame m')])) := by
  unfold Node.announceMessage
  simp only
  rw [profileCode_eq, getObject_dest]
  have ht : destObj n.nextTid profileEoj = destObj n profileEoj := rfl
  rw [ht]
  cases hp : destObj n profileEoj with
  | none => rfl
  | some o =>
    simp only
    have : o.getCode = BitVec.ofNat 32 (eojNat profileEoj) := by
      rw [getCode_ofNat, destObj_code hp]
    simp only [Message.setSourceObjectCode, this, eojOfCode_eq, Res.bind_ok, Res.pure_eq]
    have hi : Inv { m.setTid e n.nextTid.lastTid with seoj := profileEoj } :=
      ⟨⟨h.ep, h.epSet, h.epGet⟩, h.ehd1, h.ehd2⟩
    have := announce_inv hi
    rw [getBytes_eq hi.toMsgWF, size_eq hi.toMsgWF] at this ⊢
    simp only [Res.bind_ok] at this ⊢
    rw [this]
    rfl

theorem announceProperty_eq (e : Endian) (n : Node) (c : CInt) (p : Property) :
    n.announceProperty e c p = .ok (n.nextTid,
      match destObj n profileEoj with
      | none => []
      | some _ => [sends none (annFrame (tidBytes e (nextT n.lastTid)) p)]) := by
  unfold Node.announceProperty
  obtain ⟨x, hx⟩ := eojOfCode_ok c
  have hpc : Message.eojOfCode Node.profileCode = .ok profileEoj := by
    rw [profileCode_eq, eojOfCode_eq]
  simp only [Message.setSourceObjectCode, Message.setDestinationObjectCode, hx, hpc, Res.bind_ok,
    Res.pure_eq]
  rw [addProperty_eq _ (by rfl) (by change (0:Nat) < 255; omega)]
  simp only [Res.bind_ok]
  rw [announceMessage_eq e n ⟨⟨rfl, rfl, rfl⟩, rfl, rfl⟩]
  simp only [Res.bind_ok]
  cases hp : destObj n profileEoj with
  | none => rfl
  | some o =>
    simp only [Res.ok.injEq, Prod.mk.injEq, true_and]
    have hns : ¬ IsSetGet 0x73#8 := by decide
    simp only [copy_prop]
    simp only [setTid_eq, toFrame, Message.setEsv, hns, if_false, annFrame, view]
    rfl

def annEff (e : Endian) : BitVec 32 → List Property → List Effect
  | _, [] => []
  | t, p :: ps => sends none (annFrame (tidBytes e (nextT t)) p) :: annEff e (nextT t) ps

def iterT : Nat → BitVec 32 → BitVec 32
  | 0, t => t
  | k + 1, t => iterT k (nextT t)

theorem announceAll_eq (e : Endian) (o : Obj) : ∀ (ps : List Property) (n : Node),
    n.announceAll e o ps = .ok
      (if o.hasNode then
        ({ n with lastTid := iterT ps.length n.lastTid },
          if (destObj n profileEoj).isSome then annEff e n.lastTid ps else [])
       else (n, []))
  | [], n => by simp [Node.announceAll, iterT, annEff]
  | p :: ps, n => by
      unfold Node.announceAll
      by_cases hn : o.hasNode
      · simp only [hn, if_true, announceProperty_eq, Res.bind_ok, announceAll_eq e o ps]
        have ht : destObj n.nextTid profileEoj = destObj n profileEoj := rfl
        rw [ht]
        cases hp : destObj n profileEoj with
        | none => rfl
        | some o => rfl
      · simp only [hn, Bool.false_eq_true, if_false, announceAll_eq e o ps]

/-! ### the receiving object -/

theorem putObject_eq {n : Node} {x : Byte × Byte × Byte} {o : Obj} (h : destObj n x = some o) (o' : Obj) :
    ∃ i, n.objs[i]? = some o ∧ (∀ j y, j < i → n.objs[j]? = some y → objEoj y ≠ x) ∧
      n.putObject (BitVec.ofNat 32 (eojNat x)) o' = { n with objs := n.objs.set i o' } := by
  unfold destObj at h
  have hidx : ∀ l : List Obj, l.find? (fun o => objEoj o == x) = some o →
      ∃ i, l.findIdx? (fun o => objEoj o == x) = some i ∧ l[i]? = some o ∧
        ∀ j y, j < i → l[j]? = some y → objEoj y ≠ x := by
    intro l
    induction l with
    | nil => intro h; simp at h
    | cons a l ih =>
      intro h
      by_cases ha : objEoj a = x
      · have : a = o := by simpa [ha] using h
        subst this
        exact ⟨0, by simp [List.findIdx?_cons, ha], by simp, by intro j y hj; omega⟩
      · have hb : (objEoj a == x) = false := by simpa using ha
        rw [List.find?_cons, hb] at h
        obtain ⟨i, h1, h2, h3⟩ := ih h
        refine ⟨i + 1, by simp [List.findIdx?_cons, hb, h1], by simpa using h2, ?_⟩
        intro j y hj hy
        cases j with
        | zero => simp at hy; subst hy; exact ha
        | succ j => exact h3 j y (by omega) (by simpa using hy)
  obtain ⟨i, h1, h2, h3⟩ := hidx n.objs h
  refine ⟨i, h2, h3, ?_⟩
  unfold Node.putObject
  have : (fun o : Obj => o.getCode == BitVec.ofNat 32 (eojNat x)) = fun o => objEoj o == x := by
    funext o; exact isCode_iff o x
  rw [this, h1]; rfl

def outObj (o : Obj) (f : Frame) : Obj :=
  match f.body with
  | .plain ps => runObj f.esv o ps
  | .setGet s _ => runObj 0x61#8 o s

def outBody (o : Obj) (f : Frame) : Body :=
  match f.body with
  | .plain ps => .plain (runRes f.esv o ps)
  | .setGet s g => .setGet (runRes 0x61#8 o s) (runRes 0x62#8 (runObj 0x61#8 o s) g)

def outAnn (o : Obj) (f : Frame) : List Property :=
  match f.body with
  | .plain ps => runAnn f.esv o ps
  | .setGet s _ => runAnn 0x61#8 o s

def min1 (vs : List Bool) : Nat := if vs.count true = 0 then 0 else 1

def outCnt (o : Obj) (f : Frame) : Nat :=
  match f.body with
  | .plain ps => min1 (runVer f.esv o ps)
  | .setGet s g => min1 (runVer 0x61#8 o s) + min1 (runVer 0x62#8 (runObj 0x61#8 o s) g)

def total (f : Frame) : Nat :=
  match f.body with
  | .plain ps => ps.length
  | .setGet s g => s.length + g.length

def outEsv (o : Obj) (f : Frame) : Option Byte :=
  Node.responseEsv f.esv (outCnt o f == total f)

theorem outObj_frame (o : Obj) (f : Frame) : SameFrame o (outObj o f) := by
  unfold outObj; cases f.body
  · exact runObj_frame ..
  · exact runObj_frame ..

/-- response without ESV -/
def respBase (f : Frame) : Message :=
  { Message.new with tid0 := f.tid.1, tid1 := f.tid.2, seoj := f.deoj, deoj := f.seoj }

theorem respBase_inv (f : Frame) : Inv (respBase f) := ⟨⟨rfl, rfl, rfl⟩, rfl, rfl⟩

theorem addAll_inv (s : Sec) {m m' : Message} {ps : List Property} (h : Inv m)
    (hl : (secProps s m).length + ps.length ≤ 255) (ha : s.addAll m ps = .ok m') :
    Inv m' ∧ secProps s m' = secProps s m ++ ps ∧
      (∀ t, t ≠ s → secProps t m' = secProps t m) ∧
      m'.tid0 = m.tid0 ∧ m'.tid1 = m.tid1 ∧ m'.seoj = m.seoj ∧ m'.deoj = m.deoj := by
  obtain ⟨m2, h1, h2, h3, h4⟩ := addAll_eq s ps m h.toMsgWF hl
  rw [ha] at h1; cases h1
  have hfr : ∀ (ps : List Property) (m m' : Message), s.addAll m ps = .ok m' →
      m'.tid0 = m.tid0 ∧ m'.tid1 = m.tid1 ∧ m'.seoj = m.seoj ∧ m'.deoj = m.deoj ∧
      m'.ehd1 = m.ehd1 ∧ m'.ehd2 = m.ehd2 := by
    intro ps
    induction ps with
    | nil => intro m m' h; simp [Sec.addAll] at h; subst h; simp
    | cons p ps ih =>
      intro m m' h
      simp only [Sec.addAll, sec_add] at h
      rw [Res.bind_eq_ok] at h
      obtain ⟨m1, h1, h2⟩ := h
      rw [Res.bind_eq_ok] at h1
      obtain ⟨⟨o, l⟩, h3, h4⟩ := h1
      have := ih m1 m' h2
      simp at h4
      subst h4
      cases s <;> simpa [secWith] using this
  obtain ⟨a, b, c, d, e1, e2⟩ := hfr ps m m' ha
  exact ⟨⟨h2, e1.trans h.ehd1, e2.trans h.ehd2⟩, h3, fun t ht => (h4 t ht).1, a, b, c, d⟩

theorem view_map_mkProp (qs : List Prop8) : view (qs.map mkProp) = qs := by
  unfold view
  rw [List.map_map]
  have : ((fun p : Property => (p.code, p.data)) ∘ mkProp) = id := by funext q; rfl
  rw [this, List.map_id]

/-- the parsed request -/
def reqMsg (f : Frame) (src : Option String) : Message :=
  { parsed Message.new f with fromAddr := src }

theorem ofNat8_toNat {n : Nat} (h : n ≤ 255) : (BitVec.ofNat 8 n).toNat = n := by
  rw [BitVec.toNat_ofNat]; have : (2:Nat)^8 = 256 := by decide
  omega

theorem handleRequest_eq (esv : Byte) (s : Sec) (o : Obj) (qs : List Prop8) (res : Message)
    (hi : Inv res) (he : secProps s res = []) (hl : qs.length ≤ 255)
    (hn : ∀ x ∈ o.observers, x.handler ≠ none) :
    ∃ res', Node.handleRequest o esv (BitVec.ofNat 8 qs.length) (qs.map mkProp) s.add res =
        .ok (runObj esv o qs, res', runAnn esv o qs, min1 (runVer esv o qs)) ∧
      Inv res' ∧ secProps s res' = (runRes esv o qs).map mkProp ∧
      (∀ t, t ≠ s → secProps t res' = secProps t res) ∧
      res'.tid0 = res.tid0 ∧ res'.tid1 = res.tid1 ∧ res'.seoj = res.seoj ∧ res'.deoj = res.deoj := by
  unfold Node.handleRequest
  rw [slots_eq (by simp [ofNat8_toNat hl])]
  simp only [Res.bind_ok]
  obtain ⟨res', h1, h2⟩ := handleAll_eq esv s qs ⟨o, res, 0, []⟩ hi.toMsgWF (by rw [he]; simpa using hl) hn
  rw [h2]
  simp only at h1
  obtain ⟨a, b, c, d⟩ := addAll_inv s hi (by rw [he]; simpa [runRes_length] using hl) h1
  rw [he, List.nil_append] at b
  refine ⟨res', ?_, a, b, c, d⟩
  simp [min1]

theorem respond_eq {req res : Message} {a : String} (hi : Inv res) (hsrc : req.fromAddr = some a)
    (ev : Option Byte) (hN : Bool) : Node.respond req res hN ev = .ok
      (match ev with
       | none => []
       | some v => if hN then
           [sends (if v = 0x73#8 then none else some a) (toFrame (res.setEsv v))] else []) := by
  unfold Node.respond
  cases ev with
  | none => rfl
  | some v =>
    cases hN with
    | false => rfl
    | true =>
      simp only [if_true]
      have hi' : Inv (res.setEsv v) := ⟨⟨hi.ep, hi.epSet, hi.epGet⟩, hi.ehd1, hi.ehd2⟩
      have h1 := announce_inv hi'
      have h2 := send_inv hi' a
      rw [getBytes_eq hi'.toMsgWF, size_eq hi'.toMsgWF] at h1 h2 ⊢
      simp only [Res.bind_ok] at h1 h2 ⊢
      have : (res.setEsv v).esv = v := rfl
      rw [this, hsrc]
      by_cases hv : v = 0x73#8
      · simp only [hv, if_true] at h1 ⊢; exact h1
      · simp only [hv, if_false]; exact h2

/-! ### responses -/

theorem isRequest_iff (e : Byte) : Esv.isRequest e = true ↔ IsRequestEsv e := by
  revert e; decide +kernel

theorem responseEsv_setGet : ∀ (v : Byte) (b : Bool) (w : Byte), Node.responseEsv v b = some w →
    (IsSetGet w ↔ v = 0x6E#8) := by
  intro v b w h
  unfold Node.responseEsv at h
  split at h
  · rename_i hv; subst hv; split at h <;> simp at h <;> subst h <;> decide
  split at h
  · rename_i hv; subst hv; split at h <;> simp at h <;> subst h <;> decide
  split at h
  · rename_i hv; subst hv; split at h <;> simp at h <;> subst h <;> decide
  split at h
  · rename_i hv; subst hv; split at h <;> simp at h <;> subst h <;> decide
  split at h
  · rename_i hv; subst hv; split at h <;> simp at h <;> subst h <;> decide
  split at h
  · rename_i hv; subst hv; split at h <;> simp at h <;> subst h <;> decide
  · simp at h

theorem setGet_request {v : Byte} (h : IsRequestEsv v) : IsSetGet v ↔ v = 0x6E#8 := by
  revert v; decide +kernel

/-- The response frame. -/
def respFrame (o : Obj) (f : Frame) (v : Byte) : Frame := ⟨f.tid, f.deoj, f.seoj, v, outBody o f⟩

def respEff (o : Obj) (f : Frame) (a : String) : List Effect :=
  match outEsv o f with
  | none => []
  | some v => if o.hasNode then [sends (if v = 0x73#8 then none else some a) (respFrame o f v)] else []

theorem process_eq {o : Obj} {f : Frame} (hf : f.WF) (hreq : IsRequestEsv f.esv) (src : Option String)
    (hn : ∀ x ∈ o.observers, x.handler ≠ none) :
    ∃ res', Node.process o (reqMsg f src) (respBase f) = .ok (outObj o f, res', outAnn o f, outCnt o f) ∧
      Inv res' ∧ ∀ v, outEsv o f = some v → toFrame (res'.setEsv v) = respFrame o f v := by
  unfold Node.process
  unfold Frame.WF at hf
  cases hb : f.body with
  | plain ps =>
    rw [hb] at hf
    have hrw : (reqMsg f src).isReadWrite = false := isReadWrite_false (m := reqMsg f src) hf.1
    rw [hrw]
    simp only [Bool.false_eq_true, if_false]
    have h1 : (reqMsg f src).opc = BitVec.ofNat 8 ps.length := by simp [reqMsg, parsed, hb]
    have h2 : (reqMsg f src).ep = ps.map mkProp := by simp [reqMsg, parsed, hb]
    have h3 : (reqMsg f src).esv = f.esv := rfl
    rw [h1, h2, h3]
    obtain ⟨res', e1, e2, e3, e4, t0, t1, t2, t3⟩ := handleRequest_eq f.esv .plain o ps (respBase f) (respBase_inv f)
      rfl hf.2.1 hn
    refine ⟨res', ?_, e2, ?_⟩
    · have : Message.addProperty = Sec.plain.add := rfl
      rw [this, e1]; simp [outObj, outAnn, outCnt, hb]
    · intro v hv
      have hs := responseEsv_setGet _ _ _ hv
      have : ¬ IsSetGet v := by rw [hs, ← setGet_request hreq]; exact hf.1
      simp only [toFrame, Message.setEsv, this, if_false, respFrame, outBody, hb]
      simp only [secProps] at e3
      rw [t0, t1, t2, t3, e3, view_map_mkProp]
      rfl
  | setGet s g =>
    rw [hb] at hf
    have hrw : (reqMsg f src).isReadWrite = true := isReadWrite_true (m := reqMsg f src) hf.1
    rw [hrw]
    simp only [if_true]
    have h1 : (reqMsg f src).opcSet = BitVec.ofNat 8 s.length := by simp [reqMsg, parsed, hb]
    have h2 : (reqMsg f src).epSet = s.map mkProp := by simp [reqMsg, parsed, hb]
    have h3 : (reqMsg f src).opcGet = BitVec.ofNat 8 g.length := by simp [reqMsg, parsed, hb]
    have h4 : (reqMsg f src).epGet = g.map mkProp := by simp [reqMsg, parsed, hb]
    rw [h1, h2, h3, h4]
    obtain ⟨res', e1, e2, e3, e4, t0, t1, t2, t3⟩ := handleRequest_eq 0x61#8 .set o s (respBase f) (respBase_inv f)
      rfl hf.2.1.1 hn
    have hfr := runObj_frame 0x61#8 s o
    obtain ⟨res'', g1, g2, g3, g4, u0, u1, u2, u3⟩ := handleRequest_eq 0x62#8 .get (runObj 0x61#8 o s) g res' e2
      ((e4 .get (by decide)).trans rfl) hf.2.2.1 (by rw [hfr.obs]; exact hn)
    have hrd := run_read (esv := 0x62#8) rfl g (runObj 0x61#8 o s)
    refine ⟨res'', ?_, g2, ?_⟩
    · have a1 : Message.addPropertySet = Sec.set.add := rfl
      have a2 : Message.addPropertyGet = Sec.get.add := rfl
      rw [a1, a2, e1]
      simp only [Res.bind_ok, g1]
      simp [outObj, outAnn, outCnt, hb, hrd.1, hrd.2.1]
    · intro v hv
      have hs := responseEsv_setGet _ _ _ hv
      have : IsSetGet v := by rw [hs, ← setGet_request hreq]; exact hf.1
      simp only [toFrame, Message.setEsv, this, if_true, respFrame, outBody, hb]
      have e3' := g4 .set (by decide)
      rw [e3] at e3'
      simp only [secProps] at g3 e3'
      rw [u0, u1, u2, u3, t0, t1, t2, t3, g3, e3', view_map_mkProp, view_map_mkProp]
      rfl

theorem total_eq {f : Frame} (hf : f.WF) (src : Option String) :
    (reqMsg f src).opc.toNat + (reqMsg f src).opcSet.toNat + (reqMsg f src).opcGet.toNat = total f := by
  unfold Frame.WF at hf
  cases hb : f.body with
  | plain ps =>
    rw [hb] at hf
    have h1 : (reqMsg f src).opc = BitVec.ofNat 8 ps.length := by simp [reqMsg, parsed, hb]
    have h2 : (reqMsg f src).opcSet = 0 := by simp [reqMsg, parsed, hb]
    have h3 : (reqMsg f src).opcGet = 0 := by simp [reqMsg, parsed, hb]
    rw [h1, h2, h3, ofNat8_toNat hf.2.1]; simp [total, hb]
  | setGet s g =>
    rw [hb] at hf
    have h1 : (reqMsg f src).opc = 0 := by simp [reqMsg, parsed, hb]
    have h2 : (reqMsg f src).opcSet = BitVec.ofNat 8 s.length := by simp [reqMsg, parsed, hb]
    have h3 : (reqMsg f src).opcGet = BitVec.ofNat 8 g.length := by simp [reqMsg, parsed, hb]
    rw [h1, h2, h3, ofNat8_toNat hf.2.1.1, ofNat8_toNat hf.2.2.1]; simp [total, hb]

/-! ### the node -/

def calls (n : Node) (o : Obj) : List Effect :=
  (if n.hasListener then [.nodeListener] else []) ++ (if o.hasListener then [.objListener o.getCode] else [])

theorem receive_parsed (e : Endian) (n : Node) (loc : Option String) (a : String) {f : Frame} (hf : f.WF)
    (rest : List Byte) :
    n.receive e loc (some a) (encode f ++ rest) = n.messageListener e (reqMsg f (some a)) := by
  unfold Node.receive Message.parsePacket
  have h := parse_spec (m := Message.new) inv_new.toMsgWF (encode f ++ rest) _ (Nat.le_refl _)
  rw [List.take_length, decode_complete hf] at h
  simp only at h
  rw [h]
  have : ((parsed Message.new f).setSourceAddress loc).setSourceAddress (some a) = reqMsg f (some a) := by
    unfold Message.setSourceAddress reqMsg; cases loc <;> rfl
  simp [this]

theorem receive_unknown (e : Endian) (n : Node) (loc : Option String) (a : String) {f : Frame} (hf : f.WF)
    (rest : List Byte) (ht : destObj n f.deoj = none) :
    n.receive e loc (some a) (encode f ++ rest) =
      .ok (n, if n.hasListener then [.nodeListener] else []) := by
  rw [receive_parsed e n loc a hf]
  unfold Node.messageListener Message.getDestinationObjectCode
  have : (reqMsg f (some a)).deoj = f.deoj := by simp [reqMsg, parsed]
  rw [this, codeOfEoj_eq]
  simp only [Res.bind_ok, getObject_dest, ht]
  rfl

theorem receive_nonrequest (e : Endian) (n : Node) (loc : Option String) (a : String) {f : Frame} (hf : f.WF)
    (rest : List Byte) {o : Obj} (ht : destObj n f.deoj = some o) (hreq : ¬ IsRequestEsv f.esv) :
    n.receive e loc (some a) (encode f ++ rest) = .ok (n, calls n o) := by
  rw [receive_parsed e n loc a hf]
  unfold Node.messageListener Message.getDestinationObjectCode
  have h1 : (reqMsg f (some a)).deoj = f.deoj := by simp [reqMsg, parsed]
  have h2 : (reqMsg f (some a)).esv = f.esv := by simp [reqMsg, parsed]
  rw [h1, codeOfEoj_eq, h2]
  simp only [Res.bind_ok, getObject_dest, ht]
  have : Esv.isRequest f.esv = false := by
    have := fun h => hreq ((isRequest_iff f.esv).1 h); simpa using this
  rw [this]
  simp [calls, getCode_ofNat o, destObj_code ht]

theorem destObj_set {n : Node} {i : Nat} {o o' : Obj} (hi : n.objs[i]? = some o) (he : objEoj o' = objEoj o)
    (x : Byte × Byte × Byte) :
    (destObj { n with objs := n.objs.set i o' } x).isSome = (destObj n x).isSome := by
  unfold destObj
  simp only
  rw [Bool.eq_iff_iff, List.find?_isSome, List.find?_isSome]
  constructor
  · rintro ⟨y, hy, hx⟩
    rcases List.mem_or_eq_of_mem_set hy with h | h
    · exact ⟨y, h, hx⟩
    · subst h; exact ⟨o, List.mem_of_getElem? hi, by rw [← he]; exact hx⟩
  · rintro ⟨y, hy, hx⟩
    obtain ⟨j, hj, rfl⟩ := List.getElem_of_mem hy
    by_cases hji : i = j
    · subst hji
      have : n.objs[i] = o := by rw [List.getElem?_eq_getElem hj] at hi; simpa using hi
      rw [this] at hx
      exact ⟨o', List.mem_set hj o', by rw [he]; exact hx⟩
    · refine ⟨n.objs[j], ?_, hx⟩
      apply List.mem_of_getElem? (i := j)
      rw [List.getElem?_set_ne hji]
      exact List.getElem?_eq_getElem hj

theorem SameFrame.eoj {a b : Obj} (h : SameFrame a b) : objEoj b = objEoj a := by rw [h]; rfl

/-- Everything a node does with a request for one of its objects. -/
theorem receive_request (e : Endian) (n : Node) (loc : Option String) (a : String) {f : Frame} (hf : f.WF)
    (rest : List Byte) {o : Obj} (ht : destObj n f.deoj = some o) (hreq : IsRequestEsv f.esv)
    (hn : ∀ x ∈ o.observers, x.handler ≠ none) :
    ∃ i, n.objs[i]? = some o ∧ (∀ j y, j < i → n.objs[j]? = some y → objEoj y ≠ f.deoj) ∧
    n.receive e loc (some a) (encode f ++ rest) = .ok
      ({ n with objs := n.objs.set i (outObj o f),
                lastTid := if o.hasNode then iterT (outAnn o f).length n.lastTid else n.lastTid },
       calls n o ++ (if o.hasNode ∧ (destObj n profileEoj).isSome then annEff e n.lastTid (outAnn o f) else []) ++
       respEff o f a) := by
  have hfr := outObj_frame o f
  obtain ⟨i, hi, hj, hput⟩ := putObject_eq ht (outObj o f)
  refine ⟨i, hi, hj, ?_⟩
  rw [receive_parsed e n loc a hf]
  unfold Node.messageListener Message.getDestinationObjectCode Message.getSourceObjectCode
  have h1 : (reqMsg f (some a)).deoj = f.deoj := by simp [reqMsg, parsed]
  have h2 : (reqMsg f (some a)).esv = f.esv := by simp [reqMsg, parsed]
  have h3 : (reqMsg f (some a)).seoj = f.seoj := by simp [reqMsg, parsed]
  have h4 : (reqMsg f (some a)).tid0 = f.tid.1 ∧ (reqMsg f (some a)).tid1 = f.tid.2 := by
    simp [reqMsg, parsed]
  rw [h1, h2, h3, codeOfEoj_eq, codeOfEoj_eq, setTid_getTid]
  simp only [Res.bind_ok, getObject_dest, ht, (isRequest_iff f.esv).2 hreq, if_true,
    Message.setSourceObjectCode, Message.setDestinationObjectCode, eojOfCode_eq, Res.pure_eq, h4.1, h4.2]
  obtain ⟨res', e1, e2, e3⟩ := process_eq hf hreq (some a) hn
  have hb : ({ Message.new with tid0 := f.tid.1, tid1 := f.tid.2, seoj := f.deoj, deoj := f.seoj } : Message)
      = respBase f := rfl
  rw [hb, e1]
  simp only [Res.bind_ok, hput, announceAll_eq, total_eq hf]
  rw [show Node.responseEsv f.esv (outCnt o f == total f) = outEsv o f from rfl,
    respond_eq e2 (req := reqMsg f (some a)) (a := a) rfl]
  simp only [Res.bind_ok, hfr.node]
  rw [destObj_set hi hfr.eoj]
  simp only [calls, getCode_ofNat o, destObj_code ht]
  congr 1
  have hresp : (match outEsv o f with
       | none => ([] : List Effect)
       | some v => if o.hasNode then
           [sends (if v = 0x73#8 then none else some a) (toFrame (res'.setEsv v))] else []) = respEff o f a := by
    unfold respEff
    cases hv : outEsv o f with
    | none => rfl
    | some v => simp only [e3 v hv]
  rw [hresp]
  cases o.hasNode <;> cases (destObj n profileEoj).isSome <;> simp

end Uecho.Lemmas
