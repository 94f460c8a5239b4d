import Verif.Lemmas.Reply
/-!
# Properties C30–C41: what a node does with a received datagram

Everything is stated about `Node.receive`: a datagram arriving from address `a`, on a socket with local
address `loc`, at a node in any state. `encode f ++ rest` is a datagram that starts with the frame `f`
(the parser ignores what follows, see C04). Specifications used: `Spec.Frame` and `Spec.Service`.
`HandlersSet n`: no null pointer was registered as a request handler (see C66 for that case).
-/
set_option linter.unusedSimpArgs false
namespace Uecho.Props
open Uecho Uecho.Spec Uecho.Lemmas

/-! ## A node used in the examples

A node with its profile (property 0xD6) and a device 0x013001 with an announceable property 0x80, a
read-only 0x8A and a 0xE0 with a handler that refuses every 0x61 write. -/

def xProfile : Obj :=
  { Obj.new with grp := 0x0E, cls := 0xF0, ins := 0x01, hasNode := true,
                 props := [{ Property.new with code := 0xD6, data := [1, 1, 0x30, 1], hasParent := true }] }
def xDevice : Obj :=
  { Obj.new with
    grp := 0x01, cls := 0x30, ins := 0x01, hasNode := true,
    props := [{ Property.new with code := 0x80, attr := 0x53, data := [0x30], hasParent := true },
              { Property.new with code := 0x8A, attr := 0x10, data := [0, 0, 1], hasParent := true },
              { Property.new with code := 0xE0, attr := 0x33, data := [5], hasParent := true }],
    observers := [⟨0x61, 0xE0, some fun _ _ _ => false⟩] }
def xNode : Node := ⟨[xProfile, xDevice], [⟨0x0E, 0xF0⟩, ⟨0x01, 0x30⟩], 7, none, [], true⟩

theorem xNode_handlers : HandlersSet xNode := by
  intro o ho x hx
  simp only [xNode, List.mem_cons, List.not_mem_nil, or_false] at ho
  rcases ho with rfl | rfl
  · simp [xProfile, Obj.new] at hx
  · simp only [xDevice, List.mem_singleton] at hx; subst hx; simp

/-- A frame from 0x05FF01 to the device. -/
def xFrame (esv : Byte) (b : Body) : Frame := ⟨(0, 9), (0x05, 0xFF, 0x01), (0x01, 0x30, 0x01), esv, b⟩

theorem xNode_dest (esv b) : destObj xNode (xFrame esv b).deoj = some xDevice := by rfl

/-! ## Auxiliary facts -/

theorem sends_ne_calls {n : Node} {o : Obj} {x : Effect} (h : x ∈ calls n o) :
    x = .nodeListener ∨ ∃ c, x = .objListener c := by
  unfold calls at h
  rw [List.mem_append] at h
  rcases h with h | h
  · split at h <;> simp at h; exact .inl h
  · split at h <;> simp at h; exact .inr ⟨_, h⟩

theorem annEff_mem {e : Endian} : ∀ {ps : List Property} {t : BitVec 32} {x : Effect}, x ∈ annEff e t ps →
    ∃ p ∈ ps, ∃ t', x = sends none (annFrame t' p)
  | [], _, _, h => by simp [annEff] at h
  | p :: ps, t, x, h => by
      unfold annEff at h
      rcases List.mem_cons.1 h with rfl | h
      · exact ⟨p, List.mem_cons_self .., _, rfl⟩
      · obtain ⟨q, hq, t', hx⟩ := annEff_mem h
        exact ⟨q, List.mem_cons_of_mem _ hq, t', hx⟩

theorem ann_setData {p p' : Property} {d : List Byte} (h : p' ∈ PropertyList.ann (p.setData d)) :
    p'.code = p.code ∧ p'.data = d := by
  unfold PropertyList.ann at h
  split at h
  · simp only [List.mem_singleton] at h
    rw [h, setData_fst]; exact ⟨rfl, rfl⟩
  · simp at h

theorem getProperty_code {o : Obj} {c : Byte} {p : Property} (h : o.getProperty c = some p) : p.code = c := by
  have := List.find?_some h; simpa using this

theorem runAnn_mem {esv : Byte} : ∀ {qs : List Prop8} {o : Obj} {p : Property}, p ∈ runAnn esv o qs →
    isW esv = true ∧ (p.code, p.data) ∈ qs
  | [], _, _, h => by simp [runAnn] at h
  | q :: qs, o, p, h => by
      unfold runAnn at h
      rcases List.mem_append.1 h with h | h
      · unfold stepAnn at h
        split at h
        · rename_i hg
          rw [Bool.and_eq_true] at hg
          split at h
          · rename_i p' hp'
            obtain ⟨h1, h2⟩ := ann_setData h
            rw [getProperty_code hp'] at h1
            refine ⟨hg.2, ?_⟩
            rw [h1, h2]; exact List.mem_cons_self ..
          · simp at h
        · simp at h
      · obtain ⟨h1, h2⟩ := runAnn_mem h
        exact ⟨h1, List.mem_cons_of_mem _ h2⟩

theorem outAnn_mem {o : Obj} {f : Frame} (hf : f.WF) (hreq : IsRequestEsv f.esv) {p : Property}
    (h : p ∈ outAnn o f) : IsWriteEsv f.esv ∧ (p.code, p.data) ∈ written f := by
  unfold outAnn at h
  unfold written
  cases hb : f.body with
  | plain ps =>
    rw [hb] at h
    simp only at h ⊢
    obtain ⟨h1, h2⟩ := runAnn_mem h
    have : IsWriteEsv f.esv := by
      unfold isW at h1
      simp only [Bool.or_eq_true, beq_iff_eq] at h1
      rcases h1 with h1 | h1 <;> rw [h1] <;> decide
    rw [if_pos this]; exact ⟨this, h2⟩
  | setGet s g =>
    rw [hb] at h
    simp only at h ⊢
    unfold Frame.WF at hf
    rw [hb] at hf
    have : f.esv = 0x6E#8 := (setGet_request hreq).1 hf.1
    exact ⟨by rw [this]; decide, (runAnn_mem h).2⟩

/-- The outcome of a request for an existing object, in the vocabulary of the specification. -/
theorem receive_outcome {e : Endian} {n n' : Node} {loc : Option String} {a : String} {f : Frame} {rest : List Byte}
    {eff : List Effect} {o : Obj} (hf : f.WF) (hn : HandlersSet n) (ho : destObj n f.deoj = some o)
    (hreq : IsRequestEsv f.esv) (h : n.receive e loc (some a) (encode f ++ rest) = .ok (n', eff)) :
    Outcome f a eff (if o.hasNode then (outEsv o f).map (respFrame o f) else none) ∧
    ∃ i, n.objs[i]? = some o ∧ (∀ j y, j < i → n.objs[j]? = some y → objEoj y ≠ f.deoj) ∧
      n' = { n with objs := n.objs.set i (outObj o f), lastTid := n'.lastTid } ∧
      (outAnn o f = [] → n'.lastTid = n.lastTid) := by
  obtain ⟨i, hi, hj, hrec⟩ := receive_request e n loc a hf rest ho hreq (hn o (destObj_mem ho))
  rw [hrec] at h
  simp only [Res.ok.injEq, Prod.mk.injEq] at h
  obtain ⟨rfl, rfl⟩ := h
  refine ⟨⟨calls n o ++ (if o.hasNode ∧ (destObj n profileEoj).isSome then annEff e n.lastTid (outAnn o f) else []),
    ?_, ?_⟩, i, hi, hj, rfl, ?_⟩
  · congr 1
    unfold respEff
    cases outEsv o f with
    | none => simp
    | some v => cases o.hasNode <;> simp [respFrame]
  · intro x hx
    rcases List.mem_append.1 hx with hx | hx
    · rcases sends_ne_calls hx with h | h
      · exact .inl h
      · exact .inr (.inl h)
    · split at hx
      · obtain ⟨p, hp, t', rfl⟩ := annEff_mem hx
        obtain ⟨h1, h2⟩ := outAnn_mem hf hreq hp
        exact .inr (.inr ⟨h1, _, h2, _, _, _, rfl⟩)
      · simp at hx
  · intro hz
    simp [hz, iterT]

theorem responseEsv_range {v w : Byte} {b : Bool} (h : Node.responseEsv v b = some w) : ¬ IsRequestEsv w := by
  unfold Node.responseEsv at h
  split at h
  · split at h <;> simp at h <;> subst h <;> decide
  split at h
  · split at h <;> simp at h <;> subst h <;> decide
  split at h
  · split at h <;> simp at h <;> subst h <;> decide
  split at h
  · split at h <;> simp at h <;> subst h <;> decide
  split at h
  · split at h <;> simp at h <;> subst h <;> decide
  split at h
  · split at h <;> simp at h <;> subst h <;> decide
  · simp at h

/-! ## C66 (safety), C41 -/

/-- **C66** (partial: no null handlers). Whatever datagram arrives, handling it has defined behaviour. -/
theorem C66_receive_safe_partial (e : Endian) (n : Node) (loc : Option String) (a : String) (data : List Byte)
    (hn : HandlersSet n) : ∃ n' eff, n.receive e loc (some a) data = .ok (n', eff) := by
  cases hd : decode data with
  | none =>
    have h := parse_spec (m := Message.new) inv_new.toMsgWF data _ (Nat.le_refl _)
    rw [List.take_length, hd] at h
    obtain ⟨m', h, _⟩ := h
    refine ⟨n, [], ?_⟩
    unfold Node.receive Message.parsePacket
    rw [h]; rfl
  | some x =>
    obtain ⟨f, r⟩ := x
    obtain ⟨rfl, hf⟩ := decode_sound hd
    cases ho : destObj n f.deoj with
    | none => exact ⟨_, _, receive_unknown e n loc a hf r ho⟩
    | some o =>
      by_cases hreq : IsRequestEsv f.esv
      · obtain ⟨i, _, _, h⟩ := receive_request e n loc a hf r ho hreq (hn o (destObj_mem ho))
        exact ⟨_, _, h⟩
      · exact ⟨_, _, receive_nonrequest e n loc a hf r ho hreq⟩

/-- non-vacuity -/
example : HandlersSet xNode := xNode_handlers

/-- **C66 violated.** Unregistering a handler by registering NULL leaves a null pointer that the next
request naming the property calls: a datagram that crashes the node. Here: any node, any existing
property, any of the services. -/
theorem C66_null_handler_crashes_violated (e : Endian) (n : Node) (loc : Option String) (a : String)
    (t : Byte × Byte) (src dst : Byte × Byte × Byte) (esv c : Byte) (d : List Byte) (o : Obj) (p : Property)
    (he : esv = 0x60 ∨ esv = 0x61 ∨ esv = 0x62 ∨ esv = 0x63 ∨ esv = 0x74) (hd : d.length ≤ 255)
    (ho : destObj n dst = some (o.setRequestHandler esv c none)) (hp : o.getProperty c = some p) :
    n.receive e loc (some a) (encode ⟨t, src, dst, esv, .plain [(c, d)]⟩) = .ub := by
  have hf : Frame.WF ⟨t, src, dst, esv, .plain [(c, d)]⟩ := by
    have hk : ¬ IsSetGet esv := by rcases he with rfl | rfl | rfl | rfl | rfl <;> decide
    exact ⟨hk, by simp, by simpa using hd⟩
  have hreq : IsRequestEsv esv := by
    rcases he with rfl | rfl | rfl | rfl | rfl <;> decide
  have hns : ¬ IsSetGet esv := hf.1
  have := receive_parsed e n loc a hf []
  rw [List.append_nil] at this
  rw [this]
  unfold Node.messageListener Message.getDestinationObjectCode Message.getSourceObjectCode
  simp only [reqMsg, parsed, codeOfEoj_eq, Res.bind_ok, getObject_dest, ho, (isRequest_iff esv).2 hreq, if_true,
    Message.setSourceObjectCode, Message.setDestinationObjectCode, eojOfCode_eq, Res.pure_eq]
  have hrw : Esv.isReadWrite esv = false := by
    have := fun h => hns ((isReadWrite_iff esv).1 h); simpa using this
  have hub : ∀ s res, Node.handleOne esv Message.addProperty ⟨o.setRequestHandler esv c none, res, s, []⟩
      (mkProp (c, d)) = .ub := by
    intro s res
    unfold Node.handleOne
    have hp' : (o.setRequestHandler esv c none).getProperty (mkProp (c, d)).code = some p := hp
    simp only [hp']
    unfold Obj.notifyRequest
    have hnull := notifyLoop_null p esv c d (o.setRequestHandler esv c none).observers true ⟨esv, c, none⟩
      (by simp [Obj.setRequestHandler]) rfl rfl rfl
    have h1 : (mkProp (c, d)).code = c := rfl
    have h2 : (mkProp (c, d)).data = d := rfl
    rw [h1, h2, hnull]
    rfl
  simp only [Node.process, Message.isReadWrite, hrw, Bool.false_eq_true, if_false, Node.handleRequest]
  rw [slots_eq (by rfl)]
  simp only [Res.bind_ok, List.map_cons, List.map_nil, Node.handleAll, hub, Res.bind_ub]

/-- non-vacuity: reading property 0x8A after its read handler was unregistered -/
example (e : Endian) :
    let dev := xDevice.setRequestHandler 0x62 0x8A none
    ({ xNode with objs := [xProfile, dev] }).receive e none (some "10.0.0.2")
      (encode (xFrame 0x62 (.plain [(0x8A, [])]))) = .ub :=
  C66_null_handler_crashes_violated e _ none "10.0.0.2" (0, 9) (0x05, 0xFF, 0x01) (0x01, 0x30, 0x01) 0x62 0x8A []
    xDevice _ (by decide) (by decide) rfl rfl

/-- **C41.** A datagram that does not start with a well-formed frame has no effect at all: the node is
as before, no listener is called, nothing is sent. -/
theorem C41_malformed_ignored (e : Endian) (n : Node) (loc : Option String) (a : Option String) (data : List Byte)
    (h : ¬ ∃ f rest, f.WF ∧ data = encode f ++ rest) : n.receive e loc a data = .ok (n, []) := by
  cases hd : decode data with
  | none =>
    have h := parse_spec (m := Message.new) inv_new.toMsgWF data _ (Nat.le_refl _)
    rw [List.take_length, hd] at h
    obtain ⟨m', h, _⟩ := h
    unfold Node.receive Message.parsePacket
    rw [h]; rfl
  | some x =>
    obtain ⟨f, r⟩ := x
    obtain ⟨h1, hf⟩ := decode_sound hd
    exact absurd ⟨f, r, hf, h1⟩ h

/-- non-vacuity: a request cut short inside its last property -/
example : ¬ ∃ f rest, Frame.WF f ∧
    ([0x10, 0x81, 0, 1, 5, 0xFF, 1, 0x0E, 0xF0, 1, 0x61, 1, 0x80, 2, 0x30] : List Byte) = encode f ++ rest := by
  rintro ⟨f, r, hf, h⟩
  have := decode_complete (r := r) hf
  rw [← h] at this
  have h2 : decode [0x10, 0x81, 0, 1, 5, 0xFF, 1, 0x0E, 0xF0, 1, 0x61, 1, 0x80, 2, 0x30] = none := by decide +kernel
  rw [h2] at this; cases this

/-! ## C36, C37 -/

/-- **C36.** A frame for an object the node does not have changes nothing and sends nothing; only the
node's own message listener sees it. -/
theorem C36_unknown_object_ignored (e : Endian) (n : Node) (loc : Option String) (a : String) (f : Frame)
    (rest : List Byte) (hf : f.WF) (ho : ∀ o ∈ n.objs, (o.grp, o.cls, o.ins) ≠ f.deoj) :
    n.receive e loc (some a) (encode f ++ rest) = .ok (n, if n.hasListener then [.nodeListener] else []) := by
  apply receive_unknown e n loc a hf
  unfold destObj
  rw [List.find?_eq_none]
  intro o h; simpa [objEoj] using ho o h

/-- non-vacuity: a request for 0x013002 -/
example : ∀ o ∈ xNode.objs, (o.grp, o.cls, o.ins) ≠ (0x01#8, 0x30#8, 0x02#8) := by
  intro o ho; simp only [xNode, List.mem_cons, List.not_mem_nil, or_false] at ho
  rcases ho with rfl | rfl <;> decide

/-- **C37.** A frame whose service is not a request changes nothing and sends nothing. -/
theorem C37_nonrequest_ignored (e : Endian) (n : Node) (loc : Option String) (a : String) (f : Frame)
    (rest : List Byte) (hf : f.WF) (he : ¬ IsRequestEsv f.esv) :
    ∃ eff, n.receive e loc (some a) (encode f ++ rest) = .ok (n, eff) ∧ ∀ to bytes, .send to bytes ∉ eff := by
  cases ho : destObj n f.deoj with
  | none =>
    refine ⟨_, receive_unknown e n loc a hf rest ho, ?_⟩
    intro to b h; split at h <;> simp at h
  | some o =>
    refine ⟨_, receive_nonrequest e n loc a hf rest ho he, ?_⟩
    intro to b h
    rcases sends_ne_calls h with h | ⟨c, h⟩ <;> cases h

/-- The service byte of a datagram decides: with a non-request service nothing is sent, whatever else
the datagram contains. -/
theorem receive_nonrequest_byte (e : Endian) (n : Node) (loc : Option String) (a : String) (data : List Byte)
    (v : Byte) (hv : data[10]? = some v) (he : ¬ IsRequestEsv v) :
    ∃ eff, n.receive e loc (some a) data = .ok (n, eff) ∧ ∀ to bytes, .send to bytes ∉ eff := by
  by_cases h : ∃ f rest, Frame.WF f ∧ data = encode f ++ rest
  · obtain ⟨f, rest, hf, rfl⟩ := h
    have : f.esv = v := by simp [encode] at hv; exact hv
    exact C37_nonrequest_ignored e n loc a f rest hf (by rw [this]; exact he)
  · exact ⟨[], C41_malformed_ignored e n loc (some a) data h, by simp⟩

/-- The ESV byte of every frame a node sends because of a datagram is not a request. -/
theorem receive_sends_nonrequest (e : Endian) (n n' : Node) (loc : Option String) (a : String) (data : List Byte)
    (eff : List Effect) (hn : HandlersSet n) (h : n.receive e loc (some a) data = .ok (n', eff))
    (to : Option String) (b : List (Option Byte)) (hb : .send to b ∈ eff) :
    ∃ (bytes : List Byte) (v : Byte), b = bytes.map some ∧ bytes[10]? = some v ∧ ¬ IsRequestEsv v := by
  by_cases hd : ∃ f rest, Frame.WF f ∧ data = encode f ++ rest
  · obtain ⟨f, rest, hf, rfl⟩ := hd
    cases ho : destObj n f.deoj with
    | none =>
      rw [receive_unknown e n loc a hf rest ho] at h
      simp only [Res.ok.injEq, Prod.mk.injEq] at h
      rw [← h.2] at hb; split at hb <;> simp at hb
    | some o =>
      by_cases hreq : IsRequestEsv f.esv
      · obtain ⟨⟨pre, heff, hpre⟩, _⟩ := receive_outcome hf hn ho hreq h
        generalize hresp : (if o.hasNode then (outEsv o f).map (respFrame o f) else none) = resp at heff
        subst heff
        rcases List.mem_append.1 hb with hb | hb
        · rcases hpre _ hb with h | ⟨c, h⟩ | ⟨_, q, _, t, s, d, h⟩
          · cases h
          · cases h
          · simp only [sends, Effect.send.injEq] at h
            exact ⟨encode _, 0x73, h.2, by simp [encode], by decide⟩
        · split at hb
          · simp at hb
          · rename_i r
            simp only [List.mem_singleton, sends, Effect.send.injEq] at hb
            split at hresp
            · rw [Option.map_eq_some_iff] at hresp
              obtain ⟨v, hv, rfl⟩ := hresp
              exact ⟨encode (respFrame o f v), v, hb.2, by simp [encode, respFrame], responseEsv_range hv⟩
            · cases hresp
      · obtain ⟨eff', h1, h2⟩ := C37_nonrequest_ignored e n loc a f rest hf hreq
        rw [h] at h1
        simp only [Res.ok.injEq, Prod.mk.injEq] at h1
        rw [h1.2] at hb
        exact absurd hb (h2 _ _)
  · rw [C41_malformed_ignored e n loc (some a) data hd] at h
    simp only [Res.ok.injEq, Prod.mk.injEq] at h
    rw [← h.2] at hb; simp at hb

/-- **C37** (no answering of answers). Take any datagram, any node that receives it, any frame this
node sends because of it, and any node (the same or another) that receives that frame: the second
node sends nothing. So no message can start an endless exchange. -/
theorem C37_no_reply_loop (e e2 : Endian) (n n' n2 : Node) (loc loc2 : Option String) (a a2 : String)
    (data : List Byte) (eff : List Effect) (hn : HandlersSet n)
    (h : n.receive e loc (some a) data = .ok (n', eff)) (to : Option String) (bytes : List Byte)
    (hb : .send to (bytes.map some) ∈ eff) :
    ∃ eff2, n2.receive e2 loc2 (some a2) bytes = .ok (n2, eff2) ∧ ∀ to' b', .send to' b' ∉ eff2 := by
  obtain ⟨bytes', v, h1, h2, h3⟩ := receive_sends_nonrequest e n n' loc a data eff hn h to _ hb
  have := map_some_inj h1
  subst this
  exact receive_nonrequest_byte e2 n2 loc2 a2 bytes v h2 h3

/-- non-vacuity: the example node does answer -/
example : xNode.receive .little none (some "10.0.0.2") (encode (xFrame 0x62 (.plain [(0x80, [])]))) = .ok
    (xNode, [.nodeListener, sends (some "10.0.0.2")
      ⟨(0, 9), (0x01, 0x30, 0x01), (0x05, 0xFF, 0x01), 0x72, .plain [(0x80, [0x30])]⟩]) := by
  with_unfolding_all rfl

/-! ## C30 -/

theorem outBody_codes (o : Obj) (f : Frame) : (outBody o f).codes = f.body.codes := by
  unfold outBody
  cases f.body <;> simp [Body.codes, runRes_codes]

/-- **C30.** What a node sends because of a request `f` from address `a`: possibly status change
announcements of properties the request writes, and at most one response; the response has the TID of
the request, source and destination swapped, the codes of the request in the same order and section, and
goes to `a` (to the multicast group if it is a notification 0x73). -/
theorem C30_response_answers_request (e : Endian) (n n' : Node) (loc : Option String) (a : String) (f : Frame)
    (rest : List Byte) (eff : List Effect) (hf : f.WF) (hn : HandlersSet n)
    (h : n.receive e loc (some a) (encode f ++ rest) = .ok (n', eff)) :
    ∃ resp, Outcome f a eff resp ∧ ∀ r, resp = some r →
      r.tid = f.tid ∧ r.seoj = f.deoj ∧ r.deoj = f.seoj ∧ r.body.codes = f.body.codes := by
  cases ho : destObj n f.deoj with
  | none =>
    rw [receive_unknown e n loc a hf rest ho] at h
    simp only [Res.ok.injEq, Prod.mk.injEq] at h
    refine ⟨none, ⟨eff, by simp, ?_⟩, by simp⟩
    rw [← h.2]; intro x hx; split at hx <;> simp at hx; exact .inl hx
  | some o =>
    by_cases hreq : IsRequestEsv f.esv
    · refine ⟨_, (receive_outcome hf hn ho hreq h).1, ?_⟩
      intro r hr
      split at hr
      · rw [Option.map_eq_some_iff] at hr
        obtain ⟨v, hv, rfl⟩ := hr
        exact ⟨rfl, rfl, rfl, outBody_codes o f⟩
      · cases hr
    · rw [receive_nonrequest e n loc a hf rest ho hreq] at h
      simp only [Res.ok.injEq, Prod.mk.injEq] at h
      refine ⟨none, ⟨eff, by simp, ?_⟩, by simp⟩
      rw [← h.2]; intro x hx
      rcases sends_ne_calls hx with h | h
      · exact .inl h
      · exact .inr (.inl h)

/-- non-vacuity: a write of 0x80 is answered by 0x71 after an announcement of the new value -/
example : xNode.receive .little none (some "10.0.0.2") (encode (xFrame 0x61 (.plain [(0x80, [0x31])]))) = .ok
    ({ xNode with lastTid := 8, objs := [xProfile, { xDevice with props :=
        { Property.new with code := 0x80, attr := 0x53, data := [0x31], hasParent := true } :: xDevice.props.drop 1 }] },
     [.nodeListener,
      sends none ⟨(8, 0), profileEoj, profileEoj, 0x73, .plain [(0x80, [0x31])]⟩,
      sends (some "10.0.0.2") ⟨(0, 9), (0x01, 0x30, 0x01), (0x05, 0xFF, 0x01), 0x71, .plain [(0x80, [])]⟩]) := by
  with_unfolding_all rfl

/-! ## C31, C32 -/

theorem min1_le (vs : List Bool) : min1 vs ≤ 1 ∧ min1 vs ≤ vs.length := by
  unfold min1
  split
  · omega
  · have := List.count_le_length (a := true) (l := vs); omega

theorem min1_eq_iff (vs : List Bool) : min1 vs = vs.length ↔ vs.length ≤ 1 ∧ ∀ b ∈ vs, b = true := by
  rcases vs with _ | ⟨b, _ | ⟨c, vs⟩⟩
  · simp [min1]
  · cases b <;> simp [min1]
  · have := (min1_le (b :: c :: vs)).1
    simp only [List.length_cons] at *
    constructor
    · intro h; omega
    · intro h; omega

theorem isW_iff (v : Byte) : isW v = true ↔ v = 0x60 ∨ v = 0x61 := by simp [isW]

theorem allAccepted_iff {o : Obj} {f : Frame} (hf : f.WF) :
    (outCnt o f == total f) = true ↔ AtMostOneEach f ∧ AllGranted o f := by
  rw [beq_iff_eq]
  unfold Frame.WF at hf
  unfold outCnt total AtMostOneEach AllGranted
  cases hb : f.body with
  | plain ps =>
    rw [hb] at hf
    simp only
    have hl := runVer_length f.esv ps o
    rw [show ps.length = (runVer f.esv o ps).length from hl.symm, min1_eq_iff, hl]
    by_cases hw : isW f.esv = true
    · have : IsWriteEsv f.esv := by
        rcases (isW_iff _).1 hw with h | h <;> rw [h] <;> decide
      rw [if_pos this, (runObj_write hw ps o).2]
    · have : ¬ IsWriteEsv f.esv := by
        intro h
        rcases h with h | h | h
        · exact hw ((isW_iff _).2 (.inl h))
        · exact hw ((isW_iff _).2 (.inr h))
        · exact hf.1 (.inl h)
      rw [if_neg this, (run_read (by simpa using hw) ps o).2.2]
      simp
  | setGet s g =>
    simp only
    have hl1 := runVer_length 0x61#8 s o
    have hl2 := runVer_length 0x62#8 g (runObj 0x61#8 o s)
    have hw := runObj_write (esv := 0x61#8) rfl s o
    have hobs := (runObj_frame 0x61#8 s o).obs
    have hr := (run_read (esv := 0x62#8) rfl g (runObj 0x61#8 o s)).2.2
    rw [hobs, hw.1] at hr
    have e1 := min1_le (runVer 0x61#8 o s)
    have e2 := min1_le (runVer 0x62#8 (runObj 0x61#8 o s) g)
    have k1 := min1_eq_iff (runVer 0x61#8 o s)
    have k2 := min1_eq_iff (runVer 0x62#8 (runObj 0x61#8 o s) g)
    rw [hl1] at e1 k1
    rw [hl2] at e2 k2
    rw [show (min1 (runVer 0x61#8 o s) + min1 (runVer 0x62#8 (runObj 0x61#8 o s) g) = s.length + g.length) ↔
      (min1 (runVer 0x61#8 o s) = s.length ∧ min1 (runVer 0x62#8 (runObj 0x61#8 o s) g) = g.length) by omega,
      k1, k2, hw.2, hr]
    simp only [List.mem_map, forall_exists_index, and_imp, forall_apply_eq_imp_iff₂]
    constructor
    · rintro ⟨⟨a, b⟩, c, d⟩; exact ⟨⟨a, c⟩, b, d⟩
    · rintro ⟨⟨a, c⟩, b, d⟩; exact ⟨⟨a, b⟩, c, d⟩

theorem responseEsv_true {v : Byte} (h : IsRequestEsv v) : Node.responseEsv v true = successEsv v := by
  rcases h with rfl | rfl | rfl | rfl | rfl | rfl <;> rfl

theorem responseEsv_false {v : Byte} (h : IsRequestEsv v) : Node.responseEsv v false =
    if v = 0x61 then some 0x50 else errorEsv v := by
  rcases h with rfl | rfl | rfl | rfl | rfl | rfl <;> rfl

/-- **C31** (partial: at most one property per section; the full claim has no such restriction and is
false, see `C31_multi_property_violated`). If every requested property exists and is accepted, the
response is the success response (no response for 0x60). -/
theorem C31_success_partial (e : Endian) (n n' : Node) (loc : Option String) (a : String) (f : Frame)
    (rest : List Byte) (eff : List Effect) (o : Obj) (hf : f.WF) (hn : HandlersSet n)
    (hreq : IsRequestEsv f.esv) (ho : destObj n f.deoj = some o) (hnode : o.hasNode = true)
    (hone : AtMostOneEach f) (hall : AllGranted o f)
    (h : n.receive e loc (some a) (encode f ++ rest) = .ok (n', eff)) :
    ∃ resp : Option Frame, Outcome f a eff resp ∧ resp.map (·.esv) = successEsv f.esv := by
  refine ⟨_, (receive_outcome hf hn ho hreq h).1, ?_⟩
  simp only [hnode, if_true, outEsv, (allAccepted_iff hf).2 ⟨hone, hall⟩, responseEsv_true hreq]
  cases successEsv f.esv <;> rfl

/-- non-vacuity: one write and one read in a SetGet request -/
example : AtMostOneEach (xFrame 0x6E (.setGet [(0x80, [0x31])] [(0x8A, [])])) ∧
    AllGranted xDevice (xFrame 0x6E (.setGet [(0x80, [0x31])] [(0x8A, [])])) := by
  decide

/-- **C31 violated.** A request naming two or more properties in one section never gets a success response, even if
every property exists and is accepted: the response is the error response (and none for 0x74). -/
theorem C31_multi_property_violated (e : Endian) (n n' : Node) (loc : Option String) (a : String) (f : Frame)
    (rest : List Byte) (eff : List Effect) (o : Obj) (hf : f.WF) (hn : HandlersSet n)
    (hreq : IsRequestEsv f.esv) (ho : destObj n f.deoj = some o) (hnode : o.hasNode = true)
    (htwo : ¬ AtMostOneEach f)
    (h : n.receive e loc (some a) (encode f ++ rest) = .ok (n', eff)) :
    ∃ resp : Option Frame, Outcome f a eff resp ∧
      resp.map (·.esv) = (if f.esv = 0x61 then some 0x50 else errorEsv f.esv) := by
  refine ⟨_, (receive_outcome hf hn ho hreq h).1, ?_⟩
  have : (outCnt o f == total f) = false := by
    cases hc : (outCnt o f == total f) with
    | false => rfl
    | true => exact absurd ((allAccepted_iff hf).1 hc).1 htwo
  simp only [hnode, if_true, outEsv, this, responseEsv_false hreq]
  cases (if f.esv = 0x61 then some 0x50 else errorEsv f.esv) <;> rfl

/-- non-vacuity: two existing properties, everything accepted, and the answer is 0x52 with all values -/
example : AllGranted xDevice (xFrame 0x62 (.plain [(0x80, []), (0x8A, [])])) ∧
    xNode.receive .little none (some "10.0.0.2") (encode (xFrame 0x62 (.plain [(0x80, []), (0x8A, [])]))) = .ok
      (xNode, [.nodeListener, sends (some "10.0.0.2")
        ⟨(0, 9), (0x01, 0x30, 0x01), (0x05, 0xFF, 0x01), 0x52, .plain [(0x80, [0x30]), (0x8A, [0, 0, 1])]⟩]) := by
  constructor
  · decide
  · with_unfolding_all rfl

/-- **C32** (partial: 0x61 excepted, see `C32_setc_violated`). If some requested property is missing or
refused, the response is the matching error response (none for 0x74). -/
theorem C32_error_partial (e : Endian) (n n' : Node) (loc : Option String) (a : String) (f : Frame)
    (rest : List Byte) (eff : List Effect) (o : Obj) (hf : f.WF) (hn : HandlersSet n)
    (hreq : IsRequestEsv f.esv) (h61 : f.esv ≠ 0x61) (ho : destObj n f.deoj = some o)
    (hnode : o.hasNode = true) (hall : ¬ AllGranted o f)
    (h : n.receive e loc (some a) (encode f ++ rest) = .ok (n', eff)) :
    ∃ resp : Option Frame, Outcome f a eff resp ∧ resp.map (·.esv) = errorEsv f.esv := by
  refine ⟨_, (receive_outcome hf hn ho hreq h).1, ?_⟩
  have : (outCnt o f == total f) = false := by
    cases hc : (outCnt o f == total f) with
    | false => rfl
    | true => exact absurd ((allAccepted_iff hf).1 hc).2 hall
  simp only [hnode, if_true, outEsv, this, responseEsv_false hreq, if_neg h61]
  cases (errorEsv f.esv) <;> rfl

/-- non-vacuity: a missing property in a read request -/
example : ¬ AllGranted xDevice (xFrame 0x62 (.plain [(0x80, []), (0xF1, [])])) := by
  decide

/-- **C32 violated.** A refused or partly refused SetC (0x61) is always answered with 0x50 (SetI_SNA), never
with 0x51 (SetC_SNA). -/
theorem C32_setc_violated (e : Endian) (n n' : Node) (loc : Option String) (a : String) (f : Frame)
    (rest : List Byte) (eff : List Effect) (o : Obj) (hf : f.WF) (hn : HandlersSet n)
    (h61 : f.esv = 0x61) (ho : destObj n f.deoj = some o)
    (hnode : o.hasNode = true) (hall : ¬ AllGranted o f)
    (h : n.receive e loc (some a) (encode f ++ rest) = .ok (n', eff)) :
    ∃ resp : Option Frame, Outcome f a eff resp ∧ resp.map (·.esv) = some 0x50 := by
  have hreq : IsRequestEsv f.esv := by rw [h61]; decide
  refine ⟨_, (receive_outcome hf hn ho hreq h).1, ?_⟩
  have : (outCnt o f == total f) = false := by
    cases hc : (outCnt o f == total f) with
    | false => rfl
    | true => exact absurd ((allAccepted_iff hf).1 hc).2 hall
  simp only [hnode, if_true, outEsv, this, responseEsv_false hreq, if_pos h61]
  rfl

/-- non-vacuity: 0xE0 refuses 0x61 -/
example : ¬ AllGranted xDevice (xFrame 0x61 (.plain [(0xE0, [9])])) := by
  decide

/-! ## C33 -/

/-- **C33.** A read service (0x62, 0x63, 0x74) leaves the node as it was, and its response, if any, has
for each requested property the code and the current data of the object's property (no data if it is
missing or refused). -/
theorem C33_read_values (e : Endian) (n n' : Node) (loc : Option String) (a : String) (f : Frame)
    (qs : List Prop8) (rest : List Byte) (eff : List Effect) (o : Obj) (hf : f.WF) (hn : HandlersSet n)
    (hr : f.esv = 0x62 ∨ f.esv = 0x63 ∨ f.esv = 0x74) (hb : f.body = .plain qs)
    (ho : destObj n f.deoj = some o)
    (h : n.receive e loc (some a) (encode f ++ rest) = .ok (n', eff)) :
    n' = n ∧ ∃ resp, Outcome f a eff resp ∧
      ∀ r, resp = some r → r.body = .plain (readSection o.observers f.esv o.getProperty qs) := by
  have hreq : IsRequestEsv f.esv := by rcases hr with h | h | h <;> rw [h] <;> decide
  have hrr : isR f.esv = true := by rcases hr with h | h | h <;> rw [h] <;> decide
  have hww : isW f.esv = false := by rcases hr with h | h | h <;> rw [h] <;> decide
  obtain ⟨h1, i, hi, _, hn', ht⟩ := receive_outcome hf hn ho hreq h
  constructor
  · have hobj : outObj o f = o := by
      unfold outObj; rw [hb]; exact (run_read hww qs o).1
    have hann : outAnn o f = [] := by
      unfold outAnn; rw [hb]; exact (run_read hww qs o).2.1
    rw [hn', ht hann, hobj]
    have : n.objs.set i o = n.objs := by
      have hlt : i < n.objs.length := by
        rw [List.getElem?_eq_some_iff] at hi; exact hi.1
      have : n.objs[i] = o := by rw [List.getElem?_eq_getElem hlt] at hi; simpa using hi
      rw [← this, List.set_getElem_self]
    rw [this]
  · refine ⟨_, h1, ?_⟩
    intro r hr
    split at hr
    · rw [Option.map_eq_some_iff] at hr
      obtain ⟨v, hv, rfl⟩ := hr
      simp only [respFrame, outBody, hb]
      rw [runRes_read hrr]
    · cases hr

/-- non-vacuity: the read section of the example -/
example : readSection xDevice.observers 0x62 xDevice.getProperty [(0x80, []), (0xF1, []), (0x8A, [])] =
    [(0x80, [0x30]), (0xF1, []), (0x8A, [0, 0, 1])] := by decide

/-! ## C34 -/

theorem modifyFirst_data (c : Byte) (d : List Byte) : ∀ l : List Property,
    (Message.modifyFirst c (fun p => { p with data := d }) l).map (fun p => { p with data := [] }) =
      l.map (fun p => { p with data := [] })
  | [] => rfl
  | p :: ps => by
      unfold Message.modifyFirst
      split
      · rfl
      · simp only [List.map_cons, modifyFirst_data c d ps]

theorem stepObj_data (esv : Byte) (o : Obj) (q : Prop8) :
    (stepObj esv o q).props.map (fun p => { p with data := [] }) = o.props.map (fun p => { p with data := [] }) := by
  unfold stepObj
  split
  · exact modifyFirst_data ..
  · rfl

theorem runObj_data (esv : Byte) : ∀ (qs : List Prop8) (o : Obj),
    (runObj esv o qs).props.map (fun p => { p with data := [] }) = o.props.map (fun p => { p with data := [] })
  | [], _ => rfl
  | q :: qs, o => by
      unfold runObj; rw [runObj_data esv qs, stepObj_data]

theorem outObj_onlyData (o : Obj) (f : Frame) : OnlyDataDiffers o (outObj o f) := by
  refine ⟨outObj_frame o f, ?_⟩
  unfold outObj
  cases f.body
  · exact runObj_data ..
  · exact runObj_data ..

/-- **C34.** A write service (0x60, 0x61) changes only the addressed object, and there only property
data: reading any property afterwards gives what writing the section in order gives. Everything else of
the node except the TID counter is unchanged. -/
theorem C34_write_effect (e : Endian) (n n' : Node) (loc : Option String) (a : String) (f : Frame)
    (qs : List Prop8) (rest : List Byte) (eff : List Effect) (o : Obj) (hf : f.WF) (hn : HandlersSet n)
    (hw : f.esv = 0x60 ∨ f.esv = 0x61) (hb : f.body = .plain qs) (ho : destObj n f.deoj = some o)
    (h : n.receive e loc (some a) (encode f ++ rest) = .ok (n', eff)) :
    ∃ i o', n.objs[i]? = some o ∧ (∀ j y, j < i → n.objs[j]? = some y → objEoj y ≠ f.deoj) ∧
      n' = { n with objs := n.objs.set i o', lastTid := n'.lastTid } ∧
      OnlyDataDiffers o o' ∧
      o'.getProperty = writeSection o.observers f.esv o.getProperty qs := by
  have hreq : IsRequestEsv f.esv := by rcases hw with h | h <;> rw [h] <;> decide
  have hww : isW f.esv = true := by rcases hw with h | h <;> rw [h] <;> decide
  obtain ⟨_, i, hi, hj, hn', _⟩ := receive_outcome hf hn ho hreq h
  refine ⟨i, outObj o f, hi, hj, hn', outObj_onlyData o f, ?_⟩
  unfold outObj; rw [hb]; exact (runObj_write hww qs o).1

/-- **C34** (reading the specification): a property not named keeps its value. -/
theorem C34_not_named_unchanged (hs : List Observer) (esv : Byte) (c : Byte) : ∀ (qs : List Prop8) (σ : PMap),
    c ∉ codes qs → writeSection hs esv σ qs c = σ c
  | [], _, _ => rfl
  | q :: qs, σ, h => by
      simp only [codes, List.map_cons, List.mem_cons, not_or] at h
      unfold writeSection
      rw [C34_not_named_unchanged hs esv c qs _ h.2]
      split
      · simp [PMap.store, h.1]
      · rfl

/-- No property appears or disappears by a write, and attributes stay. -/
theorem C34_write_keeps (hs : List Observer) (esv : Byte) (c : Byte) : ∀ (qs : List Prop8) (σ : PMap),
    (writeSection hs esv σ qs c).map (fun p => { p with data := [] }) = (σ c).map (fun p => { p with data := [] })
  | [], _ => rfl
  | q :: qs, σ => by
      unfold writeSection
      rw [C34_write_keeps hs esv c qs]
      split
      · unfold PMap.store
        split
        · cases σ c <;> rfl
        · rfl
      · rfl

/-- **C34** (last occurrence wins): if the last occurrence of `c` in the section carries `d` and the handlers for
`c` accept `d` whatever the current value, then `c` has data `d` afterwards. -/
theorem C34_last_occurrence_wins (hs : List Observer) (esv : Byte) (c : Byte) (d : List Byte) (post : List Prop8)
    (hc : c ∉ codes post) (ha : ∀ p, accepts hs esv c p d = true) : ∀ (pre : List Prop8) (σ : PMap),
    writeSection hs esv σ (pre ++ (c, d) :: post) c = (σ c).map (fun p => { p with data := d })
  | [], σ => by
      change writeSection hs esv _ post c = _
      rw [C34_not_named_unchanged hs esv c post _ hc]
      cases hσ : σ c with
      | none => simp [granted, hσ]
      | some p => simp [granted, hσ, ha, PMap.store]
  | q :: pre, σ => by
      rw [List.cons_append]
      unfold writeSection
      rw [C34_last_occurrence_wins hs esv c d post hc ha pre]
      split
      · unfold PMap.store
        split
        · cases σ c <;> rfl
        · rfl
      · rfl

/-- **C34** (refused): if the handlers for `c` refuse every value named for it, it keeps its value. -/
theorem C34_refused_unchanged (hs : List Observer) (esv : Byte) (c : Byte) : ∀ (qs : List Prop8) (σ : PMap),
    (∀ d p, (c, d) ∈ qs → accepts hs esv c p d = false) → writeSection hs esv σ qs c = σ c
  | [], _, _ => rfl
  | q :: qs, σ, h => by
      unfold writeSection
      rw [C34_refused_unchanged hs esv c qs _ (fun d p hm => h d p (List.mem_cons_of_mem _ hm))]
      split
      · rename_i hg
        unfold PMap.store
        split
        · rename_i hq
          exfalso
          unfold granted at hg
          split at hg
          · rename_i p _
            have := h q.2 p (by rw [hq]; exact List.mem_cons_self ..)
            rw [hq, hg] at this; cases this
          · cases hg
        · rfl
      · rfl

/-- non-vacuity: two writes of 0x80, a refused one of 0xE0, an unknown property -/
example : (writeSection xDevice.observers 0x61 xDevice.getProperty
    [(0x80, [0x31]), (0xE0, [9]), (0xF1, [1]), (0x80, [0x32])] 0x80).map (·.data) = some [0x32] ∧
  (writeSection xDevice.observers 0x61 xDevice.getProperty
    [(0x80, [0x31]), (0xE0, [9]), (0xF1, [1]), (0x80, [0x32])] 0xE0).map (·.data) = some [5] := by decide

/-- **C34** (other services): every frame with a service other than 0x60, 0x61, 0x6E leaves the node unchanged. -/
theorem C34_other_services_change_nothing (e : Endian) (n n' : Node) (loc : Option String) (a : String) (f : Frame)
    (rest : List Byte) (eff : List Effect) (hf : f.WF) (hn : HandlersSet n) (hw : ¬ IsWriteEsv f.esv)
    (h : n.receive e loc (some a) (encode f ++ rest) = .ok (n', eff)) : n' = n := by
  by_cases hreq : IsRequestEsv f.esv
  · have hr : f.esv = 0x62 ∨ f.esv = 0x63 ∨ f.esv = 0x74 := by
      unfold IsWriteEsv at hw
      rcases hreq with h | h | h | h | h | h <;> simp_all
    cases ho : destObj n f.deoj with
    | none =>
      rw [receive_unknown e n loc a hf rest ho] at h
      simp only [Res.ok.injEq, Prod.mk.injEq] at h
      exact h.1.symm
    | some o =>
      cases hb : f.body with
      | plain qs => exact (C33_read_values e n n' loc a f qs rest eff o hf hn hr hb ho h).1
      | setGet s g =>
        unfold Frame.WF at hf; rw [hb] at hf
        have := (setGet_request hreq).1 hf.1
        rw [this] at hr
        exact absurd hr (by decide)
  · obtain ⟨eff', h1, _⟩ := C37_nonrequest_ignored e n loc a f rest hf hreq
    rw [h] at h1
    simp only [Res.ok.injEq, Prod.mk.injEq] at h1
    exact h1.1

/-! ## C35 -/

/-- **C35 violated** (writes). A 0x61 write to an existing property without handlers is carried out and
answered with success whatever the attribute of the property, in particular if it is not writable. -/
theorem C35_write_ignores_attribute_violated (e : Endian) (n n' : Node) (loc : Option String) (a : String)
    (f : Frame) (c : Byte) (d : List Byte) (rest : List Byte) (eff : List Effect) (o : Obj) (p : Property)
    (hf : f.WF) (hn : HandlersSet n) (he : f.esv = 0x61) (hb : f.body = .plain [(c, d)])
    (ho : destObj n f.deoj = some o) (hnode : o.hasNode = true) (hp : o.getProperty c = some p)
    (hfree : ∀ x ∈ o.observers, ¬ (x.esv = 0x61 ∧ x.code = c))
    (h : n.receive e loc (some a) (encode f ++ rest) = .ok (n', eff)) :
    (∃ i o', n.objs[i]? = some o ∧ n'.objs = n.objs.set i o' ∧ o'.getProperty c = some { p with data := d }) ∧
    ∃ resp : Option Frame, Outcome f a eff resp ∧ resp.map (·.esv) = some 0x71 := by
  have hacc : ∀ p', accepts o.observers 0x61#8 c p' d = true := by
    intro p'
    unfold accepts
    rw [List.all_eq_true]
    intro x hx
    have := hfree x hx
    have h2 : (x.esv == 0x61#8 && x.code == c) = false := by
      rw [Bool.eq_false_iff]; intro hc; simp at hc; exact this hc
    simp [h2]
  constructor
  · obtain ⟨i, o', h1, _, h3, _, h5⟩ := C34_write_effect e n n' loc a f [(c, d)] rest eff o hf hn (.inr he) hb ho h
    refine ⟨i, o', h1, by rw [h3], ?_⟩
    rw [h5, he]
    have := C34_last_occurrence_wins o.observers 0x61#8 c d [] (by simp [codes]) hacc [] o.getProperty
    rw [hp] at this
    exact this
  · have hs : successEsv f.esv = some 0x71 := by rw [he]; rfl
    rw [← hs]
    refine C31_success_partial e n n' loc a f rest eff o hf hn (by rw [he]; decide) ho hnode ?_ ?_ h
    · unfold AtMostOneEach; rw [hb]; simp
    · unfold AllGranted; rw [hb]
      simp only [he]
      rw [if_pos (by decide)]
      have : granted o.observers 0x61#8 o.getProperty (c, d) = true := by simp [granted, hp, hacc]
      simp [writeVerdicts, this]

/-- non-vacuity: 0x8A of the example is read-only (attribute 0x10) -/
example : (xDevice.getProperty 0x8A).map (·.isWritable) = some false ∧
    ∀ x ∈ xDevice.observers, ¬ (x.esv = 0x61 ∧ x.code = 0x8A) := by
  constructor
  · decide
  · intro x hx; simp only [xDevice, List.mem_singleton] at hx; subst hx; decide

/-- **C35 violated** (reads). A read of an existing property without handlers is answered with its value
whatever its attribute. -/
theorem C35_read_ignores_attribute_violated (e : Endian) (n n' : Node) (loc : Option String) (a : String)
    (f : Frame) (c : Byte) (rest : List Byte) (eff : List Effect) (o : Obj) (p : Property)
    (hf : f.WF) (hn : HandlersSet n) (he : f.esv = 0x62) (hb : f.body = .plain [(c, [])])
    (ho : destObj n f.deoj = some o) (hnode : o.hasNode = true) (hp : o.getProperty c = some p)
    (hfree : ∀ x ∈ o.observers, ¬ (x.esv = 0x62 ∧ x.code = c))
    (h : n.receive e loc (some a) (encode f ++ rest) = .ok (n', eff)) :
    Outcome f a eff (some ⟨f.tid, f.deoj, f.seoj, 0x72, .plain [(c, p.data)]⟩) := by
  have hacc : accepts o.observers 0x62#8 c p [] = true := by
    unfold accepts
    rw [List.all_eq_true]
    intro x hx
    have := hfree x hx
    have h2 : (x.esv == 0x62#8 && x.code == c) = false := by
      rw [Bool.eq_false_iff]; intro hc; simp at hc; exact this hc
    simp [h2]
  have hreq : IsRequestEsv f.esv := by rw [he]; decide
  have h1 := (receive_outcome hf hn ho hreq h).1
  have hg : AllGranted o f := by
    unfold AllGranted; rw [hb]
    simp only [he]
    rw [if_neg (by decide)]
    simp [granted, hp, hacc]
  have hc : (outCnt o f == total f) = true := (allAccepted_iff hf).2 ⟨by unfold AtMostOneEach; rw [hb]; simp, hg⟩
  have hv : outEsv o f = some 0x72 := by
    unfold outEsv; rw [hc, responseEsv_true hreq, he]; rfl
  rw [hv, hnode] at h1
  have hbody : outBody o f = .plain [(c, p.data)] := by
    unfold outBody; rw [hb]; simp only [he]
    rw [runRes_read (by decide)]
    simp [readSection, hp, hacc]
  simpa [respFrame, hbody] using h1

/-! ## C38, C40 -/

/-- **C38.** A SetGet request first applies its set section, then reads: the get part of its response
is the reading of the state after the writes. -/
theorem C38_setget_writes_then_reads (e : Endian) (n n' : Node) (loc : Option String) (a : String) (f : Frame)
    (s g : List Prop8) (rest : List Byte) (eff : List Effect) (o : Obj) (hf : f.WF) (hn : HandlersSet n)
    (he : f.esv = 0x6E) (hb : f.body = .setGet s g) (ho : destObj n f.deoj = some o)
    (h : n.receive e loc (some a) (encode f ++ rest) = .ok (n', eff)) :
    (∃ i o', n.objs[i]? = some o ∧ n' = { n with objs := n.objs.set i o', lastTid := n'.lastTid } ∧
      OnlyDataDiffers o o' ∧
      o'.getProperty = writeSection o.observers 0x61 o.getProperty s) ∧
    ∃ resp, Outcome f a eff resp ∧ ∀ r, resp = some r → r.body =
      .setGet (writeReply o.observers 0x61 (fun q => q.2) o.getProperty s)
        (readSection o.observers 0x62 (writeSection o.observers 0x61 o.getProperty s) g) := by
  have hreq : IsRequestEsv f.esv := by rw [he]; decide
  obtain ⟨h1, i, hi, _, hn', ht⟩ := receive_outcome hf hn ho hreq h
  have hw := runObj_write (esv := 0x61#8) rfl s o
  constructor
  · refine ⟨i, outObj o f, hi, hn', outObj_onlyData o f, ?_⟩
    unfold outObj; rw [hb]; exact hw.1
  · refine ⟨_, h1, ?_⟩
    intro r hr
    split at hr
    · rw [Option.map_eq_some_iff] at hr
      obtain ⟨v, hv, rfl⟩ := hr
      simp only [respFrame, outBody, hb]
      rw [runRes_write rfl, runRes_read (by decide), (runObj_frame 0x61#8 s o).obs, hw.1]
      rfl
    · cases hr

/-- non-vacuity: 0x80 in both sections is reported with its new value -/
example : (xNode.receive .little none (some "10.0.0.2")
      (encode (xFrame 0x6E (.setGet [(0x80, [0x31])] [(0x80, [])]))) >>= fun r => .ok r.2) =
    .ok [.nodeListener,
      sends none ⟨(8, 0), profileEoj, profileEoj, 0x73, .plain [(0x80, [0x31])]⟩,
      sends (some "10.0.0.2") ⟨(0, 9), (0x01, 0x30, 0x01), (0x05, 0xFF, 0x01), 0x7E,
        .setGet [(0x80, [])] [(0x80, [0x31])]⟩] := by
  with_unfolding_all rfl

theorem accepts_only_other {hs : List Observer} {esv c : Byte} {p : Property} {d : List Byte}
    (h : ∀ x ∈ hs, ¬ (x.esv = esv ∧ x.code = c)) : accepts hs esv c p d = true := by
  unfold accepts
  rw [List.all_eq_true]
  intro x hx
  have h2 : (x.esv == esv && x.code == c) = false := by
    rw [Bool.eq_false_iff]; intro hc; simp at hc; exact h x hx hc
  simp [h2]

/-- **C40 violated.** Handlers registered for 0x6E are never consulted: if all the handlers of the object are
registered for 0x6E, whatever they answer, a SetGet request writes every existing property of its set
section. -/
theorem C40_setget_handlers_ignored_violated (e : Endian) (n n' : Node) (loc : Option String) (a : String)
    (f : Frame) (c : Byte) (d : List Byte) (g : List Prop8) (rest : List Byte) (eff : List Effect) (o : Obj)
    (p : Property) (hf : f.WF) (hn : HandlersSet n) (he : f.esv = 0x6E) (hb : f.body = .setGet [(c, d)] g)
    (ho : destObj n f.deoj = some o) (hp : o.getProperty c = some p)
    (hobs : ∀ x ∈ o.observers, x.esv = 0x6E)
    (h : n.receive e loc (some a) (encode f ++ rest) = .ok (n', eff)) :
    ∃ i o', n.objs[i]? = some o ∧ n'.objs = n.objs.set i o' ∧ o'.getProperty c = some { p with data := d } := by
  obtain ⟨⟨i, o', h1, h2, _, h4⟩, _⟩ := C38_setget_writes_then_reads e n n' loc a f _ g rest eff o hf hn he hb ho h
  refine ⟨i, o', h1, by rw [h2], ?_⟩
  rw [h4]
  have hacc : ∀ p', accepts o.observers 0x61#8 c p' d = true := fun p' => accepts_only_other (by
    intro x hx; rw [hobs x hx]; intro hc; exact absurd hc.1 (by decide))
  have := C34_last_occurrence_wins o.observers 0x61#8 c d [] (by simp [codes]) hacc [] o.getProperty
  rw [hp] at this
  exact this

/-- non-vacuity: a refusing 0x6E handler on 0x80, and the write happens -/
example : let dev := { xDevice with observers := [⟨0x6E, 0x80, some fun _ _ _ => false⟩] }
    ∃ n' eff dev', ({ xNode with objs := [xProfile, dev] } : Node).receive .little none (some "10.0.0.2")
      (encode (xFrame 0x6E (.setGet [(0x80, [0x31])] []))) = .ok (n', eff) ∧
    n'.objs = [xProfile, dev'] ∧ (dev'.getProperty 0x80).map (·.data) = some [0x31] :=
  ⟨_, _, _, by with_unfolding_all rfl, rfl, by with_unfolding_all rfl⟩

/-- **C40** (partial: what holds instead). A handler registered for 0x61 judges the set section and one
registered for 0x62 the get section of a SetGet request: a property of the set section whose 0x61
handler refuses is not written. -/
theorem C40_setget_uses_setc_get_handlers_partial (e : Endian) (n n' : Node) (loc : Option String) (a : String)
    (f : Frame) (s g : List Prop8) (rest : List Byte) (eff : List Effect) (o : Obj) (c : Byte)
    (hf : f.WF) (hn : HandlersSet n) (he : f.esv = 0x6E) (hb : f.body = .setGet s g)
    (ho : destObj n f.deoj = some o)
    (href : ∃ x ∈ o.observers, x.esv = 0x61 ∧ x.code = c ∧ ∃ hd, x.handler = some hd ∧ ∀ p d, hd p 0x61 d = false)
    (h : n.receive e loc (some a) (encode f ++ rest) = .ok (n', eff)) :
    ∃ i o', n.objs[i]? = some o ∧ n'.objs = n.objs.set i o' ∧ o'.getProperty c = o.getProperty c := by
  obtain ⟨⟨i, o', h1, h2, _, h4⟩, _⟩ := C38_setget_writes_then_reads e n n' loc a f _ g rest eff o hf hn he hb ho h
  refine ⟨i, o', h1, by rw [h2], ?_⟩
  rw [h4]
  apply C34_refused_unchanged
  intro d p _
  obtain ⟨x, hx, h5, h6, hd, h7, h8⟩ := href
  rw [Bool.eq_false_iff]
  intro hc
  unfold accepts at hc
  rw [List.all_eq_true] at hc
  have := hc x hx
  simp [h5, h6, h7] at this
  exact absurd (this.symm.trans (h8 p d)) (by decide)

/-- non-vacuity -/
example : ∃ x ∈ xDevice.observers, x.esv = 0x61 ∧ x.code = 0xE0 ∧
    ∃ hd, x.handler = some hd ∧ ∀ p d, hd p 0x61 d = false :=
  ⟨_, List.mem_singleton.2 rfl, rfl, rfl, _, rfl, fun _ _ => rfl⟩

/-! ## C67 -/

/-- **C67** (0x61). The response to a 0x61 write has no data for each accepted property and the request's
data for each missing or refused one. (For the set section of 0x6E see C38.) -/
theorem C67_write_response_data_partial (e : Endian) (n n' : Node) (loc : Option String) (a : String) (f : Frame)
    (qs : List Prop8) (rest : List Byte) (eff : List Effect) (o : Obj) (hf : f.WF) (hn : HandlersSet n)
    (he : f.esv = 0x61) (hb : f.body = .plain qs) (ho : destObj n f.deoj = some o)
    (h : n.receive e loc (some a) (encode f ++ rest) = .ok (n', eff)) :
    ∃ resp, Outcome f a eff resp ∧ ∀ r, resp = some r →
      r.body = .plain (writeReply o.observers 0x61 (fun q => q.2) o.getProperty qs) := by
  refine ⟨_, (receive_outcome hf hn ho (by rw [he]; decide) h).1, ?_⟩
  intro r hr
  split at hr
  · rw [Option.map_eq_some_iff] at hr
    obtain ⟨v, hv, rfl⟩ := hr
    simp only [respFrame, outBody, hb, he]
    rw [runRes_write rfl]; rfl
  · cases hr

/-- non-vacuity -/
example : writeReply xDevice.observers 0x61 (fun q => q.2) xDevice.getProperty
    [(0x80, [0x31]), (0xE0, [9]), (0xF1, [1, 2])] = [(0x80, []), (0xE0, [9]), (0xF1, [1, 2])] := by decide

/-- **C67 violated** (0x60). The error response to a 0x60 write carries no data at all, so the requester
cannot tell accepted from refused properties. -/
theorem C67_seti_response_empty_violated (e : Endian) (n n' : Node) (loc : Option String) (a : String) (f : Frame)
    (qs : List Prop8) (rest : List Byte) (eff : List Effect) (o : Obj) (hf : f.WF) (hn : HandlersSet n)
    (he : f.esv = 0x60) (hb : f.body = .plain qs) (ho : destObj n f.deoj = some o)
    (h : n.receive e loc (some a) (encode f ++ rest) = .ok (n', eff)) :
    ∃ resp, Outcome f a eff resp ∧ ∀ r, resp = some r → r.body = .plain (qs.map fun q => (q.1, [])) := by
  refine ⟨_, (receive_outcome hf hn ho (by rw [he]; decide) h).1, ?_⟩
  intro r hr
  split at hr
  · rw [Option.map_eq_some_iff] at hr
    obtain ⟨v, hv, rfl⟩ := hr
    simp only [respFrame, outBody, hb, he]
    rw [runRes_write rfl]
    congr 1
    have : ∀ (qs : List Prop8) (σ : PMap), writeReply o.observers 0x60#8
        (fun q => if 0x60#8 = 0x61#8 then q.2 else []) σ qs = qs.map fun q => (q.1, []) := by
      intro qs
      induction qs with
      | nil => intro _; rfl
      | cons q qs ih => intro σ; unfold writeReply; rw [ih]; simp
    exact this qs _
  · cases hr

/-- non-vacuity: a 0x60 write of one existing and one missing property is answered -/
example : (xNode.receive .little none (some "10.0.0.2")
      (encode (xFrame 0x60 (.plain [(0x8A, [1]), (0xF1, [2])]))) >>= fun r => .ok r.2) =
    .ok [.nodeListener, sends (some "10.0.0.2") ⟨(0, 9), (0x01, 0x30, 0x01), (0x05, 0xFF, 0x01), 0x50,
        .plain [(0x8A, []), (0xF1, [])]⟩] := by
  with_unfolding_all rfl

/-! ## C39 -/

/-- A history of handler registrations, oldest first. -/
def registerAll (o : Obj) : List (Byte × Byte × Handler) → Obj
  | [] => o
  | (esv, c, h) :: rs => registerAll (o.setRequestHandler esv c (some h)) rs

/-- What the history says: the last registration for exactly this service and property. -/
def lastHandler (rs : List (Byte × Byte × Handler)) (esv c : Byte) : Option Handler :=
  (rs.reverse.find? fun r => r.1 == esv && r.2.1 == c).map (·.2.2)

theorem accepts_append (a b : List Observer) (esv c p d) :
    accepts (a ++ b) esv c p d = (accepts a esv c p d && accepts b esv c p d) := by
  unfold accepts; rw [List.all_append]

/-- at most one observer per key -/
def OneEach (hs : List Observer) : Prop := hs.Pairwise fun x y => ¬ (x.esv = y.esv ∧ x.code = y.code)

theorem oneEach_set {o : Obj} (h : OneEach o.observers) (esv c hd) :
    OneEach (o.setRequestHandler esv c hd).observers := by
  unfold Obj.setRequestHandler OneEach
  simp only
  rw [List.pairwise_append]
  refine ⟨h.sublist List.eraseP_sublist, by simp, ?_⟩
  intro x hx y hy
  simp only [List.mem_singleton] at hy
  subst hy
  rintro ⟨h1, h2⟩
  simp only at h1 h2
  have hkey : ∀ l : List Observer, OneEach l → x ∈ l.eraseP (fun z => esv == z.esv && c == z.code) → False := by
    intro l
    induction l with
    | nil => intro _ h; simp at h
    | cons z l ih =>
      intro hp hx
      unfold OneEach at hp
      rw [List.pairwise_cons] at hp
      by_cases hz : (esv == z.esv && c == z.code) = true
      · rw [List.eraseP_cons, hz, cond_true] at hx
        simp only [Bool.and_eq_true, beq_iff_eq] at hz
        exact hp.1 x hx ⟨by rw [← hz.1, h1], by rw [← hz.2, h2]⟩
      · rw [List.eraseP_cons, Bool.eq_false_iff.2 hz, cond_false] at hx
        rcases List.mem_cons.1 hx with rfl | hx
        · apply hz; simp [h1, h2]
        · exact ih hp.2 hx
  exact hkey _ h hx

theorem accepts_set {o : Obj} (h : OneEach o.observers) (esv c : Byte) (hd : Handler) (esv' c' : Byte) (p d) :
    accepts (o.setRequestHandler esv c (some hd)).observers esv' c' p d =
      if esv = esv' ∧ c = c' then hd p esv' d else accepts o.observers esv' c' p d := by
  have hone := oneEach_set h esv c (some hd)
  unfold Obj.setRequestHandler at hone ⊢
  simp only at hone ⊢
  rw [accepts_append]
  by_cases hk : esv = esv' ∧ c = c'
  · obtain ⟨rfl, rfl⟩ := hk
    rw [if_pos ⟨rfl, rfl⟩]
    have h1 : accepts (o.observers.eraseP fun x => esv == x.esv && c == x.code) esv c p d = true := by
      apply accepts_only_other
      intro x hx hc
      unfold OneEach at hone
      rw [List.pairwise_append] at hone
      exact hone.2.2 x hx _ (List.mem_singleton.2 rfl) hc
    rw [h1]
    simp [accepts]
  · rw [if_neg hk]
    have h2 : accepts [⟨esv, c, some hd⟩] esv' c' p d = true := by
      apply accepts_only_other
      intro x hx; simp only [List.mem_singleton] at hx; subst hx; exact hk
    rw [h2, Bool.and_true]
    have : ∀ l : List Observer, accepts (l.eraseP fun x => esv == x.esv && c == x.code) esv' c' p d =
        accepts l esv' c' p d := by
      intro l
      induction l with
      | nil => rfl
      | cons z l ih =>
        by_cases hz : (esv == z.esv && c == z.code) = true
        · rw [List.eraseP_cons, hz, cond_true]
          have hz' := hz
          simp only [Bool.and_eq_true, beq_iff_eq] at hz'
          rw [show z :: l = [z] ++ l from rfl, accepts_append, accepts_only_other (hs := [z]), Bool.true_and]
          intro x hx; simp only [List.mem_singleton] at hx; subst hx
          rw [← hz'.1, ← hz'.2]; exact hk
        · rw [List.eraseP_cons, Bool.eq_false_iff.2 hz, cond_false, show z :: l = [z] ++ l from rfl, accepts_append, ← ih, ← accepts_append]
          rfl
    exact this _

/-- **C39** (registrations). After any history of handler registrations on an object that had none, a request
for service `esv` and property `c` is judged by exactly the last handler registered for that pair, called with
the property, the service and the request's data; without such a registration it is accepted. -/
theorem C39_last_registration_decides (rs : List (Byte × Byte × Handler)) (o : Obj) (ho : o.observers = [])
    (esv c : Byte) (p : Property) (d : List Byte) :
    accepts (registerAll o rs).observers esv c p d =
      match lastHandler rs esv c with
      | some h => h p esv d
      | none => true := by
  have key : ∀ (rs : List (Byte × Byte × Handler)) (o : Obj), OneEach o.observers →
      accepts (registerAll o rs).observers esv c p d =
        match lastHandler rs esv c with
        | some h => h p esv d
        | none => accepts o.observers esv c p d := by
    intro rs
    induction rs with
    | nil => intro o _; rfl
    | cons r rs ih =>
      intro o ho
      obtain ⟨v, k, h⟩ := r
      have h1 := ih (o.setRequestHandler v k (some h)) (oneEach_set ho v k (some h))
      change accepts (registerAll (o.setRequestHandler v k (some h)) rs).observers esv c p d = _
      rw [h1, accepts_set ho]
      have : lastHandler ((v, k, h) :: rs) esv c = (lastHandler rs esv c).or
          (if v = esv ∧ k = c then some h else none) := by
        unfold lastHandler
        rw [List.reverse_cons, List.find?_append]
        cases hh : rs.reverse.find? (fun r => r.1 == esv && r.2.1 == c) with
        | some x => simp
        | none =>
          by_cases hk : v = esv ∧ k = c
          · simp [hk]
          · simp [hk]
      rw [this]
      cases hl : lastHandler rs esv c with
      | some g => simp
      | none =>
        by_cases hk : v = esv ∧ k = c
        · simp [hk]
        · simp [hk]
  have := key rs o (by rw [ho]; exact List.Pairwise.nil)
  rw [this, ho]
  rfl

/-- non-vacuity: registering again replaces -/
example : let o := registerAll Obj.new [(0x61, 0x80, fun _ _ _ => false), (0x62, 0x80, fun _ _ _ => false),
      (0x61, 0x80, fun _ _ d => d.length == 1)]
    accepts o.observers 0x61 0x80 Property.new [1] = true ∧ accepts o.observers 0x61 0x80 Property.new [] = false ∧
    accepts o.observers 0x62 0x80 Property.new [] = false ∧ accepts o.observers 0x60 0x80 Property.new [] = true := by
  decide

/-- **C39** (one refusal refuses): a refused property gets the error response and keeps its value. -/
theorem C39_refusal (e : Endian) (n n' : Node) (loc : Option String) (a : String)
    (f : Frame) (qs : List Prop8) (rest : List Byte) (eff : List Effect) (o : Obj) (c : Byte) (d : List Byte)
    (hf : f.WF) (hn : HandlersSet n) (he : f.esv = 0x60) (hb : f.body = .plain qs) (hq : (c, d) ∈ qs)
    (ho : destObj n f.deoj = some o) (hnode : o.hasNode = true)
    (href : ∃ x ∈ o.observers, x.esv = 0x60 ∧ x.code = c ∧ ∃ hd, x.handler = some hd ∧ ∀ p d, hd p 0x60 d = false)
    (h : n.receive e loc (some a) (encode f ++ rest) = .ok (n', eff)) :
    (∃ i o', n.objs[i]? = some o ∧ n'.objs = n.objs.set i o' ∧ o'.getProperty c = o.getProperty c) ∧
    ∃ resp : Option Frame, Outcome f a eff resp ∧ resp.map (·.esv) = some 0x50 := by
  have hfalse : ∀ p d, accepts o.observers 0x60#8 c p d = false := by
    intro p d
    obtain ⟨x, hx, h5, h6, hd, h7, h8⟩ := href
    rw [Bool.eq_false_iff]
    intro hc
    unfold accepts at hc
    rw [List.all_eq_true] at hc
    have := hc x hx
    simp [h5, h6, h7] at this
    exact absurd (this.symm.trans (h8 p d)) (by decide)
  constructor
  · obtain ⟨i, o', h1, _, h3, _, h5⟩ := C34_write_effect e n n' loc a f qs rest eff o hf hn (.inl he) hb ho h
    refine ⟨i, o', h1, by rw [h3], ?_⟩
    rw [h5, he]
    exact C34_refused_unchanged o.observers 0x60#8 c qs _ (fun d p _ => hfalse p d)
  · have hs : errorEsv f.esv = some 0x50 := by rw [he]; rfl
    rw [← hs]
    refine C32_error_partial e n n' loc a f rest eff o hf hn (by rw [he]; decide) (by rw [he]; decide) ho hnode ?_ h
    unfold AllGranted; rw [hb]; simp only [he]
    rw [if_pos (by decide)]
    intro hall
    have key : ∀ (qs : List Prop8) (σ : PMap), (c, d) ∈ qs →
        ∃ b ∈ writeVerdicts o.observers 0x60#8 σ qs, b = false := by
      intro qs
      induction qs with
      | nil => intro _ h; simp at h
      | cons q qs ih =>
        intro σ hm
        unfold writeVerdicts
        rcases List.mem_cons.1 hm with rfl | hm
        · refine ⟨_, List.mem_cons_self .., ?_⟩
          unfold granted; simp only
          split
          · exact hfalse _ _
          · rfl
        · obtain ⟨b, hb1, hb2⟩ := ih _ hm
          exact ⟨b, List.mem_cons_of_mem _ hb1, hb2⟩
    obtain ⟨b, hb1, hb2⟩ := key qs o.getProperty hq
    rw [hall b hb1] at hb2; cases hb2

end Uecho.Props
