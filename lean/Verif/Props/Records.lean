import Verif.Lemmas.Records
/-!
# C134 Interfaces, datagrams, manufacturers, enumerations and observers hold what was set last
# C135 A copy of a datagram is equal to its source

For C135 the full statement is: after copying, the copy shows the data, addresses and ports of the source, whatever the copy
showed before. It is violated: an address that the source does not have is kept from before (`C135_copy_violated`), and a
datagram copied to itself is read after it was freed (`C135_self_violated`). `C135_copy_partial` says what a copy shows.
-/
namespace Uecho.Props
open Uecho Uecho.Spec Uecho.Lemmas Uecho.Records

/-- C134: after any calls of its setters a network interface shows the last name, address, netmask, MAC address and index
passed; setting a text to NULL leaves the last text. -/
theorem C134_interface (cs : List IfCall) (hcs : ∀ c ∈ cs, c.Ok) :
    ∃ i, runSetters ifCall NetIf.new cs = .ok i ∧
      i.getName = .ok (lastText (cs.filterMap IfCall.name?)) ∧
      i.getAddress = .ok (lastText (cs.filterMap IfCall.address?)) ∧
      i.getNetmask = .ok (lastText (cs.filterMap IfCall.netmask?)) ∧
      i.getMac = .ok (lastElse [0, 0, 0, 0, 0, 0] (cs.filterMap IfCall.mac?)) ∧
      i.getIndex = lastElse 0 (cs.filterMap IfCall.index?) := by
  obtain ⟨i, e, h1, h2, h3, h4, h5, h6⟩ := runSetters_inv if_step cs [] NetIf.new if_new hcs
  refine ⟨i, e, text_get h1, text_get h2, text_get h3, ?_, h6⟩
  have : rdN i.macaddr 0 6 = .ok i.macaddr := by rw [rdN_zero (by omega), ← h5, List.take_length]
  unfold NetIf.getMac
  rw [this, h4]
  rfl

/-- C134: the interface for any address shows the name INADDR_ANY and the address 0.0.0.0. -/
theorem C134_any_interface :
    ∃ i, NetIf.getAny = .ok i ∧ i.getName = .ok (some ("INADDR_ANY".toList.map fun c => BitVec.ofNat 8 c.toNat)) ∧
      i.getAddress = .ok (some ("0.0.0.0".toList.map fun c => BitVec.ofNat 8 c.toNat)) ∧ i.getNetmask = .ok none ∧
      i.getMac = .ok [0, 0, 0, 0, 0, 0] ∧ i.getIndex = 0 := by
  refine ⟨_, rfl, ?_, ?_, rfl, rfl, rfl⟩ <;> decide +kernel

/-- C134: after any calls of its setters a datagram shows the last data (none after it was cleared or set to NULL), addresses
and ports. -/
theorem C134_datagram (cs : List PktCall) (hcs : ∀ c ∈ cs, c.Ok) :
    ∃ p, runSetters pktCall Packet.new cs = .ok p ∧
      PktShows p (lastElse [] (cs.filterMap PktCall.bytes)) (lastText (cs.filterMap PktCall.localAddress?))
        (lastText (cs.filterMap PktCall.remoteAddress?)) (lastElse 0 (cs.filterMap PktCall.localPort?))
        (lastElse 0 (cs.filterMap PktCall.remotePort?)) := by
  obtain ⟨p, e, h⟩ := runSetters_inv (I := PktInv) pkt_step cs [] Packet.new pkt_new hcs
  exact ⟨p, e, pkt_shows h⟩

/-- C134: after any calls of its setters a manufacturer shows the last code and name. -/
theorem C134_manufacturer (cs : List ManCall) (hcs : ∀ c ∈ cs, c.Ok) :
    ∃ m, runSetters manCall Manufacture.new cs = .ok m ∧ m.getCode = lastElse 0 (cs.filterMap ManCall.code?) ∧
      (∀ v, m.isCode v = true ↔ v = lastElse 0 (cs.filterMap ManCall.code?)) ∧
      m.getName = .ok (lastText (cs.filterMap ManCall.name?)) := by
  obtain ⟨m, e, h1, h2⟩ := runSetters_inv (I := ManInv) man_step cs [] Manufacture.new ⟨rfl, text_new⟩ hcs
  refine ⟨m, e, h1, fun v => ?_, text_get h2⟩
  unfold Manufacture.isCode
  rw [h1]
  simp [eq_comm]

/-- C134: after any calls of its setters an element of an enumeration shows the last code, name and description. -/
theorem C134_enumeration (cs : List EnumCall) (hcs : ∀ c ∈ cs, c.Ok) :
    ∃ m, runSetters enumCall PropEnum.new cs = .ok m ∧ m.getCode = lastElse 0 (cs.filterMap EnumCall.code?) ∧
      m.getName = .ok (lastText (cs.filterMap EnumCall.name?)) ∧
      m.getDescription = .ok (lastText (cs.filterMap EnumCall.description?)) := by
  obtain ⟨m, e, h1, h2, h3⟩ := runSetters_inv (I := EnumInv) enum_step cs [] PropEnum.new ⟨rfl, text_new, text_new⟩ hcs
  exact ⟨m, e, h1, text_get h2, text_get h3⟩

/-- C134: after any calls of its setters an observer of properties shows the last property code and handler, and the last
service if one was ever set; before, its service cannot be read. -/
theorem C134_property_observer (cs : List ObsCall) :
    (cs.foldl obsCall PropObserver.new).getEsv =
        (match (cs.filterMap ObsCall.esv?).getLast? with | some v => .ok v | none => .ub) ∧
      (cs.foldl obsCall PropObserver.new).getCode = lastElse 0#8 (cs.filterMap ObsCall.code?) ∧
      (cs.foldl obsCall PropObserver.new).getHandler = lastElse 0 (cs.filterMap ObsCall.handler?) := by
  have h := foldl_inv (f := obsCall) (I := fun o cs => o.esv = (cs.filterMap ObsCall.esv?).getLast? ∧
      o.propCode = lastElse 0#8 (cs.filterMap ObsCall.code?) ∧ o.handler = lastElse 0 (cs.filterMap ObsCall.handler?))
    (by
      intro o cs c h
      obtain ⟨h1, h2, h3⟩ := h
      cases c <;>
        simp [obsCall, PropObserver.setEsv, PropObserver.setCode, PropObserver.setHandler, List.filterMap_append, List.filterMap_cons, ObsCall.esv?,
          ObsCall.code?, ObsCall.handler?, lastElse_snoc, h1, h2, h3]) cs [] PropObserver.new ⟨rfl, rfl, rfl⟩
  obtain ⟨h1, h2, h3⟩ := h
  refine ⟨?_, h2, h3⟩
  unfold PropObserver.getEsv
  rw [h1]
  rfl

/-- C134: after any calls of its setters an observer of messages shows the last object and handler. -/
theorem C134_message_observer (cs : List MsgObsCall) :
    (cs.foldl msgObsCall MsgObserver.new).getObject = lastElse 0 (cs.filterMap MsgObsCall.object?) ∧
      (cs.foldl msgObsCall MsgObserver.new).getHandler = lastElse 0 (cs.filterMap MsgObsCall.handler?) := by
  have h := foldl_inv (f := msgObsCall) (I := fun o cs => o.object = lastElse 0 (cs.filterMap MsgObsCall.object?) ∧
      o.handler = lastElse 0 (cs.filterMap MsgObsCall.handler?))
    (by
      intro o cs c h
      obtain ⟨h1, h2⟩ := h
      cases c <;>
        simp [msgObsCall, MsgObserver.setObject, MsgObserver.setHandler, List.filterMap_append, List.filterMap_cons, MsgObsCall.object?,
          MsgObsCall.handler?, lastElse_snoc, h1, h2]) cs [] MsgObserver.new ⟨rfl, rfl⟩
  exact h

/-- C135: a copy of a datagram shows the data and the ports of the source, and the addresses that the source has; it keeps the
address it had where the source has none. So the copy is equal to the source if the source has both addresses, or the copy
had none. The source and the copy are any datagrams made by calls of setters. -/
theorem C135_copy_partial (ss ds : List PktCall) (hs : ∀ c ∈ ss, c.Ok) (hd : ∀ c ∈ ds, c.Ok) (src dst : Packet)
    (es : runSetters pktCall Packet.new ss = .ok src) (ed : runSetters pktCall Packet.new ds = .ok dst) :
    ∃ p, Packet.copy dst src = .ok p ∧
      ∃ d la ra lp rp la' ra', PktShows src d la ra lp rp ∧ dst.getLocalAddress = .ok la' ∧ dst.getRemoteAddress = .ok ra' ∧
        PktShows p d (la.or la') (ra.or ra') lp rp ∧
        ((la.isSome ∨ la' = none) → (ra.isSome ∨ ra' = none) → PktShows p d la ra lp rp) := by
  obtain ⟨src', e1, h1⟩ := runSetters_inv (I := PktInv) pkt_step ss [] Packet.new pkt_new hs
  obtain ⟨dst', e2, h2⟩ := runSetters_inv (I := PktInv) pkt_step ds [] Packet.new pkt_new hd
  rw [es] at e1; rw [ed] at e2
  cases e1; cases e2
  obtain ⟨p, ep, hp⟩ := pkt_copy h1 h2
  have hp' := pkt_shows hp
  refine ⟨p, ep, _, _, _, _, _, _, _, pkt_shows h1, (pkt_shows h2).2.2.1, (pkt_shows h2).2.2.2.2.1, hp', ?_⟩
  intro a b
  have or1 : ∀ x y : Option (List Byte), (x.isSome ∨ y = none) → x.or y = x := by
    intro x y h
    cases x with
    | some x => rfl
    | none => rcases h with h | h
              · cases h
              · rw [h]; rfl
  rwa [or1 _ _ a, or1 _ _ b] at hp'

/-- C135 is violated: whenever the source has no remote address and the datagram copied to has one, the copy still shows that
old address. -/
theorem C135_copy_violated (ss ds : List PktCall) (hs : ∀ c ∈ ss, c.Ok) (hd : ∀ c ∈ ds, c.Ok) (src dst : Packet)
    (es : runSetters pktCall Packet.new ss = .ok src) (ed : runSetters pktCall Packet.new ds = .ok dst) (old : List Byte)
    (h1 : src.getRemoteAddress = .ok none) (h2 : dst.getRemoteAddress = .ok (some old)) :
    ∃ p, Packet.copy dst src = .ok p ∧ p.getRemoteAddress = .ok (some old) := by
  obtain ⟨p, e, d, la, ra, lp, rp, la', ra', a, -, b, c, -⟩ := C135_copy_partial ss ds hs hd src dst es ed
  have e1 : ra = none := by
    have := a.2.2.2.2.1
    rw [h1] at this
    cases this; rfl
  have e2 : ra' = some old := by
    rw [h2] at b
    cases b; rfl
  refine ⟨p, e, ?_⟩
  have := c.2.2.2.2.1
  rwa [e1, e2] at this

/-- C135 is violated: copying a datagram with data, or with an address, to itself reads freed memory. -/
theorem C135_self_violated (cs : List PktCall) (hcs : ∀ c ∈ cs, c.Ok) (p : Packet)
    (e : runSetters pktCall Packet.new cs = .ok p)
    (h : p.getData ≠ .ok [] ∨ p.getLocalAddress ≠ .ok none ∨ p.getRemoteAddress ≠ .ok none) : p.copySelf = .ub := by
  obtain ⟨p', e1, h1⟩ := runSetters_inv (I := PktInv) pkt_step cs [] Packet.new pkt_new hcs
  rw [e] at e1; cases e1
  obtain ⟨a1, a2, a3, a4, -⟩ := h1
  unfold Packet.copySelf
  rcases a2 with ⟨a2, ed⟩ | ⟨a2, ed⟩
  · rw [a2]
    have hd : p.getData = .ok [] := by
      unfold Packet.getData
      rw [a2]
      rw [a1, ed]
      rfl
    rcases h with h | h | h
    · exact absurd hd h
    · cases hl : p.localAddr.value with
      | none => exact absurd (by simp [Packet.getLocalAddress, CString.getValue, hl]) h
      | some m => simp [CString.setOwn, hl]
    · cases hl : p.localAddr.value with
      | some m => simp [CString.setOwn, hl]
      | none =>
        cases hr : p.remoteAddr.value with
        | none => exact absurd (by simp [Packet.getRemoteAddress, CString.getValue, hr]) h
        | some m => simp [CString.setOwn, hl, hr]
  · rw [a2]
    have hz : ¬ p.dataLen ≤ 0 := by
      rw [a1]
      intro hz
      exact ed (List.length_eq_zero_iff.mp (by omega))
    simp only [hz, if_false]

/-! ## Examples -/

/-- An interface renamed, with NULL passed afterwards. -/
example : ∃ i, runSetters ifCall NetIf.new [.name (some [0x65, 0x30]), .address (some [0x31]), .name (some [0x65, 0x31]),
      .name none, .mac [1, 2, 3, 4, 5, 6, 7], .index 3] = .ok i ∧ i.getName = .ok (some [0x65, 0x31]) ∧
      i.getMac = .ok [1, 2, 3, 4, 5, 6] ∧ i.getNetmask = .ok none ∧ i.getIndex = 3 := by
  refine ⟨_, rfl, ?_, ?_, ?_, ?_⟩ <;> decide +kernel

/-- A datagram received, cleared, and received again. -/
def rcv : List PktCall := [.data (some [1, 2, 3]) 2, .remoteAddress (some [0x31, 0x30]), .clear, .data (some [9]) 1, .remotePort 3610]

example : (∀ c ∈ rcv, c.Ok) ∧ ∃ p, runSetters pktCall Packet.new rcv = .ok p ∧ p.getData = .ok [9] ∧
    p.getRemoteAddress = .ok (some [0x31, 0x30]) ∧ p.getRemotePort = 3610 := by
  refine ⟨?_, _, rfl, ?_, ?_, rfl⟩
  · intro c hc
    simp only [rcv, List.mem_cons, List.not_mem_nil, or_false] at hc
    rcases hc with rfl | rfl | rfl | rfl | rfl <;> simp [PktCall.Ok, IsText]
  all_goals decide +kernel

/-- The datagram copied to has the address of an earlier sender. -/
example : ∃ src dst p, runSetters pktCall Packet.new [.data (some [9]) 1] = .ok src ∧
    runSetters pktCall Packet.new rcv = .ok dst ∧ src.getRemoteAddress = .ok none ∧ Packet.copy dst src = .ok p ∧
    p.getRemoteAddress = .ok (some [0x31, 0x30]) ∧ p.getRemotePort = 0 := by
  refine ⟨_, _, _, rfl, rfl, rfl, rfl, ?_, rfl⟩
  decide +kernel

example : (∃ p, runSetters pktCall Packet.new rcv = .ok p ∧ p.copySelf = .ub) := ⟨_, rfl, rfl⟩

end Uecho.Props
