import Verif.Lemmas.CtrlHistory
import Verif.Props.Controller
import Verif.Props.Post
/-! # C143 What a controller was told last holds whatever it does -/
namespace Uecho.Props
open Uecho Uecho.Spec Uecho.Lemmas

/-- **C143.** The message listener that was set last is called once for each datagram that is a frame, and for no other, whatever the controller
did since then; without one nothing is called. -/
theorem C143_message_listener {e : Endian} {db : Db} {c d d' : Ctrl} (hc : CtrlReach e db c) (b : Bool)
    (hl : CtrlLater e db .messageListener (c.setMessageListener b) d) (orc : Oracle) {h h' : Heap} (loc : Option String) (a : String)
    (x : List Byte) {ev : List CEvent} (hr : d.receive e db orc h loc (some a) x = .ok (d', h', ev)) :
    ev.count .message = if b = true ∧ decode x ≠ none then 1 else 0 := by
  have h1 : d.hasMsgListener = b := congrArg Prod.fst (later_setting (.setMessageListener b hc) hl)
  rw [(C76_local_node orc loc a x hr).2, h1]

/-- **C143.** The same for the node listener: without one no status is reported; with one, a search answer from an address that is not known is
reported as an added node. -/
theorem C143_node_listener {e : Endian} {db : Db} {c d d' : Ctrl} (hc : CtrlReach e db c) (b : Bool)
    (hl : CtrlLater e db .nodeListener (c.setNodeListener b) d) (orc : Oracle) {h h' : Heap} (loc : Option String) (a : String)
    (x : List Byte) {ev : List CEvent} (hr : d.receive e db orc h loc (some a) x = .ok (d', h', ev)) :
    (b = false → statuses ev = []) ∧
    (b = true → ∀ f rest l, f.WF → x = encode f ++ rest → SearchAnswer f l → l ≠ [] → (∀ n ∈ d.nodes, n.address ≠ some a) →
      statuses ev = [(some a, .added)]) := by
  have hd := later_reach (.setNodeListener b hc) hl
  have h1 : d.hasNodeListener = b := congrArg Prod.fst (later_setting (.setNodeListener b hc) hl)
  constructor
  · rintro rfl
    rcases receive_any e db orc (reach_cinv hd) hr with ⟨_, _, _, rfl⟩ | ⟨f, r, n1, ns, st, _, _, _, _, _, hst⟩
    · rfl
    · rw [hst, h1]; rfl
  · rintro rfl f rest l hf rfl hs hne hn
    have := C54_search_status hd orc loc a f l hf hs hne rest h1 hr
    rw [this]
    rcases nodeIdx_spec (reach_cinv hd) a with ⟨g, _, _⟩ | ⟨i, n, g, _, g2, g3⟩
    · rw [g]
    · exact absurd g3 (hn n (List.mem_of_getElem? g2))

/-- **C143.** A post sends the request with the next transaction id and reports whether it was sent. Whatever the controller does until the post
ends, the response object gets the frames, and only those, that have this transaction id and another service; the listener of the
controller is not interrupted meanwhile (C46). -/
theorem C143_post {e : Endian} {db : Db} {c : Ctrl} (hc : CtrlReach e db c) (hp : (destObj c.node profileEoj).isSome) {h : Heap} {req res : Nat}
    (hne : req ≠ res) {m : Message} (hm : Reachable e m) (hq : h req = some m) (a : String) (s : Bool) :
    ∃ c1 m1 t, c.postBegin e h (some a) req res s =
        .ok (c1, h.set req m1, [.node (sends (some a) { toFrame m with tid := t, seoj := profileEoj })], s) ∧
      tidNat e t = succTid c.node.lastTid.toNat ∧ toFrame m1 = { toFrame m with tid := t, seoj := profileEoj } ∧
      ∀ d, CtrlLater e db .post c1 d → ∀ (h2 : Heap) old, h2 req = some m1 → h2 res = some old → Reachable e old →
        ∀ orc loc from_ f rest, Frame.WF f → ∀ d' h' ev, d.receive e db orc h2 loc (some from_) (encode f ++ rest) = .ok (d', h', ev) →
          (CEvent.signal ∈ ev ↔ f.tid = t ∧ f.esv ≠ m.esv) ∧ (CEvent.signal ∉ ev → h' = h2) ∧
          (CEvent.signal ∈ ev → (∀ y, y ≠ res → h' y = h2 y) ∧ ∃ m', h' res = some m' ∧ m'.fromAddr = some from_ ∧
            (toFrame m').tid = t ∧ (¬ IsSetGet f.esv → toFrame m' = f) ∧ Reachable e m') := by
  obtain ⟨p, hp⟩ := Option.isSome_iff_exists.mp hp
  have e1 : c.postBegin e h (some a) req res s = .ok ({ c with postReq := some req, postRes := some res, node := c.node.nextTid },
      h.set req { m.setTid e (nextT c.node.lastTid) with seoj := profileEoj },
      [.node (sends (some a) { toFrame m with tid := tidBytes e (nextT c.node.lastTid), seoj := profileEoj })], s) := by
    unfold Ctrl.postBegin
    simp only [hq, sendMessage_eq e c.node a (reachable_inv hm), hp, Res.pure_eq, Res.bind_ok]
    rfl
  refine ⟨_, { m.setTid e (nextT c.node.lastTid) with seoj := profileEoj }, tidBytes e (nextT c.node.lastTid), e1, tidNat_next e _, rfl, ?_⟩
  intro d hl h2 old hr2 hs2 ho orc loc from_ f rest hf d' h' ev hr
  have hset := later_setting (.postBegin _ _ _ _ hc e1) hl
  have k1 : d.postReq = some req := congrArg (fun x => x.2.1) hset
  have k2 : d.postRes = some res := congrArg (fun x => x.2.2) hset
  obtain ⟨g1, g2, g3⟩ := C46_delivery_partial orc loc from_ f hf rest k1 k2 hr2 hs2 ho hr
  refine ⟨g1, g2, fun hs => ?_⟩
  obtain ⟨x1, m', x2, x3, x4, -, -, -, x5⟩ := g3 hs
  refine ⟨x1, m', x2, x3, ?_, x5⟩
  rw [x4]; exact (g1.1 hs).1

/-- **C143.** Once a post has ended, and until the next one begins, no datagram touches any message of the application. -/
theorem C143_no_post {e : Endian} {db : Db} {c d d' : Ctrl} (hc : CtrlReach e db c) (hl : CtrlLater e db .post c.postEnd d) (orc : Oracle)
    {h h' : Heap} (loc : Option String) (a : String) (x : List Byte) {ev : List CEvent}
    (hr : d.receive e db orc h loc (some a) x = .ok (d', h', ev)) : h' = h ∧ CEvent.signal ∉ ev := by
  have hset := later_setting (.postEnd hc) hl
  have k1 : d.postReq = none := congrArg (fun x => x.2.1) hset
  cases hd : decode x with
  | none =>
    rw [receive_bad e db orc d h loc a hd] at hr
    simp only [Res.ok.injEq, Prod.mk.injEq] at hr
    obtain ⟨_, rfl, rfl⟩ := hr
    exact ⟨rfl, by simp⟩
  | some y =>
    obtain ⟨f, rest⟩ := y
    obtain ⟨rfl, hf⟩ := decode_sound hd
    obtain ⟨n1, eff, s2, ev3, g1, g2, g3, rfl, g5⟩ := (recv e db orc hf hr).more
    unfold Ctrl.servePost Ctrl.isWaiting at g3
    simp only [k1, Option.isSome_none, Bool.false_and, Bool.false_eq_true, if_false, Res.ok.injEq, Prod.mk.injEq] at g3
    obtain ⟨rfl, rfl⟩ := g3
    refine ⟨rfl, ?_⟩
    have a1 : CEvent.signal ∉ eff.map CEvent.node := by
      intro hm; obtain ⟨_, _, hm⟩ := List.mem_map.1 hm; cases hm
    have a2 : CEvent.signal ∉ msgPart d := by unfold msgPart; split <;> simp
    have a3 : CEvent.signal ∉ ev3 := by intro hm; obtain ⟨_, _, hm⟩ := g5 _ hm; cases hm
    simp [a1, a2, a3]

/-- **C143** (start). Once a controller was started it knows no nodes, and it answers to the addresses its receivers are bound to, and to no
others but the one given to its node. -/
theorem C143_start {e : Endian} {c c' : Ctrl} {ev : List CEvent} {bound : List String} (h : c.start e bound = .ok (c', ev)) :
    c'.nodes = [] ∧ ∀ a, c'.node.isAddress (some a) = true ↔ c.node.address = some a ∨ a ∈ bound := by
  unfold Ctrl.start at h
  simp only [Res.bind_eq_ok, Res.pure_eq, Res.ok.injEq, Prod.mk.injEq] at h
  obtain ⟨⟨n, eff⟩, h1, rfl, _⟩ := h
  refine ⟨rfl, fun a => ?_⟩
  have hn : n.address = c.node.address ∧ n.bound = bound := by
    unfold Node.start Node.announce at h1
    split at h1
    · simp only [Res.ok.injEq, Prod.mk.injEq] at h1
      rw [← h1.1]; exact ⟨rfl, rfl⟩
    · split at h1
      · simp only [Res.ok.injEq, Prod.mk.injEq] at h1
        rw [← h1.1]; exact ⟨rfl, rfl⟩
      · rw [announceProperty_eq] at h1
        simp only [Res.ok.injEq, Prod.mk.injEq] at h1
        rw [← h1.1]; exact ⟨rfl, rfl⟩
  unfold Node.isAddress
  simp [hn.1, hn.2]

example : (match kCtrl.start .little ["192.0.2.1"] with | .ok (c, _) => c.node.isAddress (some "192.0.2.1") && c.nodes.isEmpty | .ub => false) = true := by
  decide +kernel

/-- A controller that sets a listener, searches and then gets a search answer. -/
example : ∃ d d' h' ev, CtrlLater .little [] .messageListener (kNew.setMessageListener true) d ∧
    d.receive .little [] kOrc kHeap none (some "10.0.0.2") (encode kList) = .ok (d', h', ev) ∧ ev.count .message = 1 := by
  refine ⟨((kNew.setMessageListener true).enableOption 0x01#32).setNodeListener false, _, _, _,
    .setNodeListener _ (by simp) (.enableOption _ .same), by with_unfolding_all rfl, by with_unfolding_all rfl⟩

example : CtrlReach .little [] kCtrl ∧ (destObj kCtrl.node profileEoj).isSome = true ∧ Reachable .little (Message.new.setEsv 0x62#8) ∧
    ∃ d d' h' ev, CtrlLater .little [] .nodeListener (kNew.setNodeListener true) d ∧
      d.receive .little [] kOrc kHeap none (some "10.0.0.2") (encode kList) = .ok (d', h', ev) ∧ statuses ev = [(some "10.0.0.2", .added)] :=
  ⟨kCtrl_reach, by with_unfolding_all rfl, .setEsv .new _, _, _, _, _, .same, by with_unfolding_all rfl, by with_unfolding_all rfl⟩

end Uecho.Props
