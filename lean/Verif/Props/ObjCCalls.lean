import Verif.Lemmas.ObjCCalls
import Verif.Props.ObjectSend
/-! # C159 The Objective-C calls do what their names say -/
namespace Uecho.Props
open Uecho Uecho.Spec Uecho.Lemmas

/-- **C159.** The lists of a message that arrived, in any message object: `properties` shows the properties of the frame in their order, for the
SetGet services `setproperties` and `getproperties` do, and the other lists are empty. -/
theorem C159_lists {e : Endian} {m m' : Message} (hm : Reachable e m) (f : Frame) (rest : List Byte) (hf : f.WF)
    (h : m.parse (encode f ++ rest) (encode f ++ rest).length = .ok (true, m')) :
    match f.body with
    | .plain ps => ShowsBody m' ps [] []
    | .setGet s g => ShowsBody m' [] s g := by
  have hs := parse_spec (reachable_inv hm).toMsgWF (encode f ++ rest) _ (Nat.le_refl _)
  rw [List.take_length, decode_complete hf] at hs
  simp only at hs
  rw [h] at hs; simp at hs; subst hs
  obtain ⟨h1, h2, h3⟩ := lists_eq (inv_parsed (reachable_inv hm) hf).toMsgWF
  obtain ⟨t, s, d, v, b⟩ := f
  cases b with
  | plain ps => exact ⟨_, _, _, h1, h2, h3, view_mkProp ps, rfl, rfl⟩
  | setGet ss gs => exact ⟨_, _, _, h1, h2, h3, rfl, view_mkProp ss, view_mkProp gs⟩

/-- A SetGet frame. -/
example : ∃ m', Message.new.parse (encode kSetGetAnswer ++ []) (encode kSetGetAnswer ++ []).length = .ok (true, m') :=
  ⟨_, by with_unfolding_all rfl⟩

/-- **C159.** The lists of a message that the program made: all that it added, in this order. -/
theorem C159_made {e : Endian} {m : Message} (hm : Reachable e m) : ShowsBody m (view m.ep) (view m.epSet) (view m.epGet) := by
  obtain ⟨h1, h2, h3⟩ := lists_eq (reachable_inv hm).toMsgWF
  exact ⟨_, _, _, h1, h2, h3, rfl, rfl, rfl⟩

/-- **C159.** `sendMessage` hands exactly one datagram to the network, for the address of the node: the message as the program made it, with the
code of the object as destination, the profile of the controller as source and the next transaction id. The answer is that of the network. -/
theorem C159_send {e : Endian} {db : Db} {c : Ctrl} (hr : CtrlReach e db c) (hc : (destObj c.node profileEoj).isSome) {i : Nat} {d : Node}
    (hd : c.nodes[i]? = some d) (o : Option Obj) {m : Message} (hm : Reachable e m) (sent : Bool) :
    ∃ a c' m' t, d.address = some a ∧ ObjC.sendMessage e c (some i) o m sent = .ok (c', m', [sends (some a)
        { toFrame m with tid := t, seoj := profileEoj, deoj := destOf o }], sent) ∧
      tidNat e t = succTid c.node.lastTid.toNat ∧ c'.node.lastTid.toNat = tidNat e t ∧
      c'.node.objs = c.node.objs ∧ c'.nodes = c.nodes := by
  have hm1 := setDest_eq m o
  have hm2 : Reachable e { m with deoj := destOf o } := .setDst hm _ hm1
  obtain ⟨a, c', m', t, h1, h2, h3⟩ := C142_to_node hr hc hd hm2
  refine ⟨a, c', m', t, h1, ?_, h3⟩
  unfold ObjC.sendMessage
  rw [hm1, Res.bind_ok]
  simp only [h2, Res.bind_ok, Res.pure_eq, List.isEmpty_cons, Bool.not_false, Bool.true_and]
  rfl

/-- The controller of C51 has found a node. -/
example : ∃ d, CtrlReach .little [] kCtrl ∧ (destObj kCtrl.node profileEoj).isSome = true ∧ kCtrl.nodes[0]? = some d ∧
    Reachable .little (Message.new.setEsv 0x62#8) :=
  ⟨_, kCtrl_reach, by with_unfolding_all rfl, by with_unfolding_all rfl, .setEsv .new _⟩

/-- **C159.** Without a node nothing is sent, and the answer is NO. -/
theorem C159_no_node (e : Endian) (c : Ctrl) (o : Option Obj) (m : Message) (sent : Bool) :
    ∃ m', ObjC.sendMessage e c none o m sent = .ok (c, m', [], false) := by
  unfold ObjC.sendMessage
  rw [setDest_eq, Res.bind_ok]
  exact ⟨_, rfl⟩

/-- **C159, partial** (the frame arrives before any other, and is handled without interruption; `C159_setget_violated`). `postMessage` sends the
request like `sendMessage`. The response that the program gets, if the first frame with the transaction
id of the request and another ESV has one property section, shows the properties of this frame. -/
theorem C159_post_partial {e : Endian} {db : Db} {c : Ctrl} (hr : CtrlReach e db c) (hc : (destObj c.node profileEoj).isSome) {i : Nat} {d : Node}
    (hd : c.nodes[i]? = some d) (o : Option Obj) {h : Heap} {req res : Nat} (hne : req ≠ res) {m : Message} (hq : h req = some m) (hm : Reachable e m)
    (sent : Bool) :
    ∃ a c1 h1 t, d.address = some a ∧ ObjC.postBegin e c h d o req res sent = .ok (c1, h1, [.node (sends (some a)
        { toFrame m with tid := t, seoj := profileEoj, deoj := destOf o })], sent) ∧
      tidNat e t = succTid c.node.lastTid.toNat ∧
      ∀ (orc : Oracle) (loc : Option String) (b : String) (f : Frame) (rest : List Byte) (c2 : Ctrl) (h2 : Heap) (ev : List CEvent),
        f.WF → f.tid = t → f.esv ≠ m.esv → c1.receive e db orc h1 loc (some b) (encode f ++ rest) = .ok (c2, h2, ev) →
        ∃ r, h2 res = some r ∧ r.esv = f.esv ∧ r.fromAddr = some b ∧
          match f.body with
          | .plain ps => ShowsBody r ps [] []
          | .setGet _ _ => ShowsBody r [] [] [] := by
  obtain ⟨p, hp⟩ := Option.isSome_iff_exists.mp hc
  obtain ⟨a, ha⟩ := Option.ne_none_iff_exists'.mp ((reach_cinv hr).addr d (List.mem_of_getElem? hd))
  have hm1 := setDest_eq m o
  have hm2 : Reachable e { m with deoj := destOf o } := .setDst hm _ hm1
  let q : Message := { ({ m with deoj := destOf o } : Message).setTid e (nextT c.node.lastTid) with seoj := profileEoj }
  refine ⟨a, { c with node := c.node.nextTid, postReq := some req, postRes := some res },
    ((h.set res Message.new).set req { m with deoj := destOf o }).set req q, tidBytes e (nextT c.node.lastTid), ha, ?_, tidNat_next e _, ?_⟩
  · unfold ObjC.postBegin
    have h0 : (h.set res Message.new) req = some m := by simp [Heap.set, hne, hq]
    have h1 : ((h.set res Message.new).set req { m with deoj := destOf o }) req = some { m with deoj := destOf o } := by simp [Heap.set]
    simp only [h0, hm1, Res.bind_ok, Ctrl.postBegin, h1, ha, sendMessage_eq e c.node a (reachable_inv hm2), hp, Res.pure_eq]
    rfl
  · intro orc loc b f rest c2 h2 ev hf ht hv hrec
    have hres : (((h.set res Message.new).set req { m with deoj := destOf o }).set req q) res = some Message.new := by
      simp [Heap.set, Ne.symm hne]
    have hreq : (((h.set res Message.new).set req { m with deoj := destOf o }).set req q) req = some q := by simp [Heap.set]
    have hg := post_got orc loc b f hf rest (r := req) (p := res) (q := q) (old := Message.new) rfl rfl hreq hres .new ⟨by rw [ht]; rfl, hv⟩ hrec
    refine ⟨_, hg, rfl, rfl, ?_⟩
    have hi := inv_parsed inv_new hf
    obtain ⟨l1, l2, l3⟩ := lists_eq (m := { reqMsg f (some b) with
      ep := (reqMsg f (some b)).ep.map Property.copy, opcSet := 0, epSet := [], opcGet := 0, epGet := [] })
      ⟨by have := hi.ep; rw [List.length_map]; exact this, rfl, rfl⟩
    obtain ⟨t', s, d', v, bd⟩ := f
    cases bd with
    | plain ps => exact ⟨_, _, _, l1, l2, l3, by rw [view_copy]; exact view_mkProp ps, rfl, rfl⟩
    | setGet ss gs => exact ⟨_, _, _, l1, l2, l3, rfl, rfl, rfl⟩

/-- **C159 fails for SetGet.** The response to a SetGet request shows no properties, whatever the frame held. -/
theorem C159_setget_violated {e : Endian} {db : Db} {c : Ctrl} (hr : CtrlReach e db c) (hc : (destObj c.node profileEoj).isSome) {i : Nat}
    {d : Node} (hd : c.nodes[i]? = some d) (o : Option Obj) {h : Heap} {req res : Nat} (hne : req ≠ res) {m : Message} (hq : h req = some m)
    (hm : Reachable e m) (hesv : m.esv = 0x6E#8) (sent : Bool) :
    ∃ c1 h1 ev1 t, ObjC.postBegin e c h d o req res sent = .ok (c1, h1, ev1, sent) ∧
      ∀ (orc : Oracle) (loc : Option String) (b : String) (s g : List Prop8) (se de : Byte × Byte × Byte) (rest : List Byte) (c2 : Ctrl) (h2 : Heap)
        (ev : List CEvent), SectionOK s → SectionOK g →
        c1.receive e db orc h1 loc (some b) (encode ⟨t, se, de, 0x7E#8, .setGet s g⟩ ++ rest) = .ok (c2, h2, ev) →
        ∃ r, h2 res = some r ∧ r.esv = 0x7E#8 ∧ ShowsBody r [] [] [] := by
  obtain ⟨a, c1, h1, t, -, hb, -, hrest⟩ := C159_post_partial hr hc hd o hne hq hm sent
  refine ⟨c1, h1, _, t, hb, ?_⟩
  intro orc loc b s g se de rest c2 h2 ev hs hg hrec
  obtain ⟨r, k1, k2, -, k3⟩ := hrest orc loc b ⟨t, se, de, 0x7E#8, .setGet s g⟩ rest c2 h2 ev ⟨.inr (.inl rfl), hs, hg⟩ rfl
    (by rw [hesv]; show (0x7E#8 : Byte) ≠ 0x6E#8; decide) hrec
  exact ⟨r, k1, k2, k3⟩

/-- A post of the controller of C51, and its answer. -/
example : ∃ d c1 h1 ev1 c2 h2 ev2, kCtrl.nodes[0]? = some d ∧ (kPostHeap 0x6E#8) 0 ≠ none ∧
    ObjC.postBegin .little kCtrl (kPostHeap 0x6E#8) d none 0 1 true = .ok (c1, h1, ev1, true) ∧
    c1.receive .little [] kOrc h1 none (some "10.0.0.2") (encode { kSetGetAnswer with tid := tidBytes .little (nextT kCtrl.node.lastTid) }) =
      .ok (c2, h2, ev2) ∧ CEvent.signal ∈ ev2 :=
  ⟨_, _, _, _, _, _, _, by with_unfolding_all rfl, by decide, by with_unfolding_all rfl, by with_unfolding_all rfl, by with_unfolding_all decide⟩

/-- **C159.** Of each status of a node the observer is told once, with the method for it and the address of the node, in this order, provided it has
the method. -/
theorem C159_observer (responds : ObjC.Selector → Bool) (ev : List CEvent) :
    ObjC.told responds ev = ((statuses ev).filter fun x => responds (methodFor x.2)).map fun x => (methodFor x.2, x.1) := by
  induction ev with
  | nil => rfl
  | cons x ev ih =>
    cases x with
    | status a s =>
      show ObjC.observed responds a s ++ ObjC.told responds ev = (((a, s) :: statuses ev).filter _).map _
      rw [ih, List.filter_cons]
      have ho : ObjC.observed responds a s = if responds (methodFor s) then [(methodFor s, a)] else [] := by cases s <;> rfl
      rw [ho]
      by_cases hx : responds (methodFor s) = true
      · rw [if_pos hx, if_pos hx]; rfl
      · rw [if_neg hx, if_neg hx]; rfl
    | node y => exact ih
    | message => exact ih
    | signal => exact ih

/-- **C159.** A node that answers a search and is not known: the observer is told once, by `nodeAdded`. -/
theorem C159_added {e : Endian} {db : Db} {c c' : Ctrl} {h h' : Heap} {ev : List CEvent}
    (hc : CtrlReach e db c) (orc : Oracle) (loc : Option String) (a : String) (f : Frame) (d : List Byte) (hf : f.WF)
    (hs : SearchAnswer f d) (hd : d ≠ []) (rest : List Byte) (hl : c.hasNodeListener = true) (hnew : c.getNode (some a) = none)
    (hr : c.receive e db orc h loc (some a) (encode f ++ rest) = .ok (c', h', ev)) (responds : ObjC.Selector → Bool) :
    ObjC.told responds ev = if responds .nodeAdded then [(.nodeAdded, some a)] else [] := by
  rw [C159_observer, C54_search_status hc orc loc a f d hf hs hd rest hl hr, hnew]
  by_cases hx : responds .nodeAdded = true
  · simp [methodFor, hx]
  · simp [methodFor, hx]

/-- **C159 fails for `search`.** The answer is YES even if the socket did not take the datagram. -/
theorem C159_search_violated {e : Endian} {c c' : Ctrl} {ev : List CEvent} {ok : Bool} (h : ObjC.search e c false = .ok (c', ev, ok)) : ok = true := by
  unfold ObjC.search at h
  rw [Res.bind_eq_ok] at h
  obtain ⟨_, -, h⟩ := h
  cases h; rfl

example : ∃ c' ev, ObjC.search .little kCtrl false = .ok (c', ev, true) := ⟨_, _, by with_unfolding_all rfl⟩

/-- **C159 fails for `announceMessage`.** The node it is given has no effect: the message goes to all nodes. -/
theorem C159_announce_violated {e : Endian} {c : Ctrl} (hc : (destObj c.node profileEoj).isSome) {m : Message} (hm : Reachable e m) (i : Option Nat)
    (sent : Bool) :
    ∃ c' t, ObjC.announceMessage e c i m sent = .ok (c', [.node (sends none { toFrame m with tid := t, seoj := profileEoj })], sent) := by
  obtain ⟨p, hp⟩ := Option.isSome_iff_exists.mp hc
  refine ⟨{ c with node := c.node.nextTid }, tidBytes e (nextT c.node.lastTid), ?_⟩
  unfold ObjC.announceMessage Ctrl.announceMessage
  simp only [announceMessage_eq e c.node (reachable_inv hm), hp, Res.bind_ok, Res.pure_eq]
  rfl

end Uecho.Props
