import Verif.Model.ObjectSend
import Verif.Props.Controller
/-! # C142 A message to an object that was found goes to its node and names it -/
namespace Uecho.Props
open Uecho Uecho.Spec Uecho.Lemmas

/-- **C142.** Sending a message to an object a controller has found hands exactly one datagram to the network, for the address of the node of
the object: the message as the application made it, with the code of the object as destination, the profile of the controller as source
and the next transaction id of the controller. The objects of the controller and all that was found stay as they are. -/
theorem C142_to_object {e : Endian} {db : Db} {c : Ctrl} (hr : CtrlReach e db c) (hc : (destObj c.node profileEoj).isSome) {i j : Nat} {d : Node}
    {o : Obj} (hd : c.nodes[i]? = some d) (ho : d.objs[j]? = some o) {m : Message} (hm : Reachable e m) :
    ∃ a c' m' t, d.address = some a ∧ c.objSendMessage e i j m = .ok (c', m', [sends (some a)
        { toFrame m with tid := t, seoj := profileEoj, deoj := objEoj o }]) ∧
      tidNat e t = succTid c.node.lastTid.toNat ∧ c'.node.lastTid.toNat = tidNat e t ∧
      c'.node.objs = c.node.objs ∧ c'.nodes = c.nodes := by
  obtain ⟨p, hp⟩ := Option.isSome_iff_exists.mp hc
  have hmem : d ∈ c.nodes := List.mem_of_getElem? hd
  obtain ⟨a, ha⟩ := Option.ne_none_iff_exists'.mp ((reach_cinv hr).addr d hmem)
  have hn : o.hasNode = true := ((reach_cinv hr).node d hmem).inv.node o (List.mem_of_getElem? ho)
  have hm1 : m.setDestinationObjectCode o.getCode = .ok { m with deoj := objEoj o } := by
    unfold Message.setDestinationObjectCode
    rw [getCode_ofNat, eojOfCode_eq]; rfl
  have hr : Reachable e { m with deoj := objEoj o } := .setDst hm _ hm1
  refine ⟨a, { c with node := c.node.nextTid }, { ({ m with deoj := objEoj o } : Message).setTid e (nextT c.node.lastTid) with seoj := profileEoj },
    tidBytes e (nextT c.node.lastTid), ha, ?_, ?_, ?_, rfl, rfl⟩
  · simp only [Ctrl.objSendMessage, hd, ho, hn, if_true, hm1, Res.bind_ok, Ctrl.sendMessage, ha,
      sendMessage_eq e c.node a (reachable_inv hr), hp, Res.pure_eq]
    rfl
  · exact tidNat_next e _
  · rw [tidNat_next]; exact nextT_toNat _

/-- **C142.** The same for a message to a node that was found: the destination is that of the message. -/
theorem C142_to_node {e : Endian} {db : Db} {c : Ctrl} (hr : CtrlReach e db c) (hc : (destObj c.node profileEoj).isSome) {i : Nat} {d : Node}
    (hd : c.nodes[i]? = some d) {m : Message} (hm : Reachable e m) :
    ∃ a c' m' t, d.address = some a ∧ c.sendMessage e i m = .ok (c', m', [sends (some a)
        { toFrame m with tid := t, seoj := profileEoj }]) ∧
      tidNat e t = succTid c.node.lastTid.toNat ∧ c'.node.lastTid.toNat = tidNat e t ∧
      c'.node.objs = c.node.objs ∧ c'.nodes = c.nodes := by
  obtain ⟨p, hp⟩ := Option.isSome_iff_exists.mp hc
  obtain ⟨a, ha⟩ := Option.ne_none_iff_exists'.mp ((reach_cinv hr).addr d (List.mem_of_getElem? hd))
  refine ⟨a, { c with node := c.node.nextTid }, { m.setTid e (nextT c.node.lastTid) with seoj := profileEoj },
    tidBytes e (nextT c.node.lastTid), ha, ?_, ?_, ?_, rfl, rfl⟩
  · simp only [hd, Ctrl.sendMessage, ha, sendMessage_eq e c.node a (reachable_inv hm), hp, Res.pure_eq, Res.bind_ok]
    rfl
  · exact tidNat_next e _
  · rw [tidNat_next]; exact nextT_toNat _

/-- **C142.** The nodes that were found are looked up by their address: there is one at an address iff it is listed, and no two. The
number of nodes is the number of their addresses. -/
theorem C142_lookup {e : Endian} {db : Db} {c : Ctrl} (hr : CtrlReach e db c) (a : String) (d : Node) :
    (Ctrl.listGetByAddress c.nodes (some a) = some d ↔ d ∈ c.nodes ∧ d.address = some a) ∧ Ctrl.listGetByAddress c.nodes none = none ∧
    (∀ as : List String, as.Nodup → (∀ x, x ∈ as ↔ ∃ d ∈ c.nodes, d.address = some x) → c.getNodeCount = as.length) := by
  have hnd := (reach_cinv hr).nodup
  have hne := (reach_cinv hr).addr
  refine ⟨?_, rfl, ?_⟩
  · unfold Ctrl.listGetByAddress
    generalize c.nodes = ns at hnd hne
    clear hne
    simp only
    induction ns with
    | nil => simp
    | cons x ns ih =>
      rw [List.map_cons, List.nodup_cons] at hnd
      rw [List.find?_cons]
      by_cases hx : x.address = some a
      · simp only [hx, beq_self_eq_true, Option.some.injEq]
        constructor
        · rintro rfl; exact ⟨by simp, hx⟩
        · rintro ⟨h1, h2⟩
          rcases List.mem_cons.mp h1 with rfl | h1
          · rfl
          · exact absurd (List.mem_map.mpr ⟨d, h1, h2.trans hx.symm⟩) hnd.1
      · have hb : (x.address == some a) = false := by simpa using hx
        simp only [hb]
        rw [ih hnd.2]
        constructor
        · rintro ⟨h1, h2⟩; exact ⟨by simp [h1], h2⟩
        · rintro ⟨h1, h2⟩
          rcases List.mem_cons.mp h1 with rfl | h1
          · exact absurd h2 hx
          · exact ⟨h1, h2⟩
  · intro as has hmem
    unfold Ctrl.getNodeCount
    have h1 : (as.map some).Nodup := by
      unfold List.Nodup at *
      exact List.Pairwise.map _ (fun x y hxy h => hxy (Option.some.inj h)) has
    have h2 : ∀ y, y ∈ as.map some ↔ y ∈ c.nodes.map (·.address) := by
      intro y
      cases y with
      | none =>
        constructor
        · intro h; obtain ⟨x, -, hx⟩ := List.mem_map.mp h; cases hx
        · intro h; obtain ⟨d, hd, hx⟩ := List.mem_map.mp h; exact absurd hx (hne d hd)
      | some x =>
        have h3 : some x ∈ as.map some ↔ x ∈ as := by simp
        rw [h3, hmem]
        simp
    have l1 := nodup_length_le h1 (fun y hy => (h2 y).1 hy)
    have l2 := nodup_length_le hnd (fun y hy => (h2 y).2 hy)
    simp only [List.length_map] at l1 l2
    omega

/-- The controller of C51 has found the object 0x029001 of the node 10.0.0.2, and sends to it. -/
example : ∃ d o, CtrlReach .little [] kCtrl ∧ (destObj kCtrl.node profileEoj).isSome = true ∧ kCtrl.nodes[0]? = some d ∧ d.objs[1]? = some o ∧
    Reachable .little (Message.new.setEsv 0x62#8) :=
  ⟨_, _, kCtrl_reach, by with_unfolding_all rfl, by with_unfolding_all rfl, by with_unfolding_all rfl, .setEsv .new _⟩

end Uecho.Props
