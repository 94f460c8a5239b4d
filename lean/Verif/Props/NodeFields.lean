import Verif.Spec.NodeFields
import Verif.Lemmas.Node
/-! # C138 A node holds the address, the listener and the transaction id set last -/
namespace Uecho.Props
open Uecho Uecho.Spec Uecho.Lemmas

/-- C138: after any calls on a node, its address, listener and transaction id are the last given; the objects are unchanged. An address
is the node's iff it is that address or one the server is bound to; NULL is never the node's. -/
theorem C138_node_fields (n : Node) (cs : List NodeSet) :
    let n' := cs.foldl nodeSet n
    n'.getAddress = addressAfter n.getAddress cs ∧
    n'.hasMessageListener = listenerAfter n.hasMessageListener cs ∧
    n'.getLastTid.toNat = tidAfter n.getLastTid.toNat cs ∧
    n'.objs = n.objs ∧ n'.classes = n.classes ∧
    (∀ a, n'.isAddress a = true ↔ ∃ s, a = some s ∧ (addressAfter n.getAddress cs = some s ∨ s ∈ n.bound)) := by
  have key : ∀ (cs : List NodeSet) (n : Node),
      (cs.foldl nodeSet n).address = addressAfter n.address cs ∧
      (cs.foldl nodeSet n).hasListener = listenerAfter n.hasListener cs ∧
      (cs.foldl nodeSet n).lastTid.toNat = tidAfter n.lastTid.toNat cs ∧
      (cs.foldl nodeSet n).objs = n.objs ∧ (cs.foldl nodeSet n).classes = n.classes ∧ (cs.foldl nodeSet n).bound = n.bound := by
    intro cs
    induction cs with
    | nil => intro n; exact ⟨rfl, rfl, rfl, rfl, rfl, rfl⟩
    | cons c cs ih =>
      intro n
      have h := ih (nodeSet n c)
      simp only [List.foldl_cons]
      cases c with
      | address a =>
        cases a with
        | none => simpa [nodeSet, Node.setAddress, addressAfter, listenerAfter, tidAfter] using h
        | some a => simpa [nodeSet, Node.setAddress, addressAfter, listenerAfter, tidAfter] using h
      | listener b => simpa [nodeSet, Node.setMessageListener, addressAfter, listenerAfter, tidAfter] using h
      | lastTid t => simpa [nodeSet, Node.setLastTid, addressAfter, listenerAfter, tidAfter] using h
      | nextTid =>
        have ht : (nodeSet n .nextTid).lastTid.toNat = succTid n.lastTid.toNat := nextT_toNat n.lastTid
        rw [ht] at h
        simpa [nodeSet, Node.getNextTid, Node.nextTid, addressAfter, listenerAfter, tidAfter] using h
  intro n'
  obtain ⟨h1, h2, h3, h4, h5, h6⟩ := key cs n
  refine ⟨h1, ?_, h3, h4, h5, ?_⟩
  · have hb : ∀ n : Node, n.hasMessageListener = n.hasListener := by
      intro n
      unfold Node.hasMessageListener
      cases n.hasListener <;> rfl
    rw [hb, hb]; exact h2
  · intro a
    unfold Node.isAddress
    cases a with
    | none => simp
    | some s =>
      have h1' : n'.address = addressAfter n.getAddress cs := h1
      have h6' : n'.bound = n.bound := h6
      simp [h1', h6']

/-- C138: the next transaction id is from 1 to 65535, whatever was set. -/
theorem C138_next_tid (n : Node) : 1 ≤ n.getNextTid.2.toNat ∧ n.getNextTid.2.toNat ≤ 65535 ∧
    n.getNextTid.1.getLastTid = n.getNextTid.2 := by
  have h : n.getNextTid.2.toNat = succTid n.lastTid.toNat := nextT_toNat n.lastTid
  have := succTid_range n.lastTid.toNat
  exact ⟨by omega, by omega, rfl⟩

/-- C138: whatever the memory held before, a new node begins with the transaction id 1. -/
theorem C138_first_tid (e : Endian) (db : Db) (junk rnd : Nat → Byte) (tid0 : BitVec 32) (n : Node) (eff : List Effect)
    (h : Node.new e db junk rnd tid0 = .ok (n, eff)) : n.getLastTid = 0 ∧ n.getNextTid.2 = 1 := by
  unfold Node.new at h
  rw [Res.bind_eq_ok] at h
  obtain ⟨o, _, h⟩ := h
  rw [Res.bind_eq_ok] at h
  obtain ⟨⟨n1, eff1, _⟩, _, h⟩ := h
  cases h
  exact ⟨rfl, by simp [Node.getNextTid, Node.nextTid, Node.setLastTid]⟩

example : (match Node.new .little [] (fun _ => 0#8) (fun _ => 0#8) 0xDEADBEEF#32 with | .ok (n, _) => n.getNextTid.2 == 1 | .ub => false) = true := by
  decide +kernel

/-- A node that is given an address and then NULL, and whose transaction id wraps. -/
example : ∃ n : Node, (let n' := [NodeSet.address (some "192.0.2.1"), .listener true, .address none, .lastTid 65534, .nextTid, .nextTid].foldl nodeSet n
    n'.getAddress = some "192.0.2.1" ∧ n'.hasMessageListener = true ∧ n'.getLastTid = 1 ∧ n'.isAddress (some "192.0.2.2") = true) :=
  ⟨⟨[], [], 0, none, ["192.0.2.2"], false⟩, by decide +kernel⟩

/-- **C131.** After any calls on an object that leave its class, its name and its listener are the ones given last; a new object has none. -/
theorem C131_object_fields (o : Obj) (cs : List ObjSet) :
    let o' := cs.foldl objSet o
    o'.getName = objName o.getName cs ∧ o'.hasMessageListener = objListener o.hasMessageListener cs ∧
    Obj.new.getName = none ∧ Obj.new.hasMessageListener = false := by
  suffices h : (cs.foldl objSet o).getName = objName o.getName cs ∧ (cs.foldl objSet o).hasMessageListener = objListener o.hasMessageListener cs from
    ⟨h.1, h.2, rfl, rfl⟩
  induction cs generalizing o with
  | nil => exact ⟨rfl, rfl⟩
  | cons c cs ih =>
    have h := ih (objSet o c)
    cases c with
    | name s => cases s <;> exact h
    | listener b => exact h
    | ins v => exact h
    | data c d => exact h
    | attr c a => exact h
    | add p => exact h
    | handler esv c x => exact h
    | clear => exact h

example : ([ObjSet.name (some "lamp"), .listener true, .name none, .data 0x80#8 [0x30#8], .clear].foldl objSet Obj.new).getName = some "lamp" ∧
    ([ObjSet.name (some "lamp"), .listener true, .name none, .data 0x80#8 [0x30#8], .clear].foldl objSet Obj.new).hasMessageListener = true :=
  ⟨rfl, rfl⟩

end Uecho.Props
