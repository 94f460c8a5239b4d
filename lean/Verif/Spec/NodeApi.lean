import Verif.Spec.Service
import Verif.Spec.ObjectApi
import Verif.Spec.Values
import Verif.Spec.MessageApi
/-!
# Specification vocabulary for nodes

`NodeReach e db n`: the node `n` is obtained from `uecho_node_new` by some history of API calls that
stayed defined. Objects that belong to a node may be changed by any call that keeps their code and
their node (`edit`): changing the code of an object after adding it is outside the properties.
-/
namespace Uecho.Spec
open Uecho

/-- An operation on an object that changes neither its code nor whether it belongs to a node. -/
def KeepsIdentity (f : Obj → Res Obj.Out) : Prop :=
  ∀ o o' a, f o = .ok (o', a) → objEoj o' = objEoj o ∧ o'.hasNode = o.hasNode

/-- Nodes reachable through the API. -/
inductive NodeReach (e : Endian) (db : Db) : Node → Prop
  | new {n eff} (junk rnd tid0) : Node.new e db junk rnd tid0 = .ok (n, eff) → NodeReach e db n
  | addObject {n n' eff r} (o) : NodeReach e db n → n.addObject e o = .ok (n', eff, r) → NodeReach e db n'
  | setObject {n n' eff r} (junk c) : NodeReach e db n → n.setObject e db junk c = .ok (n', eff, r) →
      NodeReach e db n'
  | clear {n} : NodeReach e db n → NodeReach e db n.clear
  | setAddress {n} (a) : NodeReach e db n → NodeReach e db (n.setAddress a)
  | setMessageListener {n} (b) : NodeReach e db n → NodeReach e db (n.setMessageListener b)
  | setLastTid {n} (t) : NodeReach e db n → NodeReach e db (n.setLastTid t)
  | nextTid {n} : NodeReach e db n → NodeReach e db n.nextTid
  | edit {n n' eff} (i f) : NodeReach e db n → KeepsIdentity f → n.onObj e i f = .ok (n', eff) →
      NodeReach e db n'
  | setManufacturerCode {n n' eff} (v is) : NodeReach e db n →
      Node.setManufacturerCode e v is n = .ok (n', eff) → NodeReach e db n'
  | announceMessage {n n' m' eff} (m) : NodeReach e db n → n.announceMessage e m = .ok (n', m', eff) →
      NodeReach e db n'
  | sendMessage {n n' m' eff} (a m) : NodeReach e db n → n.sendMessage e a m = .ok (n', m', eff) →
      NodeReach e db n'
  | start {n n' eff} (b) : NodeReach e db n → n.start e b = .ok (n', eff) → NodeReach e db n'
  | receive {n n' eff} (loc a d) : NodeReach e db n → n.receive e loc a d = .ok (n', eff) → NodeReach e db n'

/-- Group and class of an EOJ as the number `uecho_node_hasclassbycode` takes. -/
def classNat (o : Obj) : Nat := o.grp.toNat * 256 + o.cls.toNat

/-- The instances a node lists in its profile: its objects except profile objects (group 0x0E). -/
def instances (n : Node) : List (Byte × Byte × Byte) := (n.objs.map objEoj).filter fun x => x.1 ≠ 0x0E

/-- The first occurrences of the elements of a list, in order. -/
def firsts {α : Type} [DecidableEq α] : List α → List α
  | [] => []
  | x :: xs => x :: (firsts xs).filter (· ≠ x)

/-- The classes of a node: the classes of its objects, each once, in order of first appearance. -/
def nodeClasses (n : Node) : List (Byte × Byte) := firsts (n.objs.map fun o => (o.grp, o.cls))

/-- The instance list of the protocol: a count (at most 255) and that many codes. -/
def instanceListData (xs : List (Byte × Byte × Byte)) : List Byte :=
  BitVec.ofNat 8 (min 255 xs.length) :: (xs.take 255).flatMap fun x => [x.1, x.2.1, x.2.2]

/-- The class list of the protocol. -/
def classListData (xs : List (Byte × Byte)) : List Byte :=
  BitVec.ofNat 8 (min 255 xs.length) :: (xs.take 255).flatMap fun x => [x.1, x.2]

/-- The data of a property. -/
def dataOf (o : Obj) (c : Byte) : Option (List Byte) := (o.getProperty c).map (·.data)

/-- `d` is the number `v` in `k` bytes, most significant first. -/
def IsNumber (k v : Nat) (d : Option (List Byte)) : Prop := ∃ l, d = some l ∧ l.length = k ∧ beValue l = v

/-- The number two TID bytes stand for: the host's byte order decides (see C07). -/
def tidNat (e : Endian) (t : Byte × Byte) : Nat :=
  match e with
  | .little => t.1.toNat + 256 * t.2.toNat
  | .big => 256 * t.1.toNat + t.2.toNat

/-- The TID following `t`: 1, 2, …, 65535, 1, … -/
def succTid (t : Nat) : Nat := if 65535 ≤ t then 1 else t + 1

/-- The `k` TIDs following `t`. -/
def tidSeq : Nat → Nat → List Nat
  | 0, _ => []
  | k + 1, t => succTid t :: tidSeq k (succTid t)

/-- The status change announcements a write section causes: the granted writes of non-empty data to
announceable properties that know their object, in order. -/
def announced (hs : List Observer) (esv : Byte) : PMap → List Prop8 → List Prop8
  | _, [] => []
  | σ, q :: qs =>
      (if granted hs esv σ q = true ∧ q.2 ≠ [] ∧ (∃ p, σ q.1 = some p ∧ CanAnnounce p ∧ p.hasParent = true)
        then [q] else []) ++
      announced hs esv (if granted hs esv σ q then σ.store q.1 q.2 else σ) qs

/-- `k` outgoing messages of a node, one after the other; `fs` are the frames that left. -/
inductive Outgoing (e : Endian) : Node → Nat → List Frame → Node → Prop
  | done {n} : Outgoing e n 0 [] n
  | announce {n n1 n' m m' k fs gs} : Reachable e m → n.announceMessage e m = .ok (n1, m', gs.map (sends none)) →
      Outgoing e n1 k fs n' → Outgoing e n (k + 1) (gs ++ fs) n'
  | send {n n1 n' m m' k fs gs} (a : String) : Reachable e m →
      n.sendMessage e (some a) m = .ok (n1, m', gs.map (sends (some a))) →
      Outgoing e n1 k fs n' → Outgoing e n (k + 1) (gs ++ fs) n'
  | property {n n1 n' k fs gs} (c p) : n.announceProperty e c p = .ok (n1, gs.map (sends none)) →
      Outgoing e n1 k fs n' → Outgoing e n (k + 1) (gs ++ fs) n'

end Uecho.Spec
