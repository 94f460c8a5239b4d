import Verif.Spec.ControllerApi
import Verif.Spec.Remote
/-!
# Specification vocabulary for a node and a controller on one network

One node of the library (the host), one controller, and an environment that may do anything except
send datagrams in the name of the host. Datagrams the host sent may reach the controller late, never, several
times, in any order, and also if they were addressed to somebody else; the host may receive any
datagram from any address at any time.
-/
namespace Uecho.Spec
open Uecho

/-- What the application of a node, and the network, can do to the node. -/
inductive Act where
  | addObject (o : Obj)
  | setObject (junk : Nat → Byte) (code : CInt)
  | clear
  | setAddress (a : Option String)
  | setMessageListener (b : Bool)
  | setLastTid (t : BitVec 32)
  | nextTid
  /-- any call on the object number `i` -/
  | edit (i : Nat) (f : Obj → Res Obj.Out)
  | setManufacturerCode (v : CInt)
  | announce
  | start (bound : List String)
  /-- the application announces a message of its own -/
  | announceMessage (m : Message)
  /-- the application sends a message of its own -/
  | sendMessage (a : Option String) (m : Message)
  /-- a datagram arrives -/
  | receive (g : Datagram)

/-- The call made. -/
def Act.run (e : Endian) (db : Db) (n : Node) : Act → Res (Node × List Effect)
  | addObject o => do let (n, eff, _) ← n.addObject e o; return (n, eff)
  | setObject junk c => do let (n, eff, _) ← n.setObject e db junk c; return (n, eff)
  | clear => .ok (n.clear, [])
  | setAddress a => .ok (n.setAddress a, [])
  | setMessageListener b => .ok (n.setMessageListener b, [])
  | setLastTid t => .ok (n.setLastTid t, [])
  | nextTid => .ok (n.nextTid, [])
  | edit i f => n.onObj e i f
  | setManufacturerCode v => Node.setManufacturerCode e v (List.range n.objs.length) n
  | announce => n.announce e
  | start b => n.start e b
  | announceMessage m => do let (n, _, eff) ← n.announceMessage e m; return (n, eff)
  | sendMessage a m => do let (n, _, eff) ← n.sendMessage e a m; return (n, eff)
  | receive g => n.receive e g.loc (some g.sender) g.bytes

/-- Messages are made by the API of messages, and registered handlers are not null. -/
def Act.Sane (e : Endian) (n : Node) : Act → Prop
  | announceMessage m => Reachable e m
  | sendMessage _ m => Reachable e m
  | receive _ => HandlersSet n
  | _ => True

/-- What the user of a controller does. -/
inductive CtrlStep (e : Endian) (db : Db) : Ctrl → Ctrl → Prop
  | setMessageListener {c} (b) : CtrlStep e db c (c.setMessageListener b)
  | setNodeListener {c} (b) : CtrlStep e db c (c.setNodeListener b)
  | enableOption {c} (p) : CtrlStep e db c (c.enableOption p)
  | disableOption {c} (p) : CtrlStep e db c (c.disableOption p)
  | localNode {c n} : NodeReach e db n → CtrlStep e db c { c with node := n }
  | start {c c' ev} (b) : c.start e b = .ok (c', ev) → CtrlStep e db c c'
  | announce {c c' ev} (m) : c.announceMessage e m = .ok (c', ev) → CtrlStep e db c c'
  | search {c c' ev} (esv) : c.searchWithEsv e esv = .ok (c', ev) → CtrlStep e db c c'
  | searchObject {c c' ev} (code esv) : c.searchObjectWithEsv e code esv = .ok (c', ev) → CtrlStep e db c c'
  | postBegin {c c' h h' ev r} (a req res s) : c.postBegin e h a req res s = .ok (c', h', ev, r) → CtrlStep e db c c'
  | postEnd {c} : CtrlStep e db c c.postEnd

/-- `World e db a ok past sent n c`: the host with the address `a` is now `n`, the controller is now `c`,
`past` are all the states the host has been in (the current one first), `sent` is everything it handed to the network.
`ok n x` says what the host is supposed to do in state `n`. -/
inductive World (e : Endian) (db : Db) (a : String) (ok : Node → Act → Prop) :
    List Node → List Effect → Node → Ctrl → Prop
  | init {n eff l} (junk rnd tid0 req0) : Node.new e db junk rnd tid0 = .ok (n, eff) → NodeReach e db l →
      World e db a ok [n] eff n (Ctrl.new l req0)
  | act {past sent n c n' eff} (x : Act) : World e db a ok past sent n c → x.Sane e n → ok n x →
      x.run e db n = .ok (n', eff) → World e db a ok (n' :: past) (sent ++ eff) n' c
  | user {past sent n c c'} : World e db a ok past sent n c → CtrlStep e db c c' → World e db a ok past sent n c'
  | hear {past sent n c c' h h' ev} (orc loc to d) : World e db a ok past sent n c → .send to (d.map some) ∈ sent →
      c.receive e db orc h loc (some a) d = .ok (c', h', ev) → World e db a ok past sent n c'
  | other {past sent n c c' h h' ev} (orc loc b d) : World e db a ok past sent n c → b ≠ a →
      c.receive e db orc h loc (some b) d = .ok (c', h', ev) → World e db a ok past sent n c'

/-- The value of a property of a node's object. -/
def value (n : Node) (x : Byte × Byte × Byte) (k : Byte) : Option (List Byte) := (destObj n x).bind fun o => dataOf o k

/-- What a controller shows as the value of a property of an object of the node with this address. -/
def shown (c : Ctrl) (a : String) (x : Byte × Byte × Byte) (k : Byte) : Option (List Byte) :=
  (c.getNode (some a)).bind fun m => value m x k

/-- No property of the node has more than 255 bytes of data, so that all can be sent. -/
def Fits (n : Node) : Prop := ∀ o ∈ n.objs, ∀ p ∈ o.props, p.data.length ≤ 255

/-- The database has no data, only codes, names and attributes. -/
def Blank (db : Db) : Prop := ∀ s ∈ db, ∀ p ∈ s.props, p.data = []

/-- The application of the host does not meddle with what the library keeps for it: no object but the node profile has a
value of 0xD6 (the instance list), calls on the node's objects keep the identity of the object and the value of 0xD6 and announce
no 0xD6, the application sends no message that looks like an instance list, and nobody writes 0xD6 over the network. -/
def Plain (n : Node) : Act → Prop
  | .addObject o => objEoj o = profileEoj ∨ ∀ d, dataOf o 0xD6 = some d → d = []
  | .edit i f => ∀ o o' a, n.objs[i]? = some o → f o = .ok (o', a) →
      objEoj o' = objEoj o ∧ o'.hasNode = o.hasNode ∧ dataOf o' 0xD6 = dataOf o 0xD6 ∧ ∀ p ∈ a, p.code ≠ 0xD6
  | .announceMessage m => ∀ d, ¬ SearchAnswer (toFrame m) d
  | .sendMessage _ m => ∀ d, ¬ SearchAnswer (toFrame m) d
  | .receive g => ∀ x, ¬ Overwrites x 0xD6 g
  | _ => True

end Uecho.Spec
