import Verif.Model.Controller
import Verif.Spec.NodeApi
/-!
# Specification vocabulary for controllers

`CtrlReach e db c`: the controller `c` is obtained from `uecho_controller_new` by some history of received
datagrams and API calls that stayed defined, except `uecho_controller_addnode`.
The local node may be any reachable node at any time (`localNode`): whatever the user does with it.
-/
namespace Uecho.Spec
open Uecho

/-- Controllers reachable through received datagrams and the API. The heap holds the user's messages and is
arbitrary at every step. -/
inductive CtrlReach (e : Endian) (db : Db) : Ctrl → Prop
  | new {n} (req0) : NodeReach e db n → CtrlReach e db (Ctrl.new n req0)
  | setMessageListener {c} (b) : CtrlReach e db c → CtrlReach e db (c.setMessageListener b)
  | setNodeListener {c} (b) : CtrlReach e db c → CtrlReach e db (c.setNodeListener b)
  | enableOption {c} (p) : CtrlReach e db c → CtrlReach e db (c.enableOption p)
  | disableOption {c} (p) : CtrlReach e db c → CtrlReach e db (c.disableOption p)
  | localNode {c n} : CtrlReach e db c → NodeReach e db n → CtrlReach e db { c with node := n }
  | start {c c' ev} (b) : CtrlReach e db c → c.start e b = .ok (c', ev) → CtrlReach e db c'
  | announce {c c' ev} (m) : CtrlReach e db c → c.announceMessage e m = .ok (c', ev) → CtrlReach e db c'
  | search {c c' ev} (esv) : CtrlReach e db c → c.searchWithEsv e esv = .ok (c', ev) → CtrlReach e db c'
  | searchObject {c c' ev} (code esv) : CtrlReach e db c → c.searchObjectWithEsv e code esv = .ok (c', ev) →
      CtrlReach e db c'
  | postBegin {c c' h h' ev r} (a req res s) : CtrlReach e db c →
      c.postBegin e h a req res s = .ok (c', h', ev, r) → CtrlReach e db c'
  | postEnd {c} : CtrlReach e db c → CtrlReach e db c.postEnd
  | receive {c c' h h' ev} (orc loc a d) : CtrlReach e db c →
      c.receive e db orc h loc (some a) d = .ok (c', h', ev) → CtrlReach e db c'

/-- The controller got `k` datagrams. -/
inductive Received (e : Endian) (db : Db) (c : Ctrl) : Nat → Ctrl → Prop
  | none : Received e db c 0 c
  | more {k d d' h h' ev} (orc loc a x) : Received e db c k d → d.receive e db orc h loc (some a) x = .ok (d', h', ev) → Received e db c (k + 1) d'

/-- The number of objects a controller knows. -/
def objectCount (c : Ctrl) : Nat := (c.nodes.map fun n => n.objs.length).sum

/-- What an application may be kept from doing in between. -/
inductive CtrlKind where
  | messageListener
  | nodeListener
  | post
deriving DecidableEq

/-- The controller is `d` some time after it was `c`: calls and datagrams came in between, but none of those that `kept` excludes. -/
inductive CtrlLater (e : Endian) (db : Db) (kept : CtrlKind) (c : Ctrl) : Ctrl → Prop
  | same : CtrlLater e db kept c c
  | setMessageListener {d} (b) : kept ≠ .messageListener → CtrlLater e db kept c d → CtrlLater e db kept c (d.setMessageListener b)
  | setNodeListener {d} (b) : kept ≠ .nodeListener → CtrlLater e db kept c d → CtrlLater e db kept c (d.setNodeListener b)
  | enableOption {d} (p) : CtrlLater e db kept c d → CtrlLater e db kept c (d.enableOption p)
  | disableOption {d} (p) : CtrlLater e db kept c d → CtrlLater e db kept c (d.disableOption p)
  | localNode {d n} : CtrlLater e db kept c d → NodeReach e db n → CtrlLater e db kept c { d with node := n }
  | start {d d' ev} (b) : CtrlLater e db kept c d → d.start e b = .ok (d', ev) → CtrlLater e db kept c d'
  | announce {d d' ev} (m) : CtrlLater e db kept c d → d.announceMessage e m = .ok (d', ev) → CtrlLater e db kept c d'
  | search {d d' ev} (esv) : CtrlLater e db kept c d → d.searchWithEsv e esv = .ok (d', ev) → CtrlLater e db kept c d'
  | searchObject {d d' ev} (code esv) : CtrlLater e db kept c d → d.searchObjectWithEsv e code esv = .ok (d', ev) →
      CtrlLater e db kept c d'
  | postBegin {d d' h h' ev r} (a req res s) : kept ≠ .post → CtrlLater e db kept c d →
      d.postBegin e h a req res s = .ok (d', h', ev, r) → CtrlLater e db kept c d'
  | postEnd {d} : kept ≠ .post → CtrlLater e db kept c d → CtrlLater e db kept c d.postEnd
  | receive {d d' h h' ev} (orc loc a x) : CtrlLater e db kept c d →
      d.receive e db orc h loc (some a) x = .ok (d', h', ev) → CtrlLater e db kept c d'

/-- The EOJs of a node's objects. -/
def eojs (n : Node) : List (Byte × Byte × Byte) := n.objs.map objEoj

/-- The complete 3-byte codes in a list of bytes. -/
def triples : List Byte → List (Byte × Byte × Byte)
  | a :: b :: c :: rest => (a, b, c) :: triples rest
  | _ => []

/-- The object codes in the data of an instance list: the byte in front is the count. -/
def listedCodes (data : List Byte) : List (Byte × Byte × Byte) := triples (data.drop 1)

/-- The frames a controller takes for an answer to its search: Get_Res, INF or INFC_Res with the one property
0xD6. -/
def SearchAnswer (f : Frame) (d : List Byte) : Prop :=
  (f.esv = 0x72 ∨ f.esv = 0x73 ∨ f.esv = 0x7A) ∧ f.body = .plain [(0xD6, d)]

/-- The properties a notification or response reports. -/
def reported (f : Frame) : List Prop8 :=
  match f.body with
  | .plain ps => ps
  | .setGet _ g => g

/-- The codes of the three property maps. -/
def IsMapCode (c : Byte) : Prop := c = 0x9D ∨ c = 0x9E ∨ c = 0x9F
instance (c) : Decidable (IsMapCode c) := by unfold IsMapCode; infer_instance

/-- Data of the last property with this code. -/
def lastOf : List Prop8 → Byte → Option (List Byte)
  | [], _ => none
  | q :: qs, k => (lastOf qs k).or (if q.1 = k then some q.2 else none)

/-- Some reported value differs from the value cached at that moment (a property that is not cached counts
as empty). -/
def changes : (Byte → Option (List Byte)) → List Prop8 → Bool
  | _, [] => false
  | σ, q :: qs => ((σ q.1).getD [] != q.2) || changes (fun k => if k = q.1 then some q.2 else σ k) qs

/-- The calls of the node listener among the events. -/
def statuses (ev : List CEvent) : List (Option String × NodeStatus) :=
  ev.filterMap fun x => match x with
    | .status a s => some (a, s)
    | _ => none

/-- What the local node handed to the network, among the events. -/
def nodeEffects (ev : List CEvent) : List Effect :=
  ev.filterMap fun x => match x with
    | .node y => some y
    | _ => none

/-- Every service of the protocol that is a response: 0x50–0x5F errors and 0x71, 0x72, 0x7A, 0x7E. -/
def IsAnswer (esv : Byte) : Prop :=
  esv = 0x71 ∨ esv = 0x72 ∨ esv = 0x7A ∨ esv = 0x7E ∨
  esv = 0x50 ∨ esv = 0x51 ∨ esv = 0x52 ∨ esv = 0x53 ∨ esv = 0x5E

instance (x) : Decidable (IsAnswer x) := by unfold IsAnswer; infer_instance

/-- Services that report property values of the sender: INF, INFC_Res, Get_Res, SetGet_Res and the errors
the code treats like them. -/
def Reports (esv : Byte) : Prop :=
  esv = 0x72 ∨ esv = 0x73 ∨ esv = 0x7A ∨ esv = 0x7E ∨ esv = 0x52 ∨ esv = 0x53 ∨ esv = 0x5E

instance (x) : Decidable (Reports x) := by unfold Reports; infer_instance

/-- The node handed over a datagram. -/
def isSend : Effect → Bool
  | .send _ _ => true
  | _ => false

/-- What happens between the controllers `c` and `d`, in order; `fs` are the frames the application sent through the controller, and `k` counts the
messages: those, and the datagrams sent because of datagrams that came in (responses, and announcements of what was written). -/
inductive CtrlSends (e : Endian) (db : Db) : Ctrl → Nat → List Frame → Ctrl → Prop
  | done {c} : CtrlSends e db c 0 [] c
  | start {c c1 d k fs gs} (b) : c.start e b = .ok (c1, gs.map fun g => .node (sends none g)) →
      CtrlSends e db c1 k fs d → CtrlSends e db c (k + 1) (gs ++ fs) d
  | announce {c c1 d m k fs gs} : Reachable e m → c.announceMessage e m = .ok (c1, gs.map fun g => .node (sends none g)) →
      CtrlSends e db c1 k fs d → CtrlSends e db c (k + 1) (gs ++ fs) d
  | search {c c1 d k fs gs} (esv) : c.searchWithEsv e esv = .ok (c1, gs.map fun g => .node (sends none g)) →
      CtrlSends e db c1 k fs d → CtrlSends e db c (k + 1) (gs ++ fs) d
  | searchObject {c c1 d k fs gs} (code esv) : c.searchObjectWithEsv e code esv = .ok (c1, gs.map fun g => .node (sends none g)) →
      CtrlSends e db c1 k fs d → CtrlSends e db c (k + 1) (gs ++ fs) d
  | post {c c1 d k fs gs h h' r m} (a : String) (req res s) : h req = some m → Reachable e m →
      c.postBegin e h (some a) req res s = .ok (c1, h', gs.map fun g => .node (sends (some a) g), r) →
      CtrlSends e db c1 k fs d → CtrlSends e db c (k + 1) (gs ++ fs) d
  | postEnd {c d k fs} : CtrlSends e db c.postEnd k fs d → CtrlSends e db c k fs d
  | property {c n1 d k fs gs} (code p) : c.node.announceProperty e code p = .ok (n1, gs.map (sends none)) →
      CtrlSends e db { c with node := n1 } k fs d → CtrlSends e db c (k + 1) (gs ++ fs) d
  | receive {c c1 d k fs h h' ev} (orc loc a x) : c.receive e db orc h loc (some a) x = .ok (c1, h', ev) →
      CtrlSends e db c1 k fs d → CtrlSends e db c (k + (nodeEffects ev).countP isSend) fs d

end Uecho.Spec
