import Verif.Model.NodeListener
/-!
# controller.c, controller_listener.c, node_list.c

A controller is its own (local) node, the list of the nodes it has discovered, the option word and
the two pointers `postReqMsg` / `postResMsg`. User messages live in a heap indexed by addresses;
`none` is memory that is not allocated (or has been freed), and accessing it is UB.

The discovered nodes are made by `uecho_node_new` and never started. What their property updates hand
to the server layer goes to an empty list of sockets (src/uecho/frame/mcast_server_list.c:158-170,
see `Model/Server.lean`), so these effects are dropped here; their TID counters advance as in the code.

This file is the sequential behaviour: one call of a listener runs to completion.
`Model/Post.lean` has the interleavings of `uecho_controller_postmessage` and the listener.
-/
namespace Uecho

/-- `uEchoNodeStatus` — include/uecho/node.h:26-31. -/
inductive NodeStatus where
  | added | updated | announced | responded
deriving DecidableEq, Repr

/-- Something observable outside the controller, in order. -/
inductive CEvent where
  /-- an effect of the local node -/
  | node (x : Effect)
  /-- the controller's message listener was called -/
  | message
  /-- the node listener was called for the discovered node with this address -/
  | status (addr : Option String) (s : NodeStatus)
  /-- the condition variable a poster may be waiting for was signalled -/
  | signal
deriving DecidableEq, Repr

/-- Messages owned by the user. -/
abbrev Heap := Nat → Option Message

/-- A store to allocated memory. -/
def Heap.set (h : Heap) (p : Nat) (m : Message) : Heap := fun q => if q = p then some m else h q

/-- `uEchoController` — src/uecho/_controller.h:35-49. Mutex and condition variable are in `Model/Post.lean`;
user data is not modelled. -/
structure Ctrl where
  node : Node
  nodes : List Node
  hasMsgListener : Bool
  hasNodeListener : Bool
  option : BitVec 32
  wait : Int
  postReq : Option Nat
  postRes : Option Nat

/-- The arbitrary contents of fresh memory, random bytes and the like met while handling one message: for
the creation of a node, and for the k-th operation that needs one. -/
structure Oracle where
  nodeJunk : Nat → Byte
  nodeRnd : Nat → Byte
  nodeTid : BitVec 32
  junk : Nat → Nat → Byte

namespace Ctrl

/-- `uecho_controller_new` — src/uecho/controller.c:20-47, given the local node made by
`uecho_node_new`. `postReqMsg` is not initialised: `req0` is its arbitrary content. The default waiting
time (include/uecho/controller.h:26) is 5 seconds. -/
def new (n : Node) (req0 : Option Nat) : Ctrl :=
  ⟨n, [], false, false, 0#32, 5000000, req0, none⟩

/-- `uecho_controller_setmessagelistener` — src/uecho/controller.c:71-77. -/
def setMessageListener (c : Ctrl) (b : Bool) : Ctrl := { c with hasMsgListener := b }
/-- `uecho_controller_setnodelistener` — src/uecho/controller.c:83-89. -/
def setNodeListener (c : Ctrl) (b : Bool) : Ctrl := { c with hasNodeListener := b }
/-- `uecho_controller_start` — src/uecho/controller.c:122-133: the table of nodes is cleared. -/
def start (e : Endian) (c : Ctrl) (bound : List String) : Res (Ctrl × List CEvent) := do
  let (n, eff) ← c.node.start e bound
  return ({ c with nodes := [], node := n }, eff.map .node)

/-- `uecho_controller_enableoption` — src/uecho/controller.c:271-278. -/
def enableOption (c : Ctrl) (p : BitVec 32) : Ctrl := { c with option := c.option ||| p }
/-- `uecho_controller_disableoption` — src/uecho/controller.c:284-291. -/
def disableOption (c : Ctrl) (p : BitVec 32) : Ctrl := { c with option := c.option ^^^ p }
/-- `uecho_controller_isoptionenabled` — src/uecho/controller.c:297-303. -/
def isOptionEnabled (c : Ctrl) (p : BitVec 32) : Bool := c.option &&& p != 0

/-- `uecho_controller_getnodebyaddress` — src/uecho/controller.c:212-225 (position in the list). -/
def nodeIdx (c : Ctrl) (a : Option String) : Option Nat := c.nodes.findIdx? (fun n => n.isAddress a)
/-- `uecho_controller_getnodebyaddress` — src/uecho/controller.c:212-225. -/
def getNode (c : Ctrl) (a : Option String) : Option Node := c.nodes.find? (fun n => n.isAddress a)
/-- `uecho_controller_getobjectbycode` — src/uecho/controller.c:231-247. -/
def getObject (c : Ctrl) (code : CInt) : Option Obj := c.nodes.findSome? (fun n => n.getObject code)

/-- `uecho_controller_announcemessage` — src/uecho/controller.c:340-345. -/
def announceMessage (e : Endian) (c : Ctrl) (m : Message) : Res (Ctrl × List CEvent) := do
  let (n, _, eff) ← c.node.announceMessage e m
  return ({ c with node := n }, eff.map .node)

/-- `uecho_controller_searchwithesv` — src/uecho/controller.c:525-539. -/
def searchWithEsv (e : Endian) (c : Ctrl) (esv : Byte) : Res (Ctrl × List CEvent) := do
  let m ← Message.searchNew
  c.announceMessage e (m.setEsv esv)

/-- `uecho_controller_search` — src/uecho/controller.c:545-548. -/
def search (e : Endian) (c : Ctrl) : Res (Ctrl × List CEvent) := c.searchWithEsv e Esv.readRequest

/-- `uecho_controller_searchobjectwithesv` — src/uecho/controller.c:554-573: the object code is a
`byte`. -/
def searchObjectWithEsv (e : Endian) (c : Ctrl) (code esv : Byte) : Res (Ctrl × List CEvent) := do
  let m ← Message.searchNew
  let m ← (m.setEsv esv).setDestinationObjectCode (code.setWidth 32)
  c.announceMessage e m

/-- Loop at src/uecho/controller_listener.c:64-70: `idx` is the read position, `k` counts the rounds.
The first argument bounds the number of rounds; the caller passes the size of the data, which is
never reached since `idx` grows by 3. -/
def searchLoop (e : Endian) (db : Db) (orc : Oracle) (data : List Byte) :
    Nat → Nat → Nat → Node → Bool → Res (Node × Bool)
  | 0, _, _, n, upd => .ok (n, upd)
  | fuel + 1, idx, k, n, upd =>
      if idx + 2 < data.length then do
        let b ← rdN data idx 3
        let code ← byte2integer b
        if n.hasObject code then searchLoop e db orc data fuel (idx + 3) (k + 1) n upd
        else do
          let (n, _, _) ← n.setObject e db (orc.junk k) code
          searchLoop e db orc data fuel (idx + 3) (k + 1) n true
      else .ok (n, upd)

/-- "Get or create node" — src/uecho/controller_listener.c:48-58. Result: the nodes, the position and
whether it was added. -/
def obtainNode (e : Endian) (db : Db) (orc : Oracle) (c : Ctrl) (a : String) :
    Res (List Node × Nat × Bool) :=
  match c.nodeIdx (some a) with
  | some i => .ok (c.nodes, i, false)
  | none => do
      let (n, _) ← Node.new e db orc.nodeJunk orc.nodeRnd orc.nodeTid
      return (c.nodes ++ [n.setAddress (some a)], c.nodes.length, true)

/-- `uecho_controller_handlesearchmessage` — src/uecho/controller_listener.c:20-81. -/
def handleSearch (e : Endian) (db : Db) (orc : Oracle) (c : Ctrl) (m : Message) :
    Res (Ctrl × List CEvent) := do
  match ← m.getPropertyByCode 0xD6#8 with
  | none => return (c, [])
  | some p =>
    if p.data.length < 1 then return (c, [])
    match m.fromAddr with
    | none => return (c, [])
    | some a => do
      let (ns, i, added) ← obtainNode e db orc c a
      let n ← rd ns i
      let (n, updated) ← searchLoop e db orc p.data p.data.length 1 0 n false
      let st := if added then [NodeStatus.added] else if updated then [NodeStatus.updated] else []
      return ({ c with nodes := ns.set i n },
        if c.hasNodeListener then st.map (CEvent.status n.address) else [])

/-- The `if` at src/uecho/controller_listener.c:103-105: a reported property the cached object does not have
is created. -/
def ensureProperty (junk : Nat → Byte) (o : Obj) (c : Byte) : Res Obj.Out :=
  if o.hasProperty c then .ok (o, []) else o.setProperty junk c Attr.none

/-- `uecho_controller_updateopcpropertydata` — src/uecho/controller_listener.c:87-123, on the properties
of a section. Result: object, announcements asked for, whether something was updated. `k` counts
the rounds. -/
def updateProps (orc : Oracle) : Nat → List Property → Obj → Bool → Res (Obj × List Property × Bool)
  | _, [], o, u => .ok (o, [], u)
  | k, mp :: ps, o, u => do
      let (o, a0) ← ensureProperty (orc.junk k) o mp.code
      match o.getProperty mp.code with
      | none => do
          let (o, a, u) ← updateProps orc (k + 1) ps o u
          return (o, a0 ++ a, u)
      | some p =>
        if p.isDataEqual mp.data then do
          let (o, a, u) ← updateProps orc (k + 1) ps o u
          return (o, a0 ++ a, u)
        else do
          let p' := p.setData mp.data
          let o := { o with props := Message.modifyFirst mp.code (fun _ => p'.1) o.props }
          let (o, a, u) ← updateProps orc (k + 1) ps o true
          return (o, a0 ++ PropertyList.ann p' ++ a, u)

/-- `uecho_controller_updatenodebyresponsemessage` — src/uecho/controller_listener.c:125-143. -/
def updateNode (e : Endian) (orc : Oracle) (n : Node) (m : Message) : Res (Node × Bool) := do
  let src ← m.getSourceObjectCode
  match n.objs.findIdx? (fun o => o.getCode == src) with
  | none => return (n, false)
  | some i => do
      let ps ← if m.isReadWrite then Message.slots m.opcGet m.epGet else Message.slots m.opc m.ep
      let o ← rd n.objs i
      let (o, ann, u) ← updateProps orc 0 ps o false
      let (n, _) ← Node.announceAll e { n with objs := n.objs.set i o } o ann
      return (n, u)

/-- `uecho_controller_handlenodemessage` — src/uecho/controller_listener.c:162-184, for node number
`i`. -/
def handleNode (e : Endian) (orc : Oracle) (c : Ctrl) (i : Nat) (m : Message) :
    Res (Ctrl × List CEvent) := do
  let n ← rd c.nodes i
  let (n, updated) ← if Esv.isNotification m.esv || Esv.isReadResponse m.esv || Esv.isNotifyResponse m.esv
    then updateNode e orc n m else .ok (n, false)
  let st := (if Esv.isNotification m.esv then [NodeStatus.announced] else []) ++
    (if Esv.isResponse m.esv then [NodeStatus.responded] else []) ++
    (if updated then [NodeStatus.updated] else [])
  return ({ c with nodes := c.nodes.set i n },
    if c.hasNodeListener then st.map (CEvent.status n.address) else [])

/-- `uecho_controller_ispostresponsewaiting` — src/uecho/controller.c:446-452. -/
def isWaiting (c : Ctrl) : Bool := c.postReq.isSome && c.postRes.isSome

/-- `uecho_controller_handlepostresponse` — src/uecho/controller_listener.c:149-156 with
`uecho_controller_ispostresponsemessage` — src/uecho/controller.c:416-425. -/
def handlePost (e : Endian) (c : Ctrl) (h : Heap) (m : Message) : Res (Heap × List CEvent) :=
  match c.postReq, c.postRes with
  | some r, some s =>
    match h r with
    | none => .ub
    | some req =>
      if req.isResponseMessage e m then
        match h s with
        | none => .ub
        | some old => do
            let res ← Message.setFrom e old m
            return (h.set s res, [.signal])
      else .ok (h, [])
  | _, _ => .ok (h, [])

/-- The `if` at src/uecho/controller_listener.c:201-203. -/
def servePost (e : Endian) (c : Ctrl) (h : Heap) (m : Message) : Res (Heap × List CEvent) :=
  if c.isWaiting then handlePost e c h m else .ok (h, [])

/-- `uecho_controller_servermessagelistener` — src/uecho/controller_listener.c:190-216. -/
def listener (e : Endian) (db : Db) (orc : Oracle) (c : Ctrl) (h : Heap) (m : Message) :
    Res (Ctrl × Heap × List CEvent) := do
  let e1 : List CEvent := if c.hasMsgListener then [.message] else []
  let (h, e2) ← servePost e c h m
  if ← m.isSearchResponse then
    let (c, e3) ← handleSearch e db orc c m
    return (c, h, e1 ++ e2 ++ e3)
  else
    let dst ← m.getDestinationObjectCode
    if c.node.hasObject dst then
      match c.nodeIdx m.fromAddr with
      | none => return (c, h, e1 ++ e2)
      | some i => do
          let (c, e3) ← handleNode e orc c i m
          return (c, h, e1 ++ e2 ++ e3)
    else return (c, h, e1 ++ e2)

/-- One datagram received by the server of the local node: the observers are the node's listener (added by
`uecho_node_new`, src/uecho/node.c:39) and then the controller's (added by
`uecho_controller_new`, src/uecho/controller.c:36). The receive loop is
`uecho_udp_server_action` — src/uecho/frame/udp_server.c:167-178, the observer loop is
src/uecho/frame/message_observer_manager.c:63-78. -/
def receive (e : Endian) (db : Db) (orc : Oracle) (c : Ctrl) (h : Heap) (localAddr remoteAddr : Option String)
    (datagram : List Byte) : Res (Ctrl × Heap × List CEvent) := do
  let (ok, m) ← Message.new.parsePacket datagram localAddr remoteAddr
  if ok then do
    let (n, eff) ← c.node.messageListener e m
    let (c, h, ev) ← listener e db orc { c with node := n } h m
    return (c, h, eff.map .node ++ ev)
  else return (c, h, [])

/-- First half of `uecho_controller_postmessage` — src/uecho/controller.c:482-500: the pointers are set and the
request is sent to the node with address `addr`. `sent` is whether the socket accepted it. Result false:
the function returns false here, with both pointers still set. -/
def postBegin (e : Endian) (c : Ctrl) (h : Heap) (addr : Option String) (req res : Nat) (sent : Bool) :
    Res (Ctrl × Heap × List CEvent × Bool) := do
  let c := { c with postReq := some req, postRes := some res }
  match h req with
  | none => .ub
  | some m => do
      let (n, m, eff) ← c.node.sendMessage e addr m
      return ({ c with node := n }, h.set req m, eff.map .node, !eff.isEmpty && sent)

/-- Second half of `uecho_controller_postmessage` — src/uecho/controller.c:511-518, after the wait. -/
def postEnd (c : Ctrl) : Ctrl := { c with postReq := none, postRes := none }

end Ctrl
end Uecho
