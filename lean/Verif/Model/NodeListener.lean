import Verif.Model.Node
/-!
# node_listener.c and the receive loop of frame/udp_server.c / frame/mcast_server.c
-/
namespace Uecho

namespace Obj

/-- Loop of `uecho_object_notifyrequestproperty` — src/uecho/node_listener.c:35-51: every matching
handler is called (no short cut); calling a NULL handler is UB. -/
def notifyLoop (p : Property) (esv code : Byte) (data : List Byte) : List Observer → Bool → Res Bool
  | [], acc => .ok acc
  | x :: xs, acc =>
      if esv != x.esv then notifyLoop p esv code data xs acc
      else if code != x.code then notifyLoop p esv code data xs acc
      else match x.handler with
        | none => .ub
        | some h => notifyLoop p esv code data xs (acc && h p esv data)

/-- `uecho_object_notifyrequestproperty` — src/uecho/node_listener.c:35-51. -/
def notifyRequest (o : Obj) (p : Property) (esv : Byte) (mp : Property) : Res Bool :=
  notifyLoop p esv mp.code mp.data o.observers true

end Obj

namespace Node

/-- `uecho_node_isselfobjectmessage` — src/uecho/node_listener.c:20-29. -/
def isSelfObjectMessage (n : Node) (m : Message) : Res Bool := do
  if n.isAddress m.fromAddr then
    let s ← m.getSourceObjectCode
    let d ← m.getDestinationObjectCode
    return s == d
  else return false

/-- State of the loop of `uecho_node_handlerequestmessage`. -/
structure Req where
  obj : Obj
  res : Message
  cnt : Nat
  ann : List Property

/-- Body of the loop of `uecho_node_handlerequestmessage` — src/uecho/node_listener.c:66-112. -/
def handleOne (esv : Byte) (add : Message → Property → Res Message) (s : Req) (mp : Property) :
    Res Req := do
  let rp := Property.new.setCode mp.code
  match s.obj.getProperty mp.code with
  | some dp => do
      let acc ← s.obj.notifyRequest dp esv mp
      if acc then
        let write := esv == Esv.writeRequest || esv == Esv.writeRequestRR
        let dp' := if write then dp.setData mp.data else (dp, false)
        let obj := { s.obj with
          props := Message.modifyFirst mp.code (fun _ => dp'.1) s.obj.props }
        let read := esv == Esv.readRequest || esv == Esv.notificationRequest ||
          esv == Esv.notificationRR
        let rp := if read then (rp.setData dp'.1.data).1 else rp
        let res ← add s.res rp
        return ⟨obj, res, s.cnt + 1, s.ann ++ PropertyList.ann dp'⟩
      else do
        let rp := if esv == Esv.writeRequestRR then (rp.setData mp.data).1 else rp
        let res ← add s.res rp
        return { s with res := res }
  | none => do
      let rp := if esv == Esv.writeRequestRR then (rp.setData mp.data).1 else rp
      let res ← add s.res rp
      return { s with res := res }

/-- The loop. -/
def handleAll (esv : Byte) (add : Message → Property → Res Message) : Req → List Property → Res Req
  | s, [] => .ok s
  | s, p :: ps => do
      let s ← handleOne esv add s p
      handleAll esv add s ps

/-- `uecho_node_handlerequestmessage` — src/uecho/node_listener.c:59-115. The `int` count is returned
as `bool`, hence 0 or 1 (the last component). -/
def handleRequest (o : Obj) (esv opc : Byte) (ep : List Property)
    (add : Message → Property → Res Message) (res : Message) :
    Res (Obj × Message × List Property × Nat) := do
  let ps ← Message.slots opc ep
  let s ← handleAll esv add ⟨o, res, 0, []⟩ ps
  return (s.obj, s.res, s.ann, if s.cnt = 0 then 0 else 1)

/-- The `switch` at src/uecho/node_listener.c:174-225: response ESV, or `none` for no response. -/
def responseEsv (reqEsv : Byte) (all : Bool) : Option Byte :=
  if reqEsv = Esv.writeRequest then (if all then none else some Esv.writeRequestError)
  else if reqEsv = Esv.writeRequestRR then
    (if all then some Esv.writeResponse else some Esv.writeRequestError)
  else if reqEsv = Esv.readRequest then
    (if all then some Esv.readResponse else some Esv.readRequestError)
  else if reqEsv = Esv.writeReadRequest then
    (if all then some Esv.writeReadResponse else some Esv.writeReadRequestError)
  else if reqEsv = Esv.notificationRequest then
    (if all then some Esv.notification else some Esv.notificationRequestError)
  else if reqEsv = Esv.notificationRR then (if all then some Esv.notificationResponse else none)
  else none

/-- Sending the response — src/uecho/node_listener.c:227-238. -/
def respond (req res : Message) (hasNode : Bool) (resEsv : Option Byte) : Res (List Effect) :=
  match resEsv with
  | none => .ok []
  | some ev =>
    if hasNode then do
      let res := res.setEsv ev
      let b ← res.getBytes
      let s ← res.size
      if res.esv = Esv.notification then announceBytes b s else sendBytes req.fromAddr b s
    else .ok []

/-- The two branches at src/uecho/node_listener.c:164-171: new object, response, announcements, accepted
count. -/
def process (o : Obj) (req res : Message) : Res (Obj × Message × List Property × Nat) :=
  if req.isReadWrite then do
    let (o, res, a1, k1) ← handleRequest o Esv.writeRequestRR req.opcSet req.epSet
      Message.addPropertySet res
    let (o, res, a2, k2) ← handleRequest o Esv.readRequest req.opcGet req.epGet
      Message.addPropertyGet res
    return (o, res, a1 ++ a2, k1 + k2)
  else handleRequest o req.esv req.opc req.ep Message.addProperty res

/-- `uecho_node_servermessagelistener` — src/uecho/node_listener.c:117-241. User listeners are only
recorded as called. As in `onObj`, the announcements made by accepted writes are performed after the
loop (they only advance the TID and send). -/
def messageListener (e : Endian) (n : Node) (req : Message) : Res (Node × List Effect) := do
  let e1 : List Effect := if n.hasListener then [.nodeListener] else []
  let dst ← req.getDestinationObjectCode
  match n.getObject dst with
  | none => return (n, e1)
  | some o => do
      let e2 : List Effect := if o.hasListener then [.objListener dst] else []
      if Esv.isRequest req.esv then do
        let res := Message.new.setTid e (req.getTid e)
        let res ← res.setSourceObjectCode dst
        let src ← req.getSourceObjectCode
        let res ← res.setDestinationObjectCode src
        let (o', res, ann, k) ← process o req res
        let (n, e3) ← announceAll e (n.putObject dst o') o' ann
        let all := k == req.opc.toNat + req.opcSet.toNat + req.opcGet.toNat
        let e4 ← respond req res o'.hasNode (responseEsv req.esv all)
        return (n, e1 ++ e2 ++ e3 ++ e4)
      else return (n, e1 ++ e2)

/-- One datagram in `uecho_udp_server_action` — src/uecho/frame/udp_server.c:167-178 (the same in
`uecho_mcast_server_action`, src/uecho/frame/mcast_server.c:162-173) with the node's message listener
as the only observer (`uecho_node_new`, src/uecho/node.c:39). -/
def receive (e : Endian) (n : Node) (localAddr remoteAddr : Option String) (datagram : List Byte) :
    Res (Node × List Effect) := do
  let (ok, m) ← Message.new.parsePacket datagram localAddr remoteAddr
  if ok then n.messageListener e m else return (n, [])

end Node
end Uecho
