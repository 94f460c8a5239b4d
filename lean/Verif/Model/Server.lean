import Verif.Model.Basic
/-!
# src/uecho/frame: server.c, mcast_server.c, mcast_server_list.c, udp_server.c, udp_server_list.c,
# message_observer_manager.c

The operating system is an oracle: which interfaces the host has, which sockets and threads can be made, and how many bytes of a
datagram it takes. The calls of `uecho_socket_sendto` (src/uecho/net/socket.c:540-574) are numbered; their answer is the number of
bytes taken, `none` for -1. A multicast and a unicast server have the same layout (src/uecho/frame/server.h:41-57) and code; one
structure models both. The trace of `uecho_socket_sendto` is `Model/Log.lean`, the threads are `Model/Thread.lean`.
-/
namespace Uecho.Server
open Uecho

/-- `uEchoMessageObserver` — src/uecho/frame/message.h; `none` is NULL. -/
structure Observer where
  obj : Option Nat
  handler : Option Nat
deriving DecidableEq

/-- `uecho_message_observer_manager_perform` — src/uecho/frame/message_observer_manager.c:63-78: the calls `(handler, object)` in
order; all get the same message. -/
def perform : List Observer → List (Nat × Nat)
  | [] => []
  | o :: os =>
    match o.handler, o.obj with
    | some h, some x => (h, x) :: perform os
    | _, _ => perform os

/-- `uecho_message_observer_manager_addobserver` — src/uecho/frame/message_observer_manager.c:45-57. -/
def addObserver (os : List Observer) (obj handler : Option Nat) : List Observer := os ++ [⟨obj, handler⟩]

inductive Kind where
  | mcast
  | udp
deriving DecidableEq

/-- `uEchoMcastServer`, `uEchoUdpServer` — src/uecho/frame/server.h:41-57. `socket` is the address the socket is bound to, `thread`
says whether there is a receiving thread. -/
structure Sub where
  socket : Option String
  thread : Bool
  observers : List Observer

/-- What the operating system does when sockets and threads are made. -/
structure Os where
  ifaces : List String
  openOk : Kind → String → Bool
  threadOk : Kind → String → Bool

/-- `uEchoServer` — src/uecho/frame/server.h:61-66. -/
structure Server where
  udp : List Sub
  mcast : List Sub
  observers : List Observer
  /-- `uecho_server_isudpserverenabled` — src/uecho/frame/server.h:84-86 -/
  udpEnabled : Bool

/-- `uecho_server_new` — src/uecho/frame/server.c:17-33. -/
def new : Server := ⟨[], [], [], true⟩

/-- `uecho_mcast_server_close` — src/uecho/frame/mcast_server.c:89-103, `uecho_udp_server_close` — src/uecho/frame/udp_server.c:95-109. -/
def closeSub (s : Sub) : Sub := { s with socket := none }

/-- `uecho_mcast_server_stop` — src/uecho/frame/mcast_server.c:219-233, `uecho_udp_server_stop` — src/uecho/frame/udp_server.c:215-229. -/
def stopSub (s : Sub) : Sub := if s.thread then { closeSub s with thread := false } else s

/-- `uecho_mcast_server_start` — src/uecho/frame/mcast_server.c:196-213, `uecho_udp_server_start` —
src/uecho/frame/udp_server.c:190-207. -/
def startSub (os : Os) (k : Kind) (s : Sub) : Sub × Bool :=
  let s := stopSub s
  match s.socket with
  | none => (s, false)
  | some a => if os.threadOk k a then ({ s with thread := true }, true) else (stopSub { s with thread := true }, false)

/-- The loop over the interfaces — src/uecho/frame/mcast_server_list.c:67-82, src/uecho/frame/udp_server_list.c:67-82: the servers that
were opened, and whether all were. -/
def openLoop (os : Os) (k : Kind) : List String → List Sub × Bool
  | [] => ([], true)
  | a :: as =>
    if os.openOk k a then
      let (r, ok) := openLoop os k as
      (⟨some a, false, []⟩ :: r, ok)
    else ([], false)

/-- `uecho_mcast_serverlist_open` — src/uecho/frame/mcast_server_list.c:48-92, `uecho_udp_serverlist_open` —
src/uecho/frame/udp_server_list.c:48-92. -/
def openList (os : Os) (k : Kind) (l : List Sub) : List Sub × Bool :=
  let l := l.map closeSub
  if os.ifaces = [] then (l, false) else
    let (r, ok) := openLoop os k os.ifaces
    if ok then (l ++ r, true) else ((l ++ r).map closeSub, false)

/-- `uecho_mcast_server_isrunning` — src/uecho/frame/mcast_server.c:241-250, `uecho_udp_server_isrunning` —
src/uecho/frame/udp_server.c:235-244: there is a thread, and it is runnable (it is, once started). -/
def subRunning (s : Sub) : Bool := s.thread

/-- `uecho_mcast_serverlist_stop` — src/uecho/frame/mcast_server_list.c:132-143, `uecho_udp_serverlist_stop` —
src/uecho/frame/udp_server_list.c:132-143. -/
def stopList (l : List Sub) : List Sub := l.map stopSub

/-- `uecho_mcast_serverlist_isrunning` — src/uecho/frame/mcast_server_list.c:149-152, `uecho_udp_serverlist_isrunning` —
src/uecho/frame/udp_server_list.c:149-152: not whether one of them is. -/
def listRunning (l : List Sub) : Bool := if 0 < l.length then true else false

/-- `uecho_mcast_serverlist_isboundaddress` — src/uecho/frame/mcast_server_list.c:176-190, `uecho_udp_serverlist_isboundaddress` —
src/uecho/frame/udp_server_list.c:158-172. -/
def listBound (l : List Sub) (a : String) : Bool := l.any fun x => x.socket == some a

/-- `uecho_mcast_serverlist_start` — src/uecho/frame/mcast_server_list.c:115-128, `uecho_udp_serverlist_start` —
src/uecho/frame/udp_server_list.c:115-128; no server is left out after a failure. -/
def startList (os : Os) (k : Kind) (l : List Sub) : List Sub × Bool :=
  let r := (stopList l).map (startSub os k)
  (r.map (·.1), r.all (·.2))

/-- `uecho_server_stop` — src/uecho/frame/server.c:126-144; close, stop and clear both lists. The result is always true. -/
def stop (s : Server) : Server × Bool :=
  let mcast := stopList (s.mcast.map closeSub)
  let udp := stopList (s.udp.map closeSub)
  let _ := (mcast, udp)
  ({ s with mcast := [], udp := [] }, true)

/-- Registering the observers with the receivers — src/uecho/frame/server.c:95-109. -/
def register (l : List Sub) : List Observer → List Sub
  | [] => l
  | o :: os =>
    if o.handler.isNone || o.obj.isNone then register l os
    else register (l.map fun s => { s with observers := addObserver s.observers o.obj o.handler }) os

/-- `uecho_server_start` — src/uecho/frame/server.c:75-120. -/
def start (os : Os) (s : Server) : Server × Bool :=
  let (s, _) := stop s
  let (mcast, ok1) := openList os .mcast s.mcast
  let (udp, ok2) := if s.udpEnabled then openList os .udp s.udp else (s.udp, true)
  let ok3 := s.observers.all fun o => !(o.handler.isNone || o.obj.isNone)
  let udp := register udp s.observers
  let mcast := register mcast s.observers
  let (mcast, ok4) := startList os .mcast mcast
  let (udp, ok5) := if s.udpEnabled then startList os .udp udp else (udp, true)
  let s := { s with mcast := mcast, udp := udp }
  let ok := ok1 && ok2 && ok3 && ok4 && ok5
  if ok then (s, true) else ((stop s).1, false)

/-- `uecho_server_isrunning` — src/uecho/frame/server.c:150-165, with the `isrunning` functions of the lists. -/
def isRunning (s : Server) : Bool := listRunning s.mcast && (!s.udpEnabled || listRunning s.udp)

/-- `uecho_server_isboundaddress` — src/uecho/frame/server.c:57-69, with `uecho_socket_isboundaddress`. -/
def isBoundAddress (s : Server) (a : String) : Bool :=
  listBound s.udp a || listBound s.mcast a

/-- `uecho_server_getaddress` — src/uecho/frame/server.c:171-180, `uecho_mcast_server_getaddress` —
src/uecho/frame/mcast_server.c:185-190. -/
def getAddress (s : Server) : String :=
  match s.mcast with
  | [] => ""
  | m :: _ => m.socket.getD ""

/-- The answer to the `i`-th `uecho_socket_sendto` of the run. -/
abbrev SendTo := Nat → Option Nat

/-- A datagram that the operating system took completely: the address of the socket (`none` for a socket made for this datagram) and
the destination (`none`: the multicast address). -/
structure Out where
  sock : Option String
  dest : Option String
  msg : List Byte
deriving DecidableEq

/-- A call of `uecho_socket_sendto` and the comparison of its result with the length: whether it was the length, and what went out. -/
def sendOne (net : SendTo) (i : Nat) (o : Out) : Bool × List Out :=
  if net i = some o.msg.length then (true, [o]) else (false, [])

/-- `uecho_mcast_serverlist_post` — src/uecho/frame/mcast_server_list.c:158-170, `uecho_mcast_server_post` —
src/uecho/frame/mcast_server.c:254-267: result, number of the next call, what went out. -/
def postList (net : SendTo) (msg : List Byte) : List Sub → Nat → Bool × Nat × List Out
  | [], i => (true, i, [])
  | s :: l, i =>
    match s.socket with
    | none =>
      let (_, i, out) := postList net msg l i
      (false, i, out)
    | some a =>
      let (ok, o1) := sendOne net i ⟨some a, none, msg⟩
      let (ok2, i, o2) := postList net msg l (i + 1)
      (ok && ok2, i, o1 ++ o2)

/-- `uecho_server_postannounce` — src/uecho/frame/server.c:204-213; `uecho_server_sendto` — src/uecho/frame/server.c:186-198. -/
def postAnnounce (net : SendTo) (s : Server) (msg : List Byte) : Bool × List Out :=
  let (ok, i, out) := postList net msg s.mcast 0
  if ok then (true, out) else
    let (ok, o) := sendOne net i ⟨none, none, msg⟩
    (ok, out ++ o)

/-- `uecho_udp_serverlist_sendto` — src/uecho/frame/udp_server_list.c:176-192: the first server that has a socket. -/
def udpSendTo (net : SendTo) (addr : String) (msg : List Byte) : List Sub → Bool × Nat × List Out
  | [] => (false, 0, [])
  | s :: l =>
    match s.socket with
    | none => udpSendTo net addr msg l
    | some a =>
      let (ok, o) := sendOne net 0 ⟨some a, some addr, msg⟩
      (ok, 1, o)

/-- `uecho_server_postresponse` — src/uecho/frame/server.c:219-228. -/
def postResponse (net : SendTo) (s : Server) (addr : String) (msg : List Byte) : Bool × List Out :=
  let (ok, i, out) := udpSendTo net addr msg s.udp
  if ok then (true, out) else
    let (ok, o) := sendOne net i ⟨none, some addr, msg⟩
    (ok, out ++ o)

end Uecho.Server
