import Verif.Model.Server
/-!
# Descriptors, address lists and the signal count: src/uecho/net/socket.c and the servers of src/uecho/frame

`Model/Server.lean` says which servers there are; here is what they take from the operating system and give back: the file descriptors
of the process, the address lists of `getaddrinfo(3)`, the static `socketCnt` of socket.c and the handling of SIGPIPE. The operating
system is an oracle, its calls are numbered. The observers, the data and the traces are left out: they take no descriptor. One thread
makes all the calls (the receivers only read, `Model/Thread.lean`). POSIX branch; no TLS, no `HAVE_SIOCGIFHWADDR`.
-/
namespace Uecho.Fd
open Uecho
open Uecho.Server (Kind)

/-- How the process handles SIGPIPE: the default (it ends the process), ignored, or a handler of the application. -/
inductive Pipe where
  | dfl
  | ign
  | app (h : Nat)
deriving DecidableEq

/-- The answers to the `n`-th call. `socket` sees the descriptors in use; `none` is an error. `sendto`: the datagram was taken completely. -/
structure Os where
  addrinfo : Nat → Bool
  socket : Nat → List Nat → Option Nat
  setsockopt : Nat → Bool
  bind : Nat → Bool
  join : Nat → Bool
  thread : Nat → Bool
  ifaces : Nat → List String
  sendto : Nat → Bool

/-- The process: open descriptors, address lists allocated less address lists freed, the static `socketCnt` (src/uecho/net/socket.c:40), the handling of
SIGPIPE, and the number of the next call. -/
structure Proc where
  fds : List Nat
  infos : Int
  cnt : Int
  pipe : Pipe
  calls : Nat
deriving DecidableEq

/-- `uEchoSocket` — src/uecho/net/socket.h; `id = none` is -1. -/
structure Sock where
  id : Option Nat
  addr : String
deriving DecidableEq

/-- The next call has been made. -/
def tick (p : Proc) : Proc := { p with calls := p.calls + 1 }

/-- `uecho_socket_startup` — src/uecho/net/socket.c:60-79. Counting beyond `INT_MAX` is undefined. -/
def startup (p : Proc) : Res Proc :=
  let p := if p.cnt = 0 then { p with pipe := .ign } else p
  if p.cnt < 2 ^ 31 - 1 then .ok { p with cnt := p.cnt + 1 } else .ub

/-- `uecho_socket_cleanup` — src/uecho/net/socket.c:85-98. -/
def cleanup (p : Proc) : Res Proc :=
  if -2 ^ 31 < p.cnt then
    let p := { p with cnt := p.cnt - 1 }
    .ok (if p.cnt ≤ 0 then { p with pipe := .dfl } else p)
  else .ub

/-- `uecho_socket_new` — src/uecho/net/socket.c:104-134. -/
def sockNew (p : Proc) : Res (Sock × Proc) := do
  let p ← startup p
  return (⟨none, ""⟩, p)

/-- `uecho_socket_isbound` — src/uecho/net/socket.c:158-168: `0 < sock->id`. -/
def isBound (s : Sock) : Bool :=
  match s.id with
  | some fd => decide (0 < fd)
  | none => false

/-- `uecho_socket_close` — src/uecho/net/socket.c:213-254. Closing a descriptor that is not open has no effect. -/
def close (s : Sock) (p : Proc) : Sock × Proc :=
  match s.id with
  | some fd => if isBound s then (⟨none, ""⟩, { p with fds := p.fds.erase fd }) else (s, p)
  | none => (s, p)

/-- `uecho_socket_delete` — src/uecho/net/socket.c:140-152. -/
def sockDelete (s : Sock) (p : Proc) : Res Proc := cleanup (close s p).2

/-- `getaddrinfo(3)`: a list is allocated if it answers 0. -/
def getaddrinfo (os : Os) (p : Proc) : Bool × Proc :=
  if os.addrinfo p.calls then (true, { tick p with infos := p.infos + 1 }) else (false, tick p)

/-- `freeaddrinfo(3)`. -/
def freeaddrinfo (p : Proc) : Proc := { p with infos := p.infos - 1 }

/-- `uecho_socket_tosockaddrinfo` — src/uecho/net/socket.c:846-867. -/
def toSockAddrInfo (os : Os) (isBindAddr : Bool) (p : Proc) : Res (Bool × Proc) := do
  let p ← startup p
  let (ok, p) := getaddrinfo os p
  if !ok then return (false, p)
  if isBindAddr then return (true, p)
  let p := freeaddrinfo p
  return getaddrinfo os p

/-- `socket(2)` and `uecho_socket_setid` — src/uecho/net/socket.c:187-207: the socket, and the descriptor added. -/
def open_ (os : Os) (s : Sock) (p : Proc) : Sock × Proc :=
  match os.socket p.calls p.fds with
  | some fd => ({ s with id := some fd }, { tick p with fds := fd :: p.fds })
  | none => ({ s with id := none }, tick p)

/-- `uecho_socket_setreuseaddress`, `uecho_socket_setmulticastloop` — src/uecho/net/socket.c:629-689. -/
def setopt (os : Os) (p : Proc) : Bool × Proc := (os.setsockopt p.calls, tick p)

/-- `uecho_socket_bind` — src/uecho/net/socket.c:271-318, with the options of `uecho_mcast_server_open` or `uecho_udp_server_open`. The
returns before line 305 leave the address list. -/
def bind (os : Os) (k : Kind) (addr : String) (s : Sock) (p : Proc) : Res (Bool × Sock × Proc) := do
  let (ok, p) ← toSockAddrInfo os (k = .udp) p
  if !ok then return (false, s, p)
  let (s, p) := open_ os s p
  if s.id = none then return (false, close s p)
  let (ok, p) := setopt os p
  if !ok then return (false, close s p)
  let (ok, p) := if k = .mcast then setopt os p else (true, p)
  if !ok then return (false, close s p)
  let ok := os.bind p.calls
  let p := freeaddrinfo (tick p)
  if !ok then return (false, s, p)
  return (true, { s with addr := addr }, p)

/-- `uecho_socket_joingroup` — src/uecho/net/socket.c:745-817: the lookup of the group, the lookup of the interface, then two
`setsockopt(2)`: the interface for multicast and, whatever the first answered, the membership. The branches for IPv4 and IPv6 make the
same calls. -/
def joinGroup (os : Os) (p : Proc) : Bool × Proc :=
  let (ok, p) := getaddrinfo os p
  if !ok then (false, p) else
  let (ok, p) := getaddrinfo os p
  if !ok then (false, freeaddrinfo p) else
  let (ok, p) := setopt os p
  let ok := os.join p.calls && ok
  let p := freeaddrinfo (freeaddrinfo (tick p))
  (ok, p)

/-- `uecho_socket_sendto` — src/uecho/net/socket.c:540-574, with data: whether the result is the length. The answer of
`uecho_socket_setmulticastttl` is not used. -/
def sendTo (os : Os) (s : Sock) (p : Proc) : Res (Bool × Sock × Proc) := do
  let bound := isBound s
  let (ok, p) ← toSockAddrInfo os true p
  if !ok then return (false, s, p)
  let (s, p) := if bound then (s, p) else open_ os s p
  let (sent, p) := if s.id.isSome then (os.sendto p.calls, tick p) else (false, p)
  let p := freeaddrinfo p
  if bound then return (sent, s, p)
  return (sent, close s p)

/-- `uEchoMcastServer`, `uEchoUdpServer` — src/uecho/frame/server.h:41-57. -/
structure Sub where
  sock : Option Sock
  thread : Bool
deriving DecidableEq

/-- `uEchoServer` — src/uecho/frame/server.h:61-66. `obsOk`: no observer without handler or object (src/uecho/frame/server.c:98-101). -/
structure Srv where
  mcast : List Sub
  udp : List Sub
  udpEnabled : Bool
  obsOk : Bool
deriving DecidableEq

/-- `uecho_mcast_server_close` — src/uecho/frame/mcast_server.c:89-102, `uecho_udp_server_close` — src/uecho/frame/udp_server.c:95-108. -/
def closeSub (b : Sub) (p : Proc) : Res (Sub × Proc) :=
  match b.sock with
  | none => .ok (b, p)
  | some s => do
    let (s, p) := close s p
    let p ← sockDelete s p
    return ({ b with sock := none }, p)

/-- `uecho_mcast_server_open` — src/uecho/frame/mcast_server.c:58-83, `uecho_udp_server_open` — src/uecho/frame/udp_server.c:69-89. -/
def openSub (os : Os) (k : Kind) (addr : String) (b : Sub) (p : Proc) : Res (Bool × Sub × Proc) := do
  let (b, p) ← closeSub b p
  let (s, p) ← sockNew p
  let (ok, s, p) ← bind os k addr s p
  if !ok then
    let (b, p) ← closeSub { b with sock := some s } p
    return (false, b, p)
  let (ok, p) := if k = .mcast then joinGroup os p else (true, p)
  if !ok then
    let (b, p) ← closeSub { b with sock := some s } p
    return (false, b, p)
  return (true, { b with sock := some s }, p)

/-- `uecho_mcast_server_stop` — src/uecho/frame/mcast_server.c:219-233, `uecho_udp_server_stop` — src/uecho/frame/udp_server.c:213-227. -/
def stopSub (b : Sub) (p : Proc) : Res (Sub × Proc) :=
  if b.thread then do
    let (b, p) ← closeSub b p
    return ({ b with thread := false }, p)
  else .ok (b, p)

/-- `uecho_mcast_server_start` — src/uecho/frame/mcast_server.c:196-213, `uecho_udp_server_start` — src/uecho/frame/udp_server.c:190-207;
`uecho_thread_start` that fails leaves the thread object, and the stop removes it. -/
def startSub (os : Os) (b : Sub) (p : Proc) : Res (Bool × Sub × Proc) := do
  let (b, p) ← stopSub b p
  if b.sock = none then return (false, b, p)
  let b := { b with thread := true }
  if os.thread p.calls then return (true, b, tick p)
  let (b, p) ← stopSub b (tick p)
  return (false, b, p)

/-- `uecho_udp_server_delete` — src/uecho/frame/udp_server.c:40-52. -/
def deleteUdp (b : Sub) (p : Proc) : Res Proc :=
  match b.sock with
  | none => .ok p
  | some s => sockDelete s p

/-- `uecho_mcast_server_delete` — src/uecho/frame/mcast_server.c:40-52. -/
def deleteMcast (b : Sub) (p : Proc) : Res Proc := do
  let (_, p) ← stopSub b p
  return p

/-- A function applied to each server of a list — the loops of src/uecho/frame/mcast_server_list.c and udp_server_list.c. -/
def each (f : Sub → Proc → Res (Sub × Proc)) : List Sub → Proc → Res (List Sub × Proc)
  | [], p => .ok ([], p)
  | b :: l, p => do
    let (b, p) ← f b p
    let (l, p) ← each f l p
    return (b :: l, p)

/-- `uecho_list_clear` with a destructor — src/uecho/util/list.c. -/
def clear (f : Sub → Proc → Res Proc) : List Sub → Proc → Res Proc
  | [], p => .ok p
  | b :: l, p => do
    let p ← f b p
    clear f l p

/-- The loop over the interfaces — src/uecho/frame/mcast_server_list.c:67-82, udp_server_list.c:67-82. -/
def openLoop (os : Os) (k : Kind) : List String → Proc → Res (Bool × List Sub × Proc)
  | [], p => .ok (true, [], p)
  | a :: as, p => do
    let (ok, b, p) ← openSub os k a ⟨none, false⟩ p
    if ok then
      let (ok, l, p) ← openLoop os k as p
      return (ok, b :: l, p)
    else
      let p ← if k = .mcast then deleteMcast b p else deleteUdp b p
      return (false, [], p)

/-- `uecho_mcast_serverlist_open` — src/uecho/frame/mcast_server_list.c:48-92, `uecho_udp_serverlist_open` —
src/uecho/frame/udp_server_list.c:48-92. -/
def openList (os : Os) (k : Kind) (l : List Sub) (p : Proc) : Res (Bool × List Sub × Proc) := do
  let (l, p) ← each closeSub l p
  let ifs := os.ifaces p.calls
  let p := tick p
  if ifs = [] then return (false, l, p)
  let (ok, r, p) ← openLoop os k ifs p
  if ok then return (true, l ++ r, p)
  let (l, p) ← each closeSub (l ++ r) p
  return (false, l, p)

/-- The loop of `uecho_mcast_serverlist_start`, `uecho_udp_serverlist_start`. -/
def startLoop (os : Os) : List Sub → Proc → Res (Bool × List Sub × Proc)
  | [], p => .ok (true, [], p)
  | b :: l, p => do
    let (ok, b, p) ← startSub os b p
    let (ok2, l, p) ← startLoop os l p
    return (ok && ok2, b :: l, p)

/-- `uecho_mcast_serverlist_start` — src/uecho/frame/mcast_server_list.c:115-128, `uecho_udp_serverlist_start` —
src/uecho/frame/udp_server_list.c:115-128. -/
def startList (os : Os) (l : List Sub) (p : Proc) : Res (Bool × List Sub × Proc) := do
  let (l, p) ← each stopSub l p
  startLoop os l p

/-- `uecho_server_stop` — src/uecho/frame/server.c:126-144; both lists are cleared with `uecho_udp_server_delete`. -/
def stop (v : Srv) (p : Proc) : Res (Srv × Proc) := do
  let (l, p) ← each closeSub v.mcast p
  let (l, p) ← each stopSub l p
  let p ← clear deleteUdp l p
  let (l, p) ← each closeSub v.udp p
  let (l, p) ← each stopSub l p
  let p ← clear deleteUdp l p
  return ({ v with mcast := [], udp := [] }, p)

/-- Opening the unicast servers, if the option allows — src/uecho/frame/server.c:90-92. -/
def openUdp (os : Os) (v : Srv) (p : Proc) : Res (Bool × List Sub × Proc) :=
  if v.udpEnabled then openList os .udp v.udp p else .ok (true, v.udp, p)

/-- Starting the unicast servers, if the option allows — src/uecho/frame/server.c:111-113. -/
def startUdp (os : Os) (v : Srv) (udp : List Sub) (p : Proc) : Res (Bool × List Sub × Proc) :=
  if v.udpEnabled then startList os udp p else .ok (true, udp, p)

/-- `uecho_server_start` — src/uecho/frame/server.c:75-120. -/
def start (os : Os) (v : Srv) (p : Proc) : Res (Bool × Srv × Proc) := do
  let (v, p) ← stop v p
  let (ok1, mcast, p) ← openList os .mcast v.mcast p
  let (ok2, udp, p) ← openUdp os v p
  let (ok3, mcast, p) ← startList os mcast p
  let (ok4, udp, p) ← startUdp os v udp p
  let v := { v with mcast := mcast, udp := udp }
  if ok1 && ok2 && v.obsOk && ok3 && ok4 then return (true, v, p)
  let (v, p) ← stop v p
  return (false, v, p)

/-- `uecho_server_sendto` — src/uecho/frame/server.c:186-198. -/
def sendFresh (os : Os) (p : Proc) : Res (Bool × Proc) := do
  let (s, p) ← sockNew p
  let (sent, s, p) ← sendTo os s p
  let p ← sockDelete s p
  return (sent, p)

/-- `uecho_mcast_serverlist_post` — src/uecho/frame/mcast_server_list.c:158-170, `uecho_mcast_server_post` —
src/uecho/frame/mcast_server.c:254-267. -/
def postList (os : Os) : List Sub → Proc → Res (Bool × List Sub × Proc)
  | [], p => .ok (true, [], p)
  | b :: l, p =>
    match b.sock with
    | none => do
      let (_, l, p) ← postList os l p
      return (false, b :: l, p)
    | some s => do
      let (sent, s, p) ← sendTo os s p
      let (ok, l, p) ← postList os l p
      return (sent && ok, { b with sock := some s } :: l, p)

/-- `uecho_server_postannounce` — src/uecho/frame/server.c:204-213. -/
def postAnnounce (os : Os) (v : Srv) (p : Proc) : Res (Bool × Srv × Proc) := do
  let (ok, l, p) ← postList os v.mcast p
  let v := { v with mcast := l }
  if ok then return (true, v, p)
  let (ok, p) ← sendFresh os p
  return (ok, v, p)

/-- `uecho_udp_serverlist_sendto` — src/uecho/frame/udp_server_list.c:176-192. -/
def udpSendTo (os : Os) : List Sub → Proc → Res (Bool × List Sub × Proc)
  | [], p => .ok (false, [], p)
  | b :: l, p =>
    match b.sock with
    | none => do
      let (ok, l, p) ← udpSendTo os l p
      return (ok, b :: l, p)
    | some s => do
      let (sent, s, p) ← sendTo os s p
      return (sent, { b with sock := some s } :: l, p)

/-- `uecho_server_postresponse` — src/uecho/frame/server.c:219-228. -/
def postResponse (os : Os) (v : Srv) (p : Proc) : Res (Bool × Srv × Proc) := do
  let (ok, l, p) ← udpSendTo os v.udp p
  let v := { v with udp := l }
  if ok then return (true, v, p)
  let (ok, p) ← sendFresh os p
  return (ok, v, p)

/-- `uecho_server_delete` — src/uecho/frame/server.c:39-51, with `uecho_udp_serverlist_delete` (udp_server_list.c:35-42) and
`uecho_mcast_serverlist_delete` (mcast_server_list.c:35-42). -/
def delete (v : Srv) (p : Proc) : Res Proc := do
  let (l, p) ← each closeSub v.udp p
  let (l, p) ← each stopSub l p
  let p ← clear deleteUdp l p
  let (l, p) ← each closeSub v.mcast p
  let (l, p) ← each stopSub l p
  clear deleteMcast l p

/-- `uecho_server_new` — src/uecho/frame/server.c:17-33. -/
def new : Srv := ⟨[], [], true, true⟩

end Uecho.Fd
