import Verif.Model.Log
import Verif.Model.NodeListener
import Verif.Model.Controller
/-!
# From the socket to the listener: src/uecho/net/socket.c, src/uecho/net/datagram_packet.c, receive loop of
src/uecho/frame/udp_server.c

`Model/NodeListener.lean` and `Model/Controller.lean` start from the bytes of a datagram. This file models what happens before: the
buffer of 512 bytes, the trace of every datagram (`Model/Log.lean`), and the loop that ends at the first error of `recvfrom`.

The operating system supplies, for every call of `recvfrom`, an error or a datagram with the text of the sender's address (`none`:
`getnameinfo` fails) and the address chosen by `uecho_net_selectaddr` (`none`: NULL). The thread stays runnable and the socket bound
(stopping is `Model/Thread.lean`); ports are left out. Allocations succeed.
-/
namespace Uecho.Recv
open Uecho

/-- The characters of an address as the trace sees them: up to the terminating zero. -/
def cstr (s : String) : List Byte := (s.toList.map fun c => BitVec.ofNat 8 c.toNat).takeWhile (· ≠ 0#8)

/-- `uEchoDatagramPacket` — src/uecho/net/socket.h (without ports); `none` is an address that has not been set. -/
structure Packet where
  data : List Byte
  localAddr : Option String
  remoteAddr : Option String
deriving DecidableEq

/-- `uecho_socket_datagram_packet_new` — src/uecho/net/datagram_packet.c:17-36. -/
def Packet.new : Packet := ⟨[], none, none⟩

/-- What one call of `recvfrom` yields: an error (negative result), or a datagram with the text of the sender's address and the local
address chosen for it. -/
inductive Input where
  | error
  | datagram (bytes : List Byte) (remote loc : Option String)

/-- `uecho_socket_recv` — src/uecho/net/socket.c:580-618 for a datagram; the size of the buffer is
`UECHO_NET_SOCKET_DGRAM_RECV_BUFSIZE` (src/uecho/net/socket.h:47), the rest of a longer datagram is lost. The prefix "R" is
src/uecho/util/logs.h. If `getnameinfo` fails the trace reads an array that has not been written; if no local address was found it
formats NULL with `%s`: both undefined. -/
def recv (bytes : List Byte) (remote loc : Option String) : Res Packet :=
  let buf := bytes.take 512
  if buf = [] then .ok Packet.new
  else match remote, loc with
    | some r, some l => do
        let _ ← Log.socketLog [82#8] (cstr r) (cstr l) buf
        return ⟨buf, some l, some r⟩
    | _, _ => .ub

/-- `uecho_net_datagram_packet_error` — src/uecho/util/logs.c:62-72, for a packet that could not be parsed. The addresses of a
packet with data are set (see `recv`). -/
def packetError (p : Packet) : Res Unit := do
  let _ ← Log.socketLog [82#8] (cstr (p.remoteAddr.getD "")) (cstr (p.localAddr.getD "")) p.data
  return ()

/-- One iteration of the loop of `uecho_udp_server_action` — src/uecho/frame/udp_server.c:152-183 (the same in
`uecho_mcast_server_action`, src/uecho/frame/mcast_server.c:147-178) — for a datagram. `handle` are the observers. -/
def action {σ ε : Type} (handle : σ → Message → Res (σ × List ε)) (s : σ) (bytes : List Byte) (remote loc : Option String) :
    Res (σ × List ε) := do
  let p ← recv bytes remote loc
  let (ok, m) ← Message.new.parsePacket p.data p.localAddr p.remoteAddr
  if ok then handle s m else do
    let _ ← packetError p
    return (s, [])

/-- The loop of `uecho_udp_server_action` — src/uecho/frame/udp_server.c:152-183. It ends at the first error
(lines 158-161). Result: the state, and whether the receiver still runs. -/
def loop {σ ε : Type} (handle : σ → Message → Res (σ × List ε)) (s : σ) : List Input → Res (σ × List ε × Bool)
  | [] => .ok (s, [], true)
  | .error :: _ => .ok (s, [], false)
  | .datagram b r l :: rest => do
      let (s, e1) ← action handle s b r l
      let (s, e2, go) ← loop handle s rest
      return (s, e1 ++ e2, go)

/-- The observers of the server of a node — src/uecho/node.c:39. -/
def nodeHandle (e : Endian) (n : Node) (m : Message) : Res (Node × List Effect) := n.messageListener e m

/-- The observers of the server of a controller — src/uecho/node.c:39, src/uecho/controller.c:36, in this order. -/
def ctrlHandle (e : Endian) (db : Db) (orc : Oracle) (s : Ctrl × Heap) (m : Message) : Res ((Ctrl × Heap) × List CEvent) := do
  let (n, eff) ← s.1.node.messageListener e m
  let (c, h, ev) ← Ctrl.listener e db orc { s.1 with node := n } s.2 m
  return ((c, h), eff.map .node ++ ev)

/-- The trace of `uecho_socket_sendto` — src/uecho/net/socket.c:566, after the datagram has been handed to the operating system.
`sock` is the address of the socket, `addr` the destination. The prefix is "S". -/
def sendTrace (sock addr : String) (bytes : List Byte) : Res Unit := do
  let _ ← Log.socketLog [83#8] (cstr sock) (cstr addr) bytes
  return ()

end Uecho.Recv
