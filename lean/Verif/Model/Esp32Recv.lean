import Verif.Model.Receive
import Verif.Model.Esp32If
/-!
# lib/esp32/socket.c: receiving on ESP32

`lib/esp32/socket.c` is `src/uecho/net/socket.c` without signals, options for local addresses and `getnameinfo`; what differs for a
receiver is `uecho_socket_recv`. Allocations succeed, and ports are left out.
-/
namespace Uecho.Esp32Recv
open Uecho Uecho.Net Uecho.Esp32If Uecho.Recv

/-- `uecho_socket_recv` — lib/esp32/socket.c:509-549 for a datagram. The size of the buffer is 512 (src/uecho/net/socket.h:47); the text
of an IPv4 address fits in the 32 characters of `remoteAddr` (src/uecho/net/socket.h:38). For another family the trace reads that array,
which has not been written: undefined. `count`, `ifs`: what ESP-IDF says about the interfaces. -/
def recv (count : Nat) (ifs : List EspIf) (bytes : List Byte) (sender : SockAddr) : Res Packet := do
  let buf := bytes.take 512
  if buf = [] then return Packet.new
  else
    let loc := selectAddr count ifs sender.sin
    match sender with
    | .in4 a => do
        let remote := ntoa a
        let _ ← Log.socketLog [82#8] (cstr remote) (cstr loc) buf
        return ⟨buf, some loc, some remote⟩
    | _ => .ub

/-- One iteration of the loop of `uecho_udp_server_action` — src/uecho/frame/udp_server.c:152-183, with this `recv`. -/
def action {σ ε : Type} (count : Nat) (ifs : List EspIf) (handle : σ → Message → Res (σ × List ε)) (s : σ) (bytes : List Byte)
    (sender : SockAddr) : Res (σ × List ε) := do
  let p ← recv count ifs bytes sender
  let (ok, m) ← Message.new.parsePacket p.data p.localAddr p.remoteAddr
  if ok then handle s m else do
    let _ ← packetError p
    return (s, [])

/-- The loop of `uecho_udp_server_action` — src/uecho/frame/udp_server.c:152-183, as long as `recvfrom` succeeds. The interfaces may be
others for every datagram. -/
def loop {σ ε : Type} (handle : σ → Message → Res (σ × List ε)) (s : σ) : List (Nat × List EspIf × List Byte × SockAddr) → Res (σ × List ε)
  | [] => .ok (s, [])
  | (count, ifs, b, a) :: rest => do
      let (s, e1) ← action count ifs handle s b a
      let (s, e2) ← loop handle s rest
      return (s, e1 ++ e2)

end Uecho.Esp32Recv
