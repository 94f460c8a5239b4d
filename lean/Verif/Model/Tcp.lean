import Verif.Model.Fd
import Verif.Model.Socket
/-!
# Stream sockets: src/uecho/net/socket.c

The functions for connections and what they do to the descriptors of the process, on top of `Model/Fd.lean`, and `uecho_socket_skip` on top
of `Model/Socket.lean`. The library does not use these functions itself, they are there for applications. `uecho_socket_listen`
takes and gives back nothing. Ports, directions, and the name that `getnameinfo` finds are left out. No OpenSSL.
-/
namespace Uecho.Tcp
open Uecho Uecho.Fd
open Uecho.Server (Kind)

/-- The operating system also answers `accept(2)`, which sees the descriptors in use, and `connect(2)`. -/
structure StreamOs where
  base : Os
  accept : Nat → List Nat → Option Nat
  connect : Nat → Bool

/-- `uecho_socket_accept` — src/uecho/net/socket.c:324-353: the client socket gets the new descriptor, or -1, whatever it had. Here its address is
that of the server socket. -/
def accept (os : StreamOs) (srv cli : Sock) (p : Proc) : Bool × Sock × Proc :=
  match os.accept p.calls p.fds with
  | some fd => (true, { cli with id := some fd, addr := srv.addr }, { tick p with fds := fd :: p.fds })
  | none => (false, { cli with id := none }, tick p)

/-- `uecho_socket_connect` — src/uecho/net/socket.c:359-395. Connecting the descriptor -1 fails. -/
def connect (os : StreamOs) (s : Sock) (p : Proc) : Res (Bool × Sock × Proc) := do
  let (ok, p) ← toSockAddrInfo os.base true p
  if !ok then return (false, s, p)
  let (s, p) := if isBound s then (s, p) else open_ os.base s p
  let ok := os.connect p.calls && s.id.isSome
  return (ok, s, freeaddrinfo (tick p))

/-- The loop of `uecho_socket_skip` — src/uecho/net/socket.c:516-534: `cnt` bytes were read, `n` are still to be read. -/
def skipLoop : Nat → Nat → Socket.Input → Nat × Socket.Input
  | 0, cnt, inp => (cnt, inp)
  | n + 1, cnt, inp =>
    match inp with
    | [] => (cnt, [])
    | _ :: cs => skipLoop n (cnt + 1) cs

/-- `uecho_socket_skip` — src/uecho/net/socket.c:516-534: the result and the rest of the stream. -/
def skip (n : Nat) (inp : Socket.Input) : Nat × Socket.Input := skipLoop n 0 inp

end Uecho.Tcp
