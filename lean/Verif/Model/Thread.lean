import Verif.Model.Basic
/-!
# Stopping a receiving thread: src/uecho/util/thread.c, frame/udp_server.c, frame/mcast_server.c, frame/server.c

One receiver (`uecho_udp_server_action`, src/uecho/frame/udp_server.c:139-184, or the same code in src/uecho/frame/mcast_server.c:134-179)
and one call of `uecho_server_stop` (src/uecho/frame/server.c:126-144) run in any interleaving of the steps below. A step is one
access to what the threads share. The operating system decides when a blocked `recvfrom` returns, and with what. The sleep of
`uecho_thread_stop` is a step like any other: it takes some time, but nothing is known about what the receiver does meanwhile. A
server has one receiver per interface; here is one of them. Reading freed memory is `ub`.
-/
namespace Uecho.Thread
open Uecho

/-- Where the receiver is. -/
inductive Rx where
  /-- the thread exists; the first check, udp_server.c:146-152, is next -/
  | begin
  /-- the loop condition is next — udp_server.c:154 -/
  | loop
  /-- `uecho_socket_recv` is about to read the socket — udp_server.c:159, net/socket.c:590-594 -/
  | recv
  /-- blocked in `recvfrom` — net/socket.c:594 -/
  | blocked
  /-- `recvfrom` returned data; the rest of `uecho_socket_recv` reads the socket — net/socket.c:596-617 -/
  | got
  /-- the second check is next — udp_server.c:165-168 -/
  | check
  /-- the message was parsed; the observers are next — udp_server.c:174-176 -/
  | deliver
  /-- a handler runs — frame/message_observer_manager.c:74 -/
  | handler
  /-- the thread has ended -/
  | done
deriving DecidableEq

/-- Where `uecho_server_stop` is. -/
inductive Tx where
  /-- not called yet -/
  | idle
  /-- `uecho_udp_serverlist_close` is next — server.c:139, udp_server.c:95-109 -/
  | close
  /-- `uecho_thread_stop` is next — server.c:140, udp_server.c:215-229, util/thread.c:143-152 -/
  | flag
  /-- the sleep — util/thread.c:155 -/
  | sleep
  /-- `uecho_thread_delete` is next — udp_server.c:225, util/thread.c:79-96 -/
  | freeThread
  /-- `uecho_udp_serverlist_clear` is next — server.c:141, udp_server.c:38-52 -/
  | freeServer
  /-- returned -/
  | returned
deriving DecidableEq

/-- What the two share, and how many handler calls began. -/
structure St where
  rx : Rx
  tx : Tx
  /-- the thread's `runnableFlag`; `none` after the thread object is freed -/
  runnable : Option Bool
  /-- the server's socket is open (false: closed, deleted and set to NULL) -/
  socket : Bool
  /-- the server object exists -/
  server : Bool
  calls : Nat

/-- Who moves. `rx d` is a step of the receiver; `d` matters when `recvfrom` returns (`true`: with data, `false`: with an error) and for
the datagram (`true`: a frame). -/
inductive Move where
  | rx (d : Bool)
  | tx
deriving DecidableEq

/-- A step of the receiver. `none`: it cannot move. -/
def stepRx (d : Bool) (s : St) : Res (Option St) :=
  match s.rx with
  | .begin => if s.server = false ∨ s.runnable = none then .ub else
      .ok (some { s with rx := if s.socket then .loop else .done })
  | .loop => match s.runnable with
      | none => .ub
      | some f => .ok (some { s with rx := if f then .recv else .done })
  | .recv => if s.server = false then .ub else .ok (some { s with rx := if s.socket then .blocked else .done })
  | .blocked => .ok (some { s with rx := if d then .got else .done })
  | .got => if s.socket then .ok (some { s with rx := .check }) else .ub
  | .check => match s.runnable with
      | none => .ub
      | some false => .ok (some { s with rx := .done })
      | some true => if s.server = false then .ub else
          .ok (some { s with rx := if s.socket then (if d then .deliver else .loop) else .done })
  | .deliver => if s.server = false then .ub else .ok (some { s with rx := .handler, calls := s.calls + 1 })
  | .handler => if s.server = false then .ub else .ok (some { s with rx := .loop })
  | .done => .ok none

/-- A step of `uecho_server_stop`. -/
def stepTx (s : St) : Res (Option St) :=
  match s.tx with
  | .idle => .ok (some { s with tx := .close })
  | .close => .ok (some { s with tx := .flag, socket := false })
  | .flag => .ok (some { s with tx := .sleep, runnable := some false })
  | .sleep => .ok (some { s with tx := .freeThread })
  | .freeThread => .ok (some { s with tx := .freeServer, runnable := none })
  | .freeServer => .ok (some { s with tx := .returned, server := false })
  | .returned => .ok none

def step (m : Move) (s : St) : Res (Option St) :=
  match m with
  | .rx d => stepRx d s
  | .tx => stepTx s

/-- A schedule; a move that is not possible is skipped. -/
def run : List Move → St → Res St
  | [], s => .ok s
  | m :: ms, s => do
      match ← step m s with
      | none => run ms s
      | some s => run ms s

/-- After `uecho_udp_server_start` — src/uecho/frame/udp_server.c:190-207. -/
def started : St := ⟨.begin, .idle, some true, true, true, 0⟩

end Uecho.Thread
