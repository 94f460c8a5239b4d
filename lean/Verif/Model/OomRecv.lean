import Verif.Model.Basic
/-!
# The receivers, with requests for memory that may be refused

`uecho_udp_server_action` — src/uecho/frame/udp_server.c:139-184, and `uecho_mcast_server_action`, which has the same loop. Only the requests
for a new packet and a new message may be refused; what the observers do with a datagram is `Model/Receive.lean`. The thread stays
runnable and the socket bound.
-/
namespace Uecho.OomRecv
open Uecho

/-- One turn of the loop: whether there is memory for the packet, the datagram (`none`: `recvfrom` fails), whether there is memory for the
message. -/
structure Turn where
  packet : Bool
  datagram : Option (List Byte)
  message : Bool
deriving DecidableEq

/-- How many packets and messages were made and not deleted, and the datagrams that were passed to the parser and the observers. -/
structure St where
  packets : Nat
  messages : Nat
  passed : List (List Byte)
deriving DecidableEq

/-- The loop — src/uecho/frame/udp_server.c:154-183: the state, and whether the receiver still runs. -/
def loop (s : St) : List Turn → St × Bool
  | [] => (s, true)
  | t :: ts =>
      if t.packet = false then (s, false)
      else
        let s := { s with packets := s.packets + 1 }
        match t.datagram with
        | none => ({ s with packets := s.packets - 1 }, false)
        | some d =>
            if t.message = false then loop s ts
            else
              let s := { s with messages := s.messages + 1 }
              let s := { s with passed := s.passed ++ [d] }
              let s := { s with packets := s.packets - 1 }
              let s := { s with messages := s.messages - 1 }
              loop s ts

end Uecho.OomRecv
