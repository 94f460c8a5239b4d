import Verif.Model.Receive
import Verif.Spec.Remote
/-!
# Specification vocabulary for the receive loop
-/
namespace Uecho.Spec
open Uecho

/-- An address text not longer than an IPv4 address. -/
def Ipv4Text (a : String) : Prop := a.length ≤ 15

/-- A datagram short enough for the trace buffer, between IPv4 addresses. -/
structure Short (g : Datagram) : Prop where
  bytes : g.bytes.length ≤ 110
  sender : Ipv4Text g.sender
  loc : ∃ l, g.loc = some l ∧ Ipv4Text l

/-- The answer of `recvfrom` for a datagram. -/
def asInput (g : Datagram) : Recv.Input := .datagram g.bytes (some g.sender) g.loc

/-- A node handles datagrams one after the other: the node afterwards, and all it did in order. -/
def handled (e : Endian) : Node → List Datagram → Res (Node × List Effect)
  | n, [] => .ok (n, [])
  | n, g :: gs => do
      let (n, e1) ← n.receive e g.loc (some g.sender) g.bytes
      let (n, e2) ← handled e n gs
      return (n, e1 ++ e2)

end Uecho.Spec
