import Verif.Model.SearchCmd
import Verif.Model.PostCmd
/-!
# examples/controller/uechodump: the command that prints the messages that arrive

What happens to the command is a list of keys and datagrams, in the order in which they are handled: the receiving threads print while the
command waits for a key. Two lines printed at the same time are not modelled, and neither are the options (`-n` sets a variable that is not
used) and the start of the controller. Every send succeeds.
-/
namespace Uecho.DumpCmd
open Uecho

/-- What happens to the command. A key is what `getchar` returns; `none`: a negative number, at the end of the input. -/
inductive In where
  | key (k : Option Byte)
  | datagram (a : SearchCmd.Arrival)

/-- What is printed. -/
inductive Line where
  /-- `key_usage` — examples/controller/uechodump/uechodump.c:27-31 -/
  | usage
  | message (text : List Char)
deriving DecidableEq

/-- The controller, the messages of its user, what was printed and what the searches sent. -/
structure St where
  c : Ctrl
  h : Heap
  out : List Line
  sent : List CEvent

/-- `%0wX` of a number that is not negative; `%1X` is the case `w = 1`. -/
def hex (w n : Nat) : List Char :=
  let ds := (Nat.toDigits 16 n).map Char.toUpper
  List.replicate (w - ds.length) '0' ++ ds

/-- `uecho_print_multicastmessages` — examples/controller/uechodump/uechodump.c:33-55, without the end of the line. The address of a
message without one is a null pointer for `%s`. The object codes and the TID are never negative. -/
def text (e : Endian) (m : Message) : Res (List Char) :=
  match m.fromAddr with
  | none => .ub
  | some a => do
      let src ← m.getSourceObjectCode
      let dst ← m.getDestinationObjectCode
      let ps ← Message.slots m.opc m.ep
      return a.toList ++ ' ' :: hex 1 m.ehd1.toNat ++ ' ' :: hex 1 m.ehd2.toNat ++ ' ' :: hex 2 (m.getTid e).toNat ++
        ' ' :: hex 3 src.toNat ++ ' ' :: hex 3 dst.toNat ++ ' ' :: hex 2 m.esv.toNat ++
        ' ' :: Nat.toDigits 10 m.opc.toNat ++ ' ' :: ps.flatMap fun p => PostCmd.printByte p.code.toNat

/-- `tolower` in the C locale. -/
def lower (k : Byte) : Byte := if 0x41#8 ≤ k ∧ k ≤ 0x5A#8 then k + 0x20#8 else k

/-- One key — examples/controller/uechodump/uechodump.c:111-126: the state, and whether the loop ends. After a negative key `continue` goes to the
condition of the loop. -/
def key (e : Endian) (s : St) : Option Byte → Res (St × Bool)
  | none => .ok (s, false)
  | some k => do
      let s ← if lower k = 0x73#8 then do
          let (c, ev) ← s.c.search e
          pure { s with c := c, sent := s.sent ++ ev }
        else .ok { s with out := s.out ++ [.usage] }
      return (s, decide (k = 0x71#8))

/-- A datagram — src/uecho/controller_listener.c:190-216 with the listener that is set at
examples/controller/uechodump/uechodump.c:105. The message is printed whenever the listener is called. -/
def datagram (e : Endian) (db : Db) (s : St) (a : SearchCmd.Arrival) : Res St := do
  let (_, m) ← Message.new.parsePacket a.data a.loc (some a.sender)
  let (c, h, ev) ← s.c.receive e db a.orc s.h a.loc (some a.sender) a.data
  if CEvent.message ∈ ev then do
    let t ← text e m
    return { s with c := c, h := h, out := s.out ++ [.message t] }
  else return { s with c := c, h := h }

/-- The loop — examples/controller/uechodump/uechodump.c:110-126; whether it has ended. -/
def run (e : Endian) (db : Db) : List In → St → Res (St × Bool)
  | [], s => .ok (s, false)
  | .datagram a :: is, s => do
      let s ← datagram e db s a
      run e db is s
  | .key k :: is, s => do
      let (s, quit) ← key e s k
      if quit then return (s, true) else run e db is s

end Uecho.DumpCmd
