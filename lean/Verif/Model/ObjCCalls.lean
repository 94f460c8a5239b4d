import Verif.Model.ObjectSend
import Verif.Model.Post
/-!
# wrapper/objc/uEcho: what the Objective-C calls do

`Model/ObjC.lean` has the memory of the objects; here are the values. The objects point to messages, nodes and objects of the C library, so a
call is the call of the library. `nil` is `none`; sending to `nil` answers 0 or NULL. Strings and the standard database are left out.
-/
namespace Uecho.ObjC
open Uecho

/-- The loop of `properties`, `setproperties` and `getproperties` — wrapper/objc/uEcho/CGEchoMessage.m:51-56, 65-70, 79-84: positions `n`, …,
`n + k - 1`; a position without property is skipped. -/
def listFrom (get : Nat → Res (Option Property)) (n : Nat) : Nat → Res (List Property)
  | 0 => .ok []
  | k + 1 => do
    let p ← get n
    let l ← listFrom get (n + 1) k
    match p with
    | some p => return p :: l
    | none => return l

/-- `properties` — wrapper/objc/uEcho/CGEchoMessage.m:46-58. -/
def properties (m : Message) : Res (List Property) := listFrom m.getProperty 0 m.getOpc.toNat
/-- `setproperties` — wrapper/objc/uEcho/CGEchoMessage.m:60-72. -/
def setproperties (m : Message) : Res (List Property) := listFrom m.getPropertySet 0 m.getOpcSet.toNat
/-- `getproperties` — wrapper/objc/uEcho/CGEchoMessage.m:74-86. -/
def getproperties (m : Message) : Res (List Property) := listFrom m.getPropertyGet 0 m.getOpcGet.toNat

/-- `code` — wrapper/objc/uEcho/CGEchoObject.m:54-59. -/
def codeOf (o : Option Obj) : CInt :=
  match o with
  | some o => o.getCode
  | none => 0

/-- `sendMessage` — wrapper/objc/uEcho/CGEchoController.m:85-92, for the node number `i` that was found. `sent`: the socket accepted the
datagram. The result is the last part. -/
def sendMessage (e : Endian) (c : Ctrl) (i : Option Nat) (o : Option Obj) (m : Message) (sent : Bool) : Res (Ctrl × Message × List Effect × Bool) := do
  let m ← m.setDestinationObjectCode (codeOf o)
  match i with
  | none => return (c, m, [], false)
  | some i => do
    let (c, m, eff) ← c.sendMessage e i m
    return (c, m, eff, !eff.isEmpty && sent)

/-- `announceMessage` — wrapper/objc/uEcho/CGEchoController.m:78-83: the node is not used. -/
def announceMessage (e : Endian) (c : Ctrl) (_node : Option Nat) (m : Message) (sent : Bool) : Res (Ctrl × List CEvent × Bool) := do
  let (c, ev) ← c.announceMessage e m
  return (c, ev, !ev.isEmpty && sent)

/-- `search` — wrapper/objc/uEcho/CGEchoController.m:70-76: the answer of `uecho_controller_search` is not used. -/
def search (e : Endian) (c : Ctrl) (_sent : Bool) : Res (Ctrl × List CEvent × Bool) := do
  let (c, ev) ← c.search e
  return (c, ev, true)

/-- `postMessage` — wrapper/objc/uEcho/CGEchoController.m:94-110, up to the wait for the response: the request `req` is the message of the program,
`res` is the new message for the response. -/
def postBegin (e : Endian) (c : Ctrl) (h : Heap) (d : Node) (o : Option Obj) (req res : Nat) (sent : Bool) : Res (Ctrl × Heap × List CEvent × Bool) := do
  let h := h.set res Message.new
  match h req with
  | none => .ub
  | some m => do
    let m ← m.setDestinationObjectCode (codeOf o)
    c.postBegin e (h.set req m) d.address req res sent

/-- The methods of `CGEchoControllerObserver` — wrapper/objc/uEcho/CGEchoController.h:20-27. -/
inductive Selector where
  | nodeAdded
  | nodeUpdated
  | nodeAnnounced
  | nodeResponsed
deriving DecidableEq

/-- `CGEchoControllerObserver` — wrapper/objc/uEcho/CGEchoController.m:114-143: the methods of the observer that are called, for the node with this address.
All methods are optional; `responds` says which there are. No observer has none. -/
def observed (responds : Selector → Bool) (a : Option String) (s : NodeStatus) : List (Selector × Option String) :=
  match s with
  | .added => if responds .nodeAdded then [(.nodeAdded, a)] else []
  | .updated => if responds .nodeUpdated then [(.nodeUpdated, a)] else []
  | .announced => if responds .nodeAnnounced then [(.nodeAnnounced, a)] else []
  | .responded => if responds .nodeResponsed then [(.nodeResponsed, a)] else []

/-- What the observer sees of what a controller does. -/
def told (responds : Selector → Bool) : List CEvent → List (Selector × Option String)
  | [] => []
  | .status a s :: l => observed responds a s ++ told responds l
  | _ :: l => told responds l

end Uecho.ObjC
