import Verif.Model.ControllerFields
/-! # Specification for C140 and C141: calls on a controller -/
namespace Uecho.Spec
open Uecho Uecho.CtrlSet

/-- Calls on a controller that set something, or start or stop it. -/
inductive CtrlCall where
  | messageListener (l : Option Nat)
  | nodeListener (l : Option Nat)
  | userData (d : Option Nat)
  | postWait (t : Int)
  | enable (p : BitVec 32)
  | disable (p : BitVec 32)
  | disableUdp
  | enableUdp
  | start (os : Server.Os) (announced : Bool)
  | stop

def ctrlCall (c : Ctrl) : CtrlCall → Ctrl
  | .messageListener l => setMessageListener c l
  | .nodeListener l => setNodeListener c l
  | .userData d => setUserData c d
  | .postWait t => setPostWait c t
  | .enable p => enableOption c p
  | .disable p => disableOption c p
  | .disableUdp => disableUdpServer c
  | .enableUdp => enableUdpServer c
  | .start os a => (CtrlSet.start os a c).1
  | .stop => (CtrlSet.stop c).1

/-- The last value that `f` takes from the calls, `old` if it takes none. -/
def lastGiven {α : Type} (f : CtrlCall → Option α) (old : α) : List CtrlCall → α
  | [] => old
  | c :: cs => lastGiven f ((f c).getD old) cs

def givenMessageListener : CtrlCall → Option (Option Nat)
  | .messageListener l => some l
  | _ => none
def givenNodeListener : CtrlCall → Option (Option Nat)
  | .nodeListener l => some l
  | _ => none
def givenUserData : CtrlCall → Option (Option Nat)
  | .userData d => some d
  | _ => none
def givenWait : CtrlCall → Option Int
  | .postWait t => some t
  | _ => none

/-- Whether the unicast receivers are wanted: after the last call that names them, or an option word with bit 0. -/
def udpWanted (old : Bool) : List CtrlCall → Bool
  | [] => old
  | .enable p :: cs => udpWanted (if p.getLsbD 0 then false else old) cs
  | .disable p :: cs => udpWanted (if p.getLsbD 0 then true else old) cs
  | .disableUdp :: cs => udpWanted false cs
  | .enableUdp :: cs => udpWanted true cs
  | _ :: cs => udpWanted old cs

/-- The unicast receivers are enabled only while they are disabled: a call that enables them finds them disabled. -/
def Alternating (now : Bool) : List CtrlCall → Prop
  | [] => True
  | .enable p :: cs => Alternating (if p.getLsbD 0 then false else now) cs
  | .disable p :: cs => (p.getLsbD 0 = true → now = false) ∧ Alternating (if p.getLsbD 0 then true else now) cs
  | .disableUdp :: cs => Alternating false cs
  | .enableUdp :: cs => now = false ∧ Alternating true cs
  | _ :: cs => Alternating now cs

end Uecho.Spec
