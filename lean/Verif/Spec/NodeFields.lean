import Verif.Model.NodeFields
import Verif.Model.ObjectFields
import Verif.Spec.NodeApi
/-! # Specification for C138: the fields of a node -/
namespace Uecho.Spec
open Uecho

/-- Calls on a node that set its fields. -/
inductive NodeSet where
  | address (a : Option String)
  | listener (given : Bool)
  | lastTid (t : BitVec 32)
  | nextTid

def nodeSet (n : Node) : NodeSet → Node
  | .address a => n.setAddress a
  | .listener b => n.setMessageListener b
  | .lastTid t => n.setLastTid t
  | .nextTid => n.getNextTid.1

/-- The address given last; giving NULL gives none. -/
def addressAfter (old : Option String) : List NodeSet → Option String
  | [] => old
  | .address (some a) :: cs => addressAfter (some a) cs
  | _ :: cs => addressAfter old cs

/-- Whether a listener was given last. -/
def listenerAfter (old : Bool) : List NodeSet → Bool
  | [] => old
  | .listener b :: cs => listenerAfter b cs
  | _ :: cs => listenerAfter old cs

/-- The transaction id: set, or counted from 1 to 65535 and then again from 1. -/
def tidAfter (old : Nat) : List NodeSet → Nat
  | [] => old
  | .lastTid t :: cs => tidAfter t.toNat cs
  | .nextTid :: cs => tidAfter (succTid old) cs
  | _ :: cs => tidAfter old cs

/-- Calls on an object that leave its class. -/
inductive ObjSet where
  | name (s : Option String)
  | listener (given : Bool)
  | ins (v : Byte)
  | data (c : Byte) (d : List Byte)
  | attr (c : Byte) (a : CInt)
  | add (p : Property)
  | handler (esv c : Byte) (h : Option Handler)
  | clear

def objSet (o : Obj) : ObjSet → Obj
  | .name s => o.setName s
  | .listener b => o.setMessageListener b
  | .ins v => o.setInstanceCode v
  | .data c d => (o.setPropertyData c d).1
  | .attr c a => o.setPropertyAttribute c a
  | .add p => o.addProperty p
  | .handler esv c h => o.setRequestHandler esv c h
  | .clear => o.clearProperties

/-- The name given last; giving NULL gives none. -/
def objName (old : Option String) : List ObjSet → Option String
  | [] => old
  | .name (some s) :: cs => objName (some s) cs
  | _ :: cs => objName old cs

/-- Whether a listener was given last. -/
def objListener (old : Bool) : List ObjSet → Bool
  | [] => old
  | .listener b :: cs => objListener b cs
  | _ :: cs => objListener old cs

end Uecho.Spec
