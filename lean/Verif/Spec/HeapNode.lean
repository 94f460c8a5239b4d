import Verif.Model.HeapNode
import Verif.Spec.Heap
/-!
# Which blocks belong to an object, a node, a controller

For each structure of `Model/HeapNode`, the blocks that are freed when it is deleted.
-/
namespace Uecho.Spec
open Uecho Uecho.Heap

/-- The blocks of an object. -/
def objF (o : HObj) : List Nat :=
  [o.self] ++ strF o.name ++ [o.plist] ++ propsF o.props ++ [o.mgr] ++ [o.olist] ++ o.obs.map HObs.self ++ ptr o.anno ++ ptr o.set ++ ptr o.get

/-- The blocks of a list of objects. -/
def objsF (l : List HObj) : List Nat := l.flatMap objF

/-- The blocks of the database. -/
def dbF (d : HDb) : List Nat := [d.self] ++ [d.olist] ++ objsF d.objs

/-- The blocks of a socket. -/
def sockF (s : HSock) : List Nat := [s.self] ++ strF s.addr

/-- The blocks of a socket pointer. -/
def sockOptF : Option HSock → List Nat
  | none => []
  | some s => sockF s

/-- The blocks of a server for one interface. -/
def srvF (s : HSrv) : List Nat := [s.self] ++ [s.mgr] ++ [s.olist] ++ s.obs ++ sockOptF s.sock ++ s.thread.toList

/-- The blocks of a list of servers. -/
def srvsF (l : List HSrv) : List Nat := l.flatMap srvF

/-- The blocks of a server. -/
def serverF (s : HServer) : List Nat :=
  [s.self] ++ [s.ulist] ++ srvsF s.udp ++ [s.mlist] ++ srvsF s.mcast ++ [s.mgr] ++ [s.olist] ++ s.obs

/-- The blocks of a node. -/
def nodeF (n : HNode) : List Nat :=
  [n.self] ++ [n.mutex] ++ [n.clist] ++ n.classes.map (·.1) ++ [n.olist] ++ objsF n.objs ++ serverF n.server ++ strF n.addr

/-- The blocks of a list of nodes. -/
def nodesF (l : List HNode) : List Nat := l.flatMap nodeF

/-- The blocks of a controller. -/
def ctrlF (c : HCtrl) : List Nat := [c.self] ++ [c.mutex] ++ [c.cond] ++ nodeF c.node ++ [c.nlist] ++ nodesF c.nodes

/-- An object has a property that can be read. -/
def hasReadable (o : HObj) : Bool := o.props.any fun p => p.val.isReadable

/-- The maps of the object can be rebuilt: the size of the map of readable properties is not left over from an earlier call that found some
(the library never resets it). -/
def mapsSafe (o : HObj) : Bool := o.getSize == 0 || hasReadable o

end Uecho.Spec
