import Verif.Model.Controller
/-! # Sending a message to a node or an object that a controller has found: src/uecho/controller.c, src/uecho/object.c -/
namespace Uecho.Ctrl
open Uecho

/-- `uecho_controller_getnodecount` — src/uecho/controller.c:194-197. -/
def getNodeCount (c : Ctrl) : Nat := c.nodes.length
/-- `uecho_controller_getlocalnode` — src/uecho/controller.c:167-173. -/
def getLocalNode (c : Ctrl) : Node := c.node
/-- `uecho_nodelist_getbyaddress` — src/uecho/node_list.c:50-63: unlike `uecho_controller_getnodebyaddress` it compares the given
addresses only. -/
def listGetByAddress (ns : List Node) (a : Option String) : Option Node :=
  match a with
  | none => none
  | some a => ns.find? fun n => n.address == some a

/-- `uecho_controller_sendmessage` — src/uecho/controller.c:351-356, to the node number `i` that was found. -/
def sendMessage (e : Endian) (c : Ctrl) (i : Nat) (m : Message) : Res (Ctrl × Message × List Effect) :=
  match c.nodes[i]? with
  | none => .ok (c, m, [])
  | some d => do
    let (n, m, eff) ← c.node.sendMessage e d.address m
    return ({ c with node := n }, m, eff)

/-- `uecho_object_sendmessage` — src/uecho/object.c:740-759, for object number `j` of node number `i` that the controller has found:
`uecho_controller_addnode` made the controller known to the node (src/uecho/controller.c:186). -/
def objSendMessage (e : Endian) (c : Ctrl) (i j : Nat) (m : Message) : Res (Ctrl × Message × List Effect) :=
  match c.nodes[i]? with
  | none => .ub
  | some d =>
    match d.objs[j]? with
    | none => .ub
    | some o =>
      if o.hasNode then do
        let m ← m.setDestinationObjectCode o.getCode
        c.sendMessage e i m
      else .ok (c, m, [])

end Uecho.Ctrl
