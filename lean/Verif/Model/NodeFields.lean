import Verif.Model.Node
/-! # Getters of nodes that the other models do not need -/
namespace Uecho.Node
open Uecho

/-- `uecho_node_getaddress` — src/uecho/node.c:162-167. -/
def getAddress (n : Node) : Option String := n.address
/-- `uecho_node_hasmessagelistener` — src/uecho/node.c:139-145, `uecho_node_getmessagelistener` — src/uecho/node.c:127-133: whether
there is one. -/
def hasMessageListener (n : Node) : Bool := if n.hasListener then true else false
/-- `uecho_node_getlasttid` — src/uecho/node.c:429-435. -/
def getLastTid (n : Node) : BitVec 32 := n.lastTid
/-- `uecho_node_getnexttid` — src/uecho/node.c:441-453, with its result. -/
def getNextTid (n : Node) : Node × BitVec 32 := (n.nextTid, n.nextTid.lastTid)

end Uecho.Node
