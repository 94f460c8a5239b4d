import Verif.Model.Server
/-!
# The settings of a controller and its server: src/uecho/controller.c, src/uecho/_controller.h

The controller, its local node and the server of that node have an option word each; here they are in one record, as one controller
owns them. The nodes that were found are in `Model/Controller.lean`, posting in `Model/Post.lean`. Pointers are numbers; `none` is NULL.
-/
namespace Uecho.CtrlSet
open Uecho

/-- Fields of `uEchoController` — src/uecho/_controller.h:36-49, `uEchoNode.option` — src/uecho/_node.h:46, and the server of the node. The
option word of a new node is not initialised. -/
structure Ctrl where
  msgListener : Option Nat
  nodeListener : Option Nat
  userData : Option Nat
  postWait : Int
  option : BitVec 32
  nodeOption : BitVec 32
  server : Server.Server

/-- `uecho_server_setoption` — src/uecho/frame/server.h:84, with `uecho_server_isudpserverenabled` — src/uecho/frame/server.h:86. -/
def serverSetOption (s : Server.Server) (v : BitVec 32) : Server.Server := { s with udpEnabled := v &&& 1#32 == 0#32 }

/-- `uecho_controller_new` — src/uecho/controller.c:20-47; `opt0` is what was in the memory of the node; `node` and `ctrl` are the two
objects that observe the server, `hn` and `hc` their handlers. -/
def new (opt0 : BitVec 32) (node ctrl hn hc : Nat) : Ctrl :=
  { msgListener := none, nodeListener := none, userData := none, postWait := 5000000, option := 0#32, nodeOption := opt0
    server := { serverSetOption Server.new 0#32 with
      observers := Server.addObserver (Server.addObserver [] (some node) (some hn)) (some ctrl) (some hc) } }

/-- `uecho_node_setoption` — src/uecho/node.c:102-109. -/
def nodeSetOption (c : Ctrl) (v : BitVec 32) : Ctrl := { c with nodeOption := v, server := serverSetOption c.server v }

/-- `uecho_controller_enableoption` — src/uecho/controller.c:271-278. -/
def enableOption (c : Ctrl) (p : BitVec 32) : Ctrl := nodeSetOption { c with option := c.option ||| p } (c.option ||| p)
/-- `uecho_controller_disableoption` — src/uecho/controller.c:284-291. -/
def disableOption (c : Ctrl) (p : BitVec 32) : Ctrl := nodeSetOption { c with option := c.option ^^^ p } (c.option ^^^ p)
/-- `uecho_controller_isoptionenabled` — src/uecho/controller.c:297-303. -/
def isOptionEnabled (c : Ctrl) (p : BitVec 32) : Bool := if c.option &&& p = 0#32 then false else true
/-- `uecho_controller_disableudpserver` — src/uecho/controller.c:309-312. -/
def disableUdpServer (c : Ctrl) : Ctrl := enableOption c 1#32
/-- `uecho_controller_enableudpserver` — src/uecho/_controller.h:72. -/
def enableUdpServer (c : Ctrl) : Ctrl := disableOption c 1#32
/-- `uecho_controller_isudpserverenabled` — src/uecho/_controller.h:73. -/
def isUdpServerEnabled (c : Ctrl) : Bool := !isOptionEnabled c 1#32

/-- `uecho_controller_setmessagelistener` — src/uecho/controller.c:71-77. -/
def setMessageListener (c : Ctrl) (l : Option Nat) : Ctrl := { c with msgListener := l }
/-- `uecho_controller_setnodelistener` — src/uecho/controller.c:83-89. -/
def setNodeListener (c : Ctrl) (l : Option Nat) : Ctrl := { c with nodeListener := l }
/-- `uecho_controller_getmessagelistener` — src/uecho/controller.c:95-101. -/
def getMessageListener (c : Ctrl) : Option Nat := c.msgListener
/-- `uecho_controller_hasmessagelistener` — src/uecho/controller.c:107-113. -/
def hasMessageListener (c : Ctrl) : Bool := if c.msgListener.isSome then true else false
/-- `uecho_controller_setuserdata` — src/uecho/controller.c:318-323. -/
def setUserData (c : Ctrl) (d : Option Nat) : Ctrl := { c with userData := d }
/-- `uecho_controller_getuserdata` — src/uecho/controller.c:329-334. -/
def getUserData (c : Ctrl) : Option Nat := c.userData
/-- `uecho_controller_setpostwaitemilitime` — src/uecho/controller.c:458-464. -/
def setPostWait (c : Ctrl) (t : Int) : Ctrl := { c with postWait := t }
/-- `uecho_controller_getpostwaitemilitime` — src/uecho/controller.c:470-476. -/
def getPostWait (c : Ctrl) : Int := c.postWait

/-- `uecho_controller_start` — src/uecho/controller.c:119-130, as far as the server (`uecho_node_start` — src/uecho/node.c:370-380):
`announced` is the result of the announcement that follows. -/
def start (os : Server.Os) (announced : Bool) (c : Ctrl) : Ctrl × Bool :=
  let (s, ok) := Server.start os c.server
  ({ c with server := s }, ok && announced)
/-- `uecho_controller_stop` — src/uecho/controller.c:136-146, `uecho_node_stop` — src/uecho/node.c:386-396. -/
def stop (c : Ctrl) : Ctrl × Bool :=
  let (s, ok) := Server.stop c.server
  ({ c with server := s }, ok)
/-- `uecho_controller_isrunning` — src/uecho/controller.c:152-161, `uecho_node_isrunning` — src/uecho/node.c:402-411. -/
def isRunning (c : Ctrl) : Bool := Server.isRunning c.server

end Uecho.CtrlSet
