import Verif.Model.Device
/-!
# node.c, class.c, class_list.c, object_list.c, and the node part of object.c and property.c

A node is its list of objects, its list of classes, the last transaction id, its address and the
addresses its sockets are bound to. What a call does to the outside is the list of its effects
in order. A `send` effect is a datagram handed to the server layer: `to = none` is
`uecho_server_postannounce` (multicast), `to = some a` is `uecho_server_postresponse` to address `a`.
What the server layer does with it is `Model/Server.lean`.

Simplifications. An object is in at most one node's list. Objects are addressed by position where C
uses a pointer. `int` counters of the profile update do not overflow (2^31 objects).
-/
namespace Uecho

/-- Something observable outside the node. -/
inductive Effect where
  /-- a datagram handed to the server layer -/
  | send (to : Option String) (bytes : List (Option Byte))
  /-- the node's message listener was called -/
  | nodeListener
  /-- the destination object's message listener was called -/
  | objListener (code : CInt)
deriving DecidableEq, Repr

/-- `uEchoClass` — src/uecho/_class.h (two code bytes). -/
structure Class where
  grp : Byte
  cls : Byte
deriving DecidableEq, Repr

namespace Class
/-- `uecho_class_setcode` — src/uecho/class.c:65-72. -/
def setCode (v : CInt) : Class :=
  ⟨((v &&& 0xFF00#32).sshiftRight 8).setWidth 8, (v &&& 0x00FF#32).setWidth 8⟩
/-- `uecho_class_getcode` — src/uecho/class.c:78-89. -/
def getCode (c : Class) : CInt :=
  (((c.grp.setWidth 32) <<< 8) &&& 0xFF00#32) ||| ((c.cls.setWidth 32) &&& 0x00FF#32)
/-- `uecho_class_isdevice` — src/uecho/class.c:155-161. -/
def isDevice (c : Class) : Bool := isDeviceGroup c.grp
/-- `uecho_class_isprofile` — src/uecho/class.c:167-173. -/
def isProfile (c : Class) : Bool := isProfileGroup c.grp
/-- `uecho_classlist_getbycode` — src/uecho/class_list.c:48-61. -/
def find (cs : List Class) (code : CInt) : Option Class := cs.find? (fun c => c.getCode == code)
/-- `uecho_classlist_set` — src/uecho/class_list.c:67-86. -/
def listSet (cs : List Class) (code : CInt) : List Class :=
  match find cs code with
  | some _ => cs
  | none => cs ++ [setCode code]
end Class

/-- `uEchoNode` — src/uecho/_node.h. `bound` is what `uecho_server_isboundaddress`
(src/uecho/frame/server.c:57-69) answers for the node's server; mutex, server and option are not
here. -/
structure Node where
  objs : List Obj
  classes : List Class
  lastTid : BitVec 32
  address : Option String
  bound : List String
  hasListener : Bool

namespace Node

/-- `uEchoNodeProfileObject` — include/uecho/object.h:34. -/
abbrev profileCode : CInt := 0x0EF001#32

/-- `uecho_node_getobjectbycode` — src/uecho/node.c:271-274, `uecho_objectlist_getbycode` —
src/uecho/object_list.c:48-62. -/
def getObject (n : Node) (c : CInt) : Option Obj := n.objs.find? (fun o => o.getCode == c)
/-- `uecho_node_hasobjectbycode` — src/uecho/node.c:280-283. -/
def hasObject (n : Node) (c : CInt) : Bool := (n.getObject c).isSome
/-- `uecho_node_getobjectcount` — src/uecho/node.c:289-292. -/
def objectCount (n : Node) : Nat := n.objs.length
/-- `uecho_node_getclassbycode` / `hasclassbycode` — src/uecho/node.c:235-247. -/
def hasClass (n : Node) (c : CInt) : Bool := (Class.find n.classes c).isSome
/-- `uecho_node_getclasscount` — src/uecho/node.c:253-256. -/
def classCount (n : Node) : Nat := n.classes.length

/-- Store through a pointer to the first object with the given code. -/
def putObject (n : Node) (c : CInt) (o' : Obj) : Node :=
  { n with objs := n.objs.findIdx? (fun o => o.getCode == c) |>.elim n.objs (n.objs.set · o') }

/-- `uecho_node_clear` — src/uecho/node.c:78-87. -/
def clear (n : Node) : Node := { n with objs := [], classes := [] }
/-- `uecho_node_setaddress` — src/uecho/node.c:151-156 (a NULL argument changes nothing: see
`uecho_string_setvalue`, src/uecho/util/strings.c). -/
def setAddress (n : Node) (a : Option String) : Node := { n with address := a.or n.address }
/-- `uecho_node_setmessagelistener` — src/uecho/node.c:115-121. -/
def setMessageListener (n : Node) (b : Bool) : Node := { n with hasListener := b }
/-- `uecho_node_setlasttid` — src/uecho/node.c:417-423. -/
def setLastTid (n : Node) (t : BitVec 32) : Node := { n with lastTid := t }
/-- `uecho_node_getnexttid` — src/uecho/node.c:441-453 (the result is the new `lastTid`). -/
def nextTid (n : Node) : Node :=
  { n with lastTid := if 65535#32 ≤ n.lastTid then 1#32 else n.lastTid + 1#32 }

/-- `uecho_node_isaddress` — src/uecho/node.c:173-187 (`uecho_streq` of a NULL string is false). -/
def isAddress (n : Node) (a : Option String) : Bool :=
  match a with
  | none => false
  | some s => n.address == some s || n.bound.contains s

/-- `uecho_node_announcemessagebytes` — src/uecho/node.c:459-464; the buffer is read for `size`
bytes. Result: the datagram handed over. -/
def announceBytes (bytes : List (Option Byte)) (size : Nat) : Res (List Effect) := do
  if size = 0 then return []
  let d ← rdN bytes 0 size
  return [.send none d]

/-- `uecho_node_sendmessagebytes` — src/uecho/node.c:470-475. -/
def sendBytes (addr : Option String) (bytes : List (Option Byte)) (size : Nat) :
    Res (List Effect) :=
  match addr with
  | none => .ok []
  | some a => do
      if size = 0 then return []
      let d ← rdN bytes 0 size
      return [.send (some a) d]

/-- `uecho_node_announcemessage` — src/uecho/node.c:481-496. Result: node (TID advanced), the message
as modified, effects. -/
def announceMessage (e : Endian) (n : Node) (m : Message) : Res (Node × Message × List Effect) := do
  let n := n.nextTid
  let m := m.setTid e n.lastTid
  match n.getObject profileCode with
  | none => return (n, m, [])
  | some o => do
      let m ← m.setSourceObjectCode o.getCode
      let b ← m.getBytes
      let s ← m.size
      let eff ← announceBytes b s
      return (n, m, eff)

/-- `uecho_node_sendmessage` — src/uecho/node.c:502-517 to a node with the given address. -/
def sendMessage (e : Endian) (n : Node) (addr : Option String) (m : Message) :
    Res (Node × Message × List Effect) := do
  let n := n.nextTid
  let m := m.setTid e n.lastTid
  match n.getObject profileCode with
  | none => return (n, m, [])
  | some o => do
      let m ← m.setSourceObjectCode o.getCode
      let b ← m.getBytes
      let s ← m.size
      let eff ← sendBytes addr b s
      return (n, m, eff)

/-- `uecho_node_announceproperty` — src/uecho/node.c:523-545. `code` is the object's code. -/
def announceProperty (e : Endian) (n : Node) (code : CInt) (p : Property) :
    Res (Node × List Effect) := do
  let m := Message.new.setEsv Esv.notification
  let m ← m.setSourceObjectCode code
  let m ← m.setDestinationObjectCode profileCode
  let m ← m.addProperty p.copy
  let (n, _, eff) ← n.announceMessage e m
  return (n, eff)

/-- The announcements an object operation asked for: `uecho_property_announce` —
src/uecho/property.c:694-711 with `uecho_property_getnode` — src/uecho/property.c:671-688. -/
def announceAll (e : Endian) (n : Node) (o : Obj) : List Property → Res (Node × List Effect)
  | [] => .ok (n, [])
  | p :: ps =>
      if o.hasNode then do
        let (n, e1) ← n.announceProperty e o.getCode p
        let (n, e2) ← announceAll e n o ps
        return (n, e1 ++ e2)
      else announceAll e n o ps

/-- Running an object operation on the node's object number `i`. The announcements happen inside the
operation; since none of them changes an object and an operation that changes the code does so first,
they are performed here after it. -/
def onObj (e : Endian) (n : Node) (i : Nat) (f : Obj → Res Obj.Out) : Res (Node × List Effect) :=
  match n.objs[i]? with
  | none => .ub
  | some o => do
      let (o, ann) ← f o
      announceAll e { n with objs := n.objs.set i o } o ann

/-- Class part of `uecho_nodeprofile_updateinstanceproperties` —
src/uecho/std/node_profile_class.c:284-304: entries of the class list. -/
def classEntries (cs : List Class) : List Byte :=
  (cs.filter (fun c => !c.isProfile)).flatMap fun c => [c.grp, c.cls]

/-- Instance part of `uecho_nodeprofile_updateinstanceproperties` —
src/uecho/std/node_profile_class.c:308-324: entries of the instance list. -/
def instanceEntries (os : List Obj) : List Byte :=
  (os.filter (fun o => !o.isProfile)).flatMap fun o => [o.grp, o.cls, o.ins]

/-- `uecho_nodeprofile_updateinstanceproperties` — src/uecho/std/node_profile_class.c:265-332, on the
object `o` of a node with the given classes and objects. -/
def profileUpdate (cs : List Class) (os : List Obj) (o : Obj) : Res Obj.Out := do
  let (o, a1) ← NodeProfile.setClassCount o cs.length
  let (o, a2) ← NodeProfile.setClassList o (cs.filter (fun c => !c.isProfile)).length
    (classEntries cs)
  let (o, a3) ← NodeProfile.setInstanceCount o (os.filter (fun o => !o.isProfile)).length
  let (o, a4) ← NodeProfile.setInstanceList o (os.filter (fun o => !o.isProfile)).length
    (instanceEntries os)
  return (o, a1 ++ a2 ++ a3 ++ a4)

/-- `uecho_node_updatenodeprofileclass` — src/uecho/node.c:298-310. The Boolean is the C result. -/
def updateProfile (e : Endian) (n : Node) : Res (Node × List Effect × Bool) :=
  match n.objs.findIdx? (fun o => o.getCode == profileCode) with
  | none => .ok (n, [], false)
  | some i =>
    match n.objs[i]? with
    | none => .ub
    | some o =>
      if o.hasNode then do
        let (n, eff) ← n.onObj e i (profileUpdate n.classes n.objs)
        return (n, eff, true)
      else .ok (n, [], false)

/-- `uecho_node_addobject` — src/uecho/node.c:340-364. -/
def addObject (e : Endian) (n : Node) (o : Obj) : Res (Node × List Effect × Bool) :=
  if n.hasObject o.getCode then .ok (n, [], false)
  else
    let n := { n with
      objs := n.objs ++ [o.setParentNode true]
      classes := Class.listSet n.classes (objectcode2classcode o.getCode) }
    updateProfile e n

/-- `uecho_node_setobject` — src/uecho/node.c:316-334. -/
def setObject (e : Endian) (db : Db) (junk : Nat → Byte) (n : Node) (code : CInt) :
    Res (Node × List Effect × Bool) :=
  if n.hasObject code then .ok (n, [], true)
  else do
    let (o, _) ← Obj.new.setCode db junk code
    addObject e n o

/-- `uecho_node_new` — src/uecho/node.c:20-50. `lastTid` is read by the first announcement (inside
`uecho_node_addobject`, line 45) before it is first written (line 47): `tid0` is its arbitrary
content. -/
def new (e : Endian) (db : Db) (junk rnd : Nat → Byte) (tid0 : BitVec 32) :
    Res (Node × List Effect) := do
  let n : Node := ⟨[], [], tid0, none, [], false⟩
  let o ← NodeProfile.new db junk rnd
  let (n, eff, _) ← n.addObject e o
  return (n.setLastTid 0#32, eff)

/-- Loop of `uecho_node_setmanufacturercode` — src/uecho/node.c:193-205. -/
def setManufacturerCode (e : Endian) (v : CInt) : List Nat → Node → Res (Node × List Effect)
  | [], n => .ok (n, [])
  | i :: is, n => do
      let (n, e1) ← n.onObj e i (fun o => o.setManufacturerCode v)
      let (n, e2) ← setManufacturerCode e v is n
      return (n, e1 ++ e2)

/-- `uecho_node_announce` — src/uecho/node.c:551-565 (`none`-cases return false). -/
def announce (e : Endian) (n : Node) : Res (Node × List Effect) :=
  match n.getObject profileCode with
  | none => .ok (n, [])
  | some o =>
    match o.getProperty 0xD5#8 with
    | none => .ok (n, [])
    | some p => n.announceProperty e o.getCode p

/-- `uecho_node_start` — src/uecho/node.c:370-380. `bound` are the addresses the server is bound to after
`uecho_server_start`; the announcement is made whether or not the server started. -/
def start (e : Endian) (n : Node) (bound : List String) : Res (Node × List Effect) :=
  announce e { n with bound := bound }

/-- `uecho_object_announcemessage` — src/uecho/object.c:720-734, for object number `i`. -/
def objAnnounceMessage (e : Endian) (n : Node) (i : Nat) (m : Message) :
    Res (Node × Message × List Effect) :=
  match n.objs[i]? with
  | none => .ub
  | some o =>
    if o.hasNode then do
      let m ← m.setSourceObjectCode o.getCode
      n.announceMessage e m
    else .ok (n, m, [])

end Node
end Uecho
