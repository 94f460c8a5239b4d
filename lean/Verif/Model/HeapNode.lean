import Verif.Model.Heap
/-!
# Memory blocks of objects, servers, nodes and controllers

Continues `Model/Heap`: the same heap, now with the structures that live as long as a node. As there, a structure is its own address, the
addresses its pointers lead to, and the contents that decide what the code does. What the operating system answers (whether a socket
could be bound, which interfaces there are, whether a handler of the application accepts a request) is taken from an
`Env`: every question gets its own answer, so that a statement for every `Env` holds for all sequences of answers.

Simplifications. Lists: where the code walks along a list until it finds something, the model accesses the whole list. The bytes
of property maps are not computed here, only how many they are (see `Model/Object`). A bound socket has a descriptor that is not 0
(see `Model/Fd`). A handler of the application sets data of properties that the object has, and calls nothing else; listeners do not call the library. Every call, and the handling of every
datagram, runs alone (see `Model/Thread` and others for what happens when they overlap).
-/
namespace Uecho
namespace Heap

/-- What the world around the program answers. -/
structure Env where
  coin : Nat → Bool
  ifs : Nat → List String
  here : Nat → Option String
  writes : Nat → List (Byte × List Byte)

/-- An answer, yes or no. -/
def coin (e : Env) : H Bool := fun m => .ok (e.coin m.next, { m with next := m.next + 1 })

/-- The addresses of the network interfaces. -/
def askIfs (e : Env) : H (List String) := fun m => .ok (e.ifs m.next, { m with next := m.next + 1 })

/-- The address of this host towards a peer. -/
def askHere (e : Env) : H (Option String) := fun m => .ok (e.here m.next, { m with next := m.next + 1 })

/-- What a handler of the application writes. -/
def askWrites (e : Env) : H (List (Byte × List Byte)) := fun m => .ok (e.writes m.next, { m with next := m.next + 1 })

/-- Accesses to a number of blocks. -/
def touch : List Nat → H Unit
  | [] => pure ()
  | a :: l => do
      use a
      touch l

/-- `free` of a number of blocks, one after the other. -/
def freeAll : List Nat → H Unit
  | [] => pure ()
  | a :: l => do
      free a
      freeAll l

/-- A list at the first element that has a property. -/
def splitBy {α : Type} (f : α → Bool) : List α → Option (List α × α × List α)
  | [] => none
  | a :: l => if f a then some ([], a, l) else (splitBy f l).map fun r => (a :: r.1, r.2.1, r.2.2)

/-! ### object.c -/

/-- `uEchoObjectPropertyObserver` — src/uecho/frame/property.h. -/
structure HObs where
  self : Nat
  esv : Byte
  code : Byte
deriving DecidableEq, Repr

/-- `uEchoObject` — src/uecho/_object.h: `plist` is the header of the property list, `mgr` and `olist` the observer manager and the header
of its list, and `anno`, `set`, `get` the caches of the property maps. -/
structure HObj where
  self : Nat
  name : HStr
  grp : Byte
  cls : Byte
  ins : Byte
  plist : Nat
  props : List HProp
  mgr : Nat
  olist : Nat
  obs : List HObs
  anno : Option (Nat × Unit)
  set : Option (Nat × Unit)
  get : Option (Nat × Unit)
  annoSize : Nat
  setSize : Nat
  getSize : Nat
deriving DecidableEq, Repr

/-- What happens when an object announces one of its properties: nothing as long as it is in no node. -/
abbrev Announcer := HObj → HProp → H Unit

/-- The announcer of an object that is in no node: `uecho_property_announce` returns — src/uecho/property.c:694-704. -/
def silent : Announcer := fun o p => do
  use p.self
  use o.self

/-- `uecho_object_new` — src/uecho/object.c:26-69. -/
def objNew : H HObj := do
  let a ← malloc
  let s ← strNew
  let p ← malloc
  let m ← malloc
  let l ← malloc
  return ⟨a, s, 0, 0, 0, p, [], m, l, [], none, none, none, 0, 0, 0⟩

/-- `uecho_object_clearpropertymapcaches` — src/uecho/std/object_super_class.c:94-116. `getSize` keeps its value. -/
def objClearCaches (o : HObj) : H HObj := do
  use o.self
  freeOpt o.anno
  freeOpt o.set
  freeOpt o.get
  return { o with anno := none, set := none, get := none, annoSize := 0, setSize := 0 }

/-- `uecho_propertylist_clear`: `uecho_list_clear` with `uecho_property_delete` — src/uecho/util/list.c:232-254. -/
def plClear (hdr : Nat) : List HProp → H Unit
  | [] => use hdr
  | p :: ps => do
      touch (hdr :: p.self :: ps.map HProp.self)
      propDelete p
      plClear hdr ps

/-- `uecho_object_delete` — src/uecho/object.c:75-99. The links of the list it is in are not accessed here: see `objsClear`. -/
def objDelete (o : HObj) : H Unit := do
  use o.self
  strDelete o.name
  let o ← objClearCaches o
  plClear o.plist o.props
  free o.plist
  touch (o.mgr :: o.olist :: o.obs.map HObs.self)
  freeAll (o.obs.map HObs.self)
  free o.olist
  free o.mgr
  free o.self

/-- `uecho_propertylist_add` — src/uecho/property_list.c:92-106: a property with the same code is deleted. -/
def plAdd (o : HObj) (p : HProp) : H HObj := do
  touch (o.plist :: o.props.map HProp.self)
  use p.self
  match splitBy (fun q => q.code == p.code) o.props with
  | some (pre, q, post) => do
      propDelete q
      return { o with props := pre ++ post ++ [p] }
  | none => pure { o with props := o.props ++ [p] }

/-- `uecho_object_addproperty` — src/uecho/object.c:400-409. -/
def objAddProperty (o : HObj) (p : HProp) : H HObj := do
  use o.self
  use p.self
  plAdd o { p with hasParent := true }

/-- `uecho_propertylist_findbycode` — src/uecho/property_list.c:48-61. -/
def objFind (o : HObj) (code : Byte) : H (Option (List HProp × HProp × List HProp)) := do
  use o.self
  touch (o.plist :: o.props.map HProp.self)
  return splitBy (fun q => q.code == code) o.props

/-- `uecho_propertylist_getbycode` — src/uecho/property_list.c:67-86: a property that is missing is made and added at the end. -/
def objGetByCode (o : HObj) (code : Byte) : H (List HProp × HProp × List HProp) := do
  let r ← objFind o code
  match r with
  | some r => pure r
  | none => do
      let p ← propNew
      touch (o.plist :: o.props.map HProp.self)
      return (o.props, { p with code := code }, [])

/-- Whether setting data announces the property: `uecho_property_setdata`, src/uecho/property.c:157-166. -/
def announces (p : HProp) (d : List Byte) : Bool := !d.isEmpty && p.val.isAnnounceable && p.hasParent

/-- `uecho_property_setdata` of a property of an object — src/uecho/property.c:149-169, with the announcement. -/
def setDataAt (ann : Announcer) (o : HObj) (pre : List HProp) (p : HProp) (post : List HProp) (d : List Byte) : H HProp := do
  let q ← propSetData p d
  if announces q d then do
    ann { o with props := pre ++ q :: post } q
    return q
  else pure q

/-- `uecho_object_setpropertydata` — src/uecho/object.c:439-445, with `uecho_propertylist_setdata`, src/uecho/property_list.c:133-147. -/
def objSetData (ann : Announcer) (o : HObj) (code : Byte) (d : List Byte) : H HObj := do
  let r ← objGetByCode o code
  let q ← setDataAt ann o r.1 r.2.1 r.2.2 d
  return { o with props := r.1 ++ q :: r.2.2 }

/-- `uecho_propertylist_set` — src/uecho/property_list.c:112-127. -/
def objSet (ann : Announcer) (o : HObj) (code : Byte) (attr : CInt) (d : List Byte) : H HObj := do
  let r ← objGetByCode o code
  let q ← setDataAt ann o r.1 r.2.1 r.2.2 d
  use q.self
  return { o with props := r.1 ++ { q with attr := attr } :: r.2.2 }

/-- `uecho_object_setpropertyintegerdata` — src/uecho/object.c:451-457, with `uecho_property_setintegerdata`, src/uecho/property.c:214-233. -/
def objSetInteger (ann : Announcer) (o : HObj) (code : Byte) (v : CInt) (size : Nat) : H HObj := do
  let r ← objGetByCode o code
  let t ← malloc
  let b ← lift (integer2byte v size)
  use t
  let q ← setDataAt ann o r.1 r.2.1 r.2.2 b
  free t
  return { o with props := r.1 ++ q :: r.2.2 }

/-- `uecho_object_setpropertyattribute` — src/uecho/object.c:475-481. -/
def objSetAttr (o : HObj) (code : Byte) (attr : CInt) : H HObj := do
  let r ← objGetByCode o code
  use r.2.1.self
  return { o with props := r.1 ++ { r.2.1 with attr := attr } :: r.2.2 }

/-- `uecho_object_getpropertydata` — src/uecho/object.c:579-585, and reading what it points to: asking for a property that is missing makes it. -/
def objGetData (o : HObj) (code : Byte) : H (HObj × List Byte) := do
  let r ← objGetByCode o code
  let d ← propRead r.2.1
  return ({ o with props := r.1 ++ r.2.1 :: r.2.2 }, d)

/-- One cache of a property map: `size++`, `realloc` — src/uecho/std/object_super_class.c:54-59. -/
def cachePush (b : Bool) (c : Option (Nat × Unit) × Nat) : H (Option (Nat × Unit) × Nat) :=
  if b then do
    let a ← realloc c.1
    use a
    return (some (a, ()), c.2 + 1)
  else pure c

/-- The loop of `uecho_object_updatepropertymaps` — src/uecho/std/object_super_class.c:52-79. -/
def collect : List HProp → HObj → H HObj
  | [], o => pure o
  | p :: ps, o => do
      use p.self
      let g ← cachePush p.val.isReadable (o.get, o.getSize)
      let s ← cachePush p.val.isWritable (o.set, o.setSize)
      let a ← cachePush p.val.isAnnounceable (o.anno, o.annoSize)
      collect ps { o with get := g.1, getSize := g.2, set := s.1, setSize := s.2, anno := a.1, annoSize := a.2 }

/-- `uecho_object_setpropertymap` — src/uecho/object.c:360-394. Copying from NULL is undefined. The bytes after the first are not computed. -/
def objSetMap (ann : Announcer) (o : HObj) (code : Byte) (c : Option (Nat × Unit)) (size : Nat) : H HObj :=
  if c.isNone && size != 0 then undef
  else if size ≤ 16 then do
    useOpt c
    objSet ann o code Attr.read (BitVec.ofNat 8 size :: List.replicate size 0)
  else do
    useOpt c
    objSetData ann o code (BitVec.ofNat 8 size :: List.replicate 16 0)

/-- `uecho_object_updatepropertymaps` — src/uecho/std/object_super_class.c:41-88. -/
def objUpdateMaps (ann : Announcer) (o : HObj) : H HObj := do
  let o ← objClearCaches o
  let o ← collect o.props o
  let o ← objSetMap ann o 0x9F o.get o.getSize
  let o ← objSetMap ann o 0x9E o.set o.setSize
  objSetMap ann o 0x9D o.anno o.annoSize

/-- `uecho_object_setproperty` — src/uecho/object.c:415-433. -/
def objSetProperty (ann : Announcer) (o : HObj) (code : Byte) (attr : CInt) : H HObj := do
  let o ← objSet ann o code attr []
  let r ← objFind o code
  match r with
  | some (pre, p, post) => do
      use p.self
      objUpdateMaps ann { o with props := pre ++ { p with hasParent := true } :: post }
  | none => pure o

/-- `uecho_object_clearproperties` — src/uecho/object.c:554-561. -/
def objClear (o : HObj) : H HObj := do
  use o.self
  plClear o.plist o.props
  objClearCaches { o with props := [] }

/-- `uecho_object_setpropertyrequesthandler` — src/uecho/object.c:651-657, with `…observer_manager_setobserver`,
src/uecho/frame/object_property_observer_manager.c:45-64. -/
def objSetHandler (o : HObj) (esv code : Byte) : H HObj := do
  touch (o.self :: o.mgr :: o.olist :: o.obs.map HObs.self)
  match splitBy (fun x => esv == x.esv && code == x.code) o.obs with
  | some (pre, x, post) => do
      free x.self
      let a ← malloc
      return { o with obs := pre ++ post ++ [⟨a, esv, code⟩] }
  | none => do
      let a ← malloc
      return { o with obs := o.obs ++ [⟨a, esv, code⟩] }

/-! ### The standard database -/

/-- `uEchoDatabase` — src/uecho/std/_database.h: the structure, the header of its object list, and the objects. Manufacturers are left out. -/
structure HDb where
  self : Nat
  olist : Nat
  objs : List HObj
deriving DecidableEq, Repr

/-- The loop of `uecho_object_addmissingobjectproperties` — src/uecho/object.c:765-782. -/
def addMissing : List HProp → HObj → H HObj
  | [], o => pure o
  | p :: ps, o => do
      use p.self
      touch (o.self :: o.plist :: o.props.map HProp.self)
      if o.props.any (fun q => q.code == p.code) then addMissing ps o
      else do
        let c ← propCopy p
        let o ← objAddProperty o c
        addMissing ps o

/-- `uecho_database_getobject` — src/uecho/std/database.c:96-100, with `uecho_objectlist_getbygroupclasscode`, src/uecho/object_list.c:68-84. -/
def dbFind (db : HDb) (g c : Byte) : H (Option HObj) := do
  touch (db.self :: db.olist :: db.objs.map HObj.self)
  return db.objs.find? (fun o => o.grp == g && o.cls == c)

/-- `uecho_object_addstandardpropertieswithcode` — src/uecho/object.c:164-186. -/
def addStandardWith (db : HDb) (o : HObj) (g c : Byte) : H HObj := do
  let r ← dbFind db g c
  match r with
  | none => pure o
  | some s => do
      use s.self
      let n ← strRead s.name
      use o.self
      let nm ← strSetValue o.name n
      use s.plist
      addMissing s.props { o with name := nm }

/-- `uecho_object_addstandardproperties` — src/uecho/object.c:188-198. -/
def addStandard (db : HDb) (o : HObj) : H HObj := do
  let o ← addStandardWith db o 0 0
  addStandardWith db o o.grp o.cls

/-- `uecho_object_setcode` — src/uecho/object.c:204-215. -/
def objSetCode (ann : Announcer) (db : HDb) (o : HObj) (g c i : Byte) : H HObj := do
  use o.self
  let o ← addStandard db { o with grp := g, cls := c, ins := i }
  objUpdateMaps ann o

/-- `uecho_object_setgroupcode` — src/uecho/object.c:249-257. -/
def objSetGroup (db : HDb) (o : HObj) (g : Byte) : H HObj := do
  use o.self
  addStandard db { o with grp := g }

/-- `uecho_object_setclasscode` — src/uecho/object.c:275-283. -/
def objSetClass (db : HDb) (o : HObj) (c : Byte) : H HObj := do
  use o.self
  addStandard db { o with cls := c }

/-- `uecho_device_new` — src/uecho/std/device.c:17-31, with `uecho_device_addmandatoryproperties`, src/uecho/std/device_super_class.c:21-47
(the codes and values: see `Model/Device`). -/
def deviceNew (db : HDb) : H (Option HObj) := do
  let o ← objNew
  let r ← dbFind db 0 0
  match r with
  | none => do
      objDelete o
      return none
  | some s => do
      use s.plist
      let o ← addMissing s.props o
      let o ← objSetData silent o 0x80 [0x30]
      let o ← objSetData silent o 0x88 [0x42]
      let o ← objSetData silent o 0x82 [0, 0, 0x49, 0]
      let o ← objSetData silent o 0x81 [0]
      let o ← objSetInteger silent o 0x8A 0 3
      return some o

/-- `uecho_nodeprofile_new` — src/uecho/std/node_profile_class.c:25-70. `id` are the random bytes of the identification number. -/
def nodeProfileNew (db : HDb) (id : List Byte) : H HObj := do
  let o ← objNew
  let o ← objSetCode silent db o 0x0E 0xF0 0x01
  let r ← dbFind db 0x0E 0xF0
  match r with
  | none => pure o
  | some s => do
      use s.plist
      let o ← addMissing s.props o
      let o ← objSetData silent o 0x80 [0x30]
      let o ← objSetData silent o 0x82 [1, 13, 0, 0x10]
      objSetData silent o 0x83 (0xFE :: id)

/-! ### Sockets and servers -/

/-- `uEchoSocket` — src/uecho/net/socket.h. -/
structure HSock where
  self : Nat
  addr : HStr
  bound : Bool
deriving DecidableEq, Repr

/-- `uecho_socket_new` — src/uecho/net/socket.c:106-136. -/
def sockNew : H HSock := do
  let a ← malloc
  let s ← strNew
  let s ← strSetValue s (some "")
  return ⟨a, s, false⟩

/-- `uecho_socket_close` — src/uecho/net/socket.c:213-255. -/
def sockClose (s : HSock) : H HSock := do
  use s.self
  if s.bound then do
    let t ← strSetValue s.addr (some "")
    return { s with addr := t, bound := false }
  else pure s

/-- `uecho_socket_delete` — src/uecho/net/socket.c:142-154. -/
def sockDelete (s : HSock) : H Unit := do
  let s ← sockClose s
  strDelete s.addr
  free s.self

/-- `uecho_socket_sendto` on a socket of a server — src/uecho/net/socket.c:540-574. Sockets of servers are bound. -/
def sockSend (e : Env) (s : HSock) : H Bool := do
  use s.self
  let _ ← strRead s.addr
  if s.bound then coin e else undef

/-- A server for one interface: `uEchoUdpServer`, `uEchoMcastServer` — src/uecho/frame/server.h; the two have the same fields. -/
structure HSrv where
  self : Nat
  mgr : Nat
  olist : Nat
  obs : List Nat
  sock : Option HSock
  thread : Option Nat
deriving DecidableEq, Repr

/-- `uecho_udp_server_new` — src/uecho/frame/udp_server.c:18-34; mcast_server.c the same. -/
def srvNew : H HSrv := do
  let a ← malloc
  let m ← malloc
  let l ← malloc
  return ⟨a, m, l, [], none, none⟩

/-- `uecho_udp_server_close` — src/uecho/frame/udp_server.c:96-109; mcast_server.c the same. -/
def srvClose (s : HSrv) : H HSrv := do
  use s.self
  match s.sock with
  | none => pure s
  | some k => do
      let k ← sockClose k
      sockDelete k
      return { s with sock := none }

/-- `uecho_udp_server_stop` — src/uecho/frame/udp_server.c:215-229; mcast_server.c the same. The thread is assumed to end: see `Model/Thread`. -/
def srvStop (s : HSrv) : H HSrv := do
  use s.self
  match s.thread with
  | none => pure s
  | some t => do
      let s ← srvClose s
      use t
      free t
      return { s with thread := none }

/-- `uecho_message_observer_manager_delete` — src/uecho/frame/message_observer_manager.c:34-39. -/
def mgrDelete (mgr olist : Nat) (obs : List Nat) : H Unit := do
  touch (mgr :: olist :: obs)
  freeAll obs
  free olist
  free mgr

/-- Deleting a socket pointer that may be NULL. -/
def sockDeleteOpt : Option HSock → H Unit
  | none => pure ()
  | some k => sockDelete k

/-- `uecho_udp_server_delete` — src/uecho/frame/udp_server.c:40-52: the thread is not freed. -/
def srvDelete (s : HSrv) : H Unit := do
  use s.self
  sockDeleteOpt s.sock
  mgrDelete s.mgr s.olist s.obs
  free s.self

/-- `uecho_mcast_server_delete` — src/uecho/frame/mcast_server.c:41-53: stops, and does not delete the socket. -/
def mcastDelete (s : HSrv) : H Unit := do
  let s ← srvStop s
  mgrDelete s.mgr s.olist s.obs
  free s.self

/-- `uecho_udp_server_open` — src/uecho/frame/udp_server.c:69-90; `mcast`: src/uecho/frame/mcast_server.c, which also joins the group. -/
def srvOpen (e : Env) (mcast : Bool) (s : HSrv) (addr : String) : H (Bool × HSrv) := do
  let s ← srvClose s
  let k ← sockNew
  let ok ← coin e
  if ok then do
    let t ← strSetValue k.addr (some addr)
    let joined ← coin e
    if mcast && !joined then do
      let s ← srvClose { s with sock := some { k with addr := t, bound := true } }
      return (false, s)
    else pure (true, { s with sock := some { k with addr := t, bound := true } })
  else do
    let b ← coin e
    let s ← srvClose { s with sock := some { k with bound := b } }
    return (false, s)

/-- `uecho_udp_server_start` — src/uecho/frame/udp_server.c:190-209; mcast_server.c the same. -/
def srvStart (e : Env) (s : HSrv) : H (Bool × HSrv) := do
  let s ← srvStop s
  use s.self
  if s.sock.isNone then pure (false, s)
  else do
    let t ← malloc
    let ok ← coin e
    if ok then pure (true, { s with thread := some t })
    else do
      let s ← srvStop { s with thread := some t }
      return (false, s)

/-- A function on all the servers of a list. -/
def eachSrv (f : HSrv → H HSrv) : List HSrv → H (List HSrv)
  | [] => pure []
  | s :: l => do
      let s ← f s
      let l ← eachSrv f l
      return s :: l

/-- `uecho_udp_serverlist_start` after the stop — src/uecho/frame/udp_server_list.c:120-125. -/
def eachStart (e : Env) : List HSrv → H (Bool × List HSrv)
  | [] => pure (true, [])
  | s :: l => do
      let r ← srvStart e s
      let q ← eachStart e l
      return (r.1 && q.1, r.2 :: q.2)

/-- `uecho_udp_serverlist_clear`: `uecho_list_clear` with `uecho_udp_server_delete`. -/
def srvsClear (hdr : Nat) : List HSrv → H Unit
  | [] => use hdr
  | s :: l => do
      touch (hdr :: s.self :: l.map HSrv.self)
      srvDelete s
      srvsClear hdr l

/-- `uecho_mcast_serverlist_clear`: `uecho_list_clear` with `uecho_mcast_server_delete`. -/
def mcastsClear (hdr : Nat) : List HSrv → H Unit
  | [] => use hdr
  | s :: l => do
      touch (hdr :: s.self :: l.map HSrv.self)
      mcastDelete s
      mcastsClear hdr l

/-- `uEchoNetworkInterface` — src/uecho/net/interface.h. -/
structure HIf where
  self : Nat
  name : HStr
  addr : HStr
  mask : HStr
deriving DecidableEq, Repr

/-- The interfaces that `uecho_net_gethostinterfaces` puts into the list — src/uecho/net/interface_function.c, one for each address; with
`uecho_net_interface_new`, src/uecho/net/interface.c:22-39. -/
def ifsNew : List String → H (List HIf)
  | [] => pure []
  | a :: as => do
      let p ← malloc
      let n ← strNew
      let s ← strNew
      let k ← strNew
      let n ← strSetValue n (some "if")
      let s ← strSetValue s (some a)
      let k ← strSetValue k (some "")
      let l ← ifsNew as
      return ⟨p, n, s, k⟩ :: l

/-- `uecho_net_interfacelist_clear`, with `uecho_net_interface_delete` — src/uecho/net/interface.c:45-55. -/
def ifsClear : List HIf → H Unit
  | [] => pure ()
  | i :: l => do
      use i.self
      strDelete i.name
      strDelete i.addr
      strDelete i.mask
      free i.self
      ifsClear l

/-- The loop of `uecho_udp_serverlist_open` — src/uecho/frame/udp_server_list.c:66-80, and of mcast_server_list.c. -/
def openEach (e : Env) (mcast : Bool) : List HIf → List HSrv → H (Bool × List HSrv)
  | [], l => pure (true, l)
  | i :: is, l => do
      let s ← srvNew
      use i.self
      let _ ← strRead i.addr
      let r ← srvOpen e mcast s ((i.addr.val.map (·.2)).getD "")
      if r.1 then do
        touch (l.map HSrv.self)
        openEach e mcast is (l ++ [r.2])
      else if mcast then do
        mcastDelete r.2
        return (false, l)
      else do
        srvDelete r.2
        return (false, l)

/-- `uecho_udp_serverlist_open` — src/uecho/frame/udp_server_list.c:48-90, and mcast_server_list.c. -/
def slOpen (e : Env) (mcast : Bool) (l : List HSrv) : H (Bool × List HSrv) := do
  let l ← eachSrv srvClose l
  let hdr ← malloc
  let as ← askIfs e
  let is ← ifsNew as
  if as.isEmpty then do
    ifsClear is
    free hdr
    return (false, l)
  else do
    let r ← openEach e mcast is l
    use hdr
    ifsClear is
    free hdr
    if r.1 then pure r
    else do
      let l ← eachSrv srvClose r.2
      return (false, l)

/-- `uEchoServer` — src/uecho/frame/server.h. `udpOn`: the option that enables the UDP servers. -/
structure HServer where
  self : Nat
  ulist : Nat
  udp : List HSrv
  mlist : Nat
  mcast : List HSrv
  mgr : Nat
  olist : Nat
  obs : List Nat
  udpOn : Bool
deriving DecidableEq, Repr

/-- `uecho_server_new` — src/uecho/frame/server.c:17-33. -/
def serverNew : H HServer := do
  let a ← malloc
  let u ← malloc
  let c ← malloc
  let m ← malloc
  let l ← malloc
  return ⟨a, u, [], c, [], m, l, [], true⟩

/-- `uecho_server_addobserver` — src/uecho/frame/server.c:234-237. -/
def serverAddObserver (s : HServer) : H HServer := do
  touch (s.self :: s.mgr :: s.olist :: s.obs)
  let a ← malloc
  return { s with obs := s.obs ++ [a] }

/-- `uecho_server_delete` — src/uecho/frame/server.c:39-51, with `uecho_udp_serverlist_delete`, src/uecho/frame/udp_server_list.c:35-42, and
`uecho_mcast_serverlist_delete`. -/
def serverDelete (s : HServer) : H Unit := do
  touch [s.self, s.ulist]
  let u ← eachSrv srvClose s.udp
  let u ← eachSrv srvStop u
  srvsClear s.ulist u
  free s.ulist
  use s.mlist
  let c ← eachSrv srvClose s.mcast
  let c ← eachSrv srvStop c
  mcastsClear s.mlist c
  free s.mlist
  mgrDelete s.mgr s.olist s.obs
  free s.self

/-- `uecho_server_stop` — src/uecho/frame/server.c:126-144: both lists are cleared with the function for UDP servers. -/
def serverStop (s : HServer) : H HServer := do
  touch [s.self, s.mlist]
  let c ← eachSrv srvClose s.mcast
  let c ← eachSrv srvStop c
  srvsClear s.mlist c
  use s.ulist
  let u ← eachSrv srvClose s.udp
  let u ← eachSrv srvStop u
  srvsClear s.ulist u
  return { s with udp := [], mcast := [] }

/-- `uecho_udp_server_addobserver` on one server — src/uecho/frame/udp_server.c:130-133. -/
def srvAddObserver (s : HSrv) : H HSrv := do
  touch (s.self :: s.mgr :: s.olist :: s.obs)
  let a ← malloc
  return { s with obs := s.obs ++ [a] }

/-- The loop over the observers — src/uecho/frame/server.c:95-108. -/
def giveObservers : List Nat → List HSrv → List HSrv → H (List HSrv × List HSrv)
  | [], u, c => pure (u, c)
  | a :: as, u, c => do
      use a
      let u ← eachSrv srvAddObserver u
      let c ← eachSrv srvAddObserver c
      giveObservers as u c

/-- The UDP servers, if they are enabled. -/
def openUdp (e : Env) (s : HServer) : H (Bool × List HSrv) :=
  if s.udpOn then slOpen e false s.udp else pure (true, s.udp)

/-- `uecho_udp_serverlist_start` — src/uecho/frame/udp_server_list.c:113-126. -/
def slStart (e : Env) (l : List HSrv) : H (Bool × List HSrv) := do
  let l ← eachSrv srvStop l
  eachStart e l

/-- The UDP servers, if they are enabled. -/
def startUdp (e : Env) (on : Bool) (l : List HSrv) : H (Bool × List HSrv) :=
  if on then slStart e l else pure (true, l)

/-- `uecho_server_start` — src/uecho/frame/server.c:75-120. -/
def serverStart (e : Env) (s : HServer) : H HServer := do
  let s ← serverStop s
  let rm ← slOpen e true s.mcast
  let ru ← openUdp e s
  touch (s.self :: s.ulist :: s.mlist :: s.mgr :: s.olist :: s.obs)
  let q ← giveObservers s.obs ru.2 rm.2
  let sm ← slStart e q.2
  let su ← startUdp e s.udpOn q.1
  if rm.1 && ru.1 && sm.1 && su.1 then pure { s with udp := su.2, mcast := sm.2 }
  else serverStop { s with udp := su.2, mcast := sm.2 }

/-- Sending on the socket of a server, if it has one. -/
def sendOn (e : Env) (s : HSrv) : H Bool := do
  use s.self
  match s.sock with
  | none => pure false
  | some k => sockSend e k

/-- `uecho_mcast_serverlist_post` — src/uecho/frame/mcast_server_list.c:158-170. -/
def postAll (e : Env) : List HSrv → H Bool
  | [] => pure true
  | s :: l => do
      let a ← sendOn e s
      let b ← postAll e l
      return a && b

/-- `uecho_server_sendto` — src/uecho/frame/server.c:186-198: a socket for this message only. `uecho_socket_sendto` opens it and closes it. -/
def sendOnce (e : Env) : H Bool := do
  let k ← sockNew
  use k.self
  let opened ← coin e
  let k ← sockClose { k with bound := opened }
  sockDelete k
  coin e

/-- `uecho_server_postannounce` — src/uecho/frame/server.c:204-213. -/
def postAnnounce (e : Env) (s : HServer) : H Bool := do
  touch [s.self, s.mlist]
  let ok ← postAll e s.mcast
  if ok then pure true else sendOnce e

/-- `uecho_udp_serverlist_sendto` — src/uecho/frame/udp_server_list.c:178-193: the first server that has a socket. -/
def sendFirst (e : Env) : List HSrv → H Bool
  | [] => pure false
  | s :: l => if s.sock.isSome then sendOn e s else do
      use s.self
      sendFirst e l

/-- `uecho_server_postresponse` — src/uecho/frame/server.c:219-228. -/
def postResponse (e : Env) (s : HServer) : H Bool := do
  touch [s.self, s.ulist]
  let ok ← sendFirst e s.udp
  if ok then pure true else sendOnce e

/-- The loop of `uecho_udp_serverlist_isboundaddress` — src/uecho/frame/udp_server_list.c:158-172. -/
def readAddrs : List HSrv → H Unit
  | [] => pure ()
  | s :: l => do
      use s.self
      match s.sock with
      | none => readAddrs l
      | some k => do
          use k.self
          let _ ← strRead k.addr
          readAddrs l

/-- Whether a server of the list is bound to the address. -/
def isBoundTo (l : List HSrv) (addr : String) : Bool :=
  l.any fun s => match s.sock with
    | none => false
    | some k => k.addr.val.map (·.2) == some addr

/-! ### node.c -/

/-- `uEchoNode` — src/uecho/_node.h. A class is its block and its code. -/
structure HNode where
  self : Nat
  mutex : Nat
  clist : Nat
  classes : List (Nat × Byte × Byte)
  olist : Nat
  objs : List HObj
  server : HServer
  addr : HStr
deriving DecidableEq, Repr

/-- The object has the code. -/
def HObj.is (o : HObj) (code : Byte × Byte × Byte) : Bool := o.grp == code.1 && o.cls == code.2.1 && o.ins == code.2.2

/-- The code of the node profile object. -/
def profileCode : Byte × Byte × Byte := (0x0E, 0xF0, 0x01)

/-- Walking along the object list: `uecho_objectlist_getbycode` — src/uecho/object_list.c:48-62. -/
def touchObjs (n : HNode) : H Unit := touch (n.self :: n.olist :: n.objs.map HObj.self)

/-- `uecho_node_announcemessage` — src/uecho/node.c:481-496. -/
def announceMessage (e : Env) (n : HNode) (m : HMsg) : H (HMsg × Bool) := do
  use m.self
  touchObjs n
  if n.objs.any (fun o => o.is profileCode) then do
    let m ← msgGetBytes m
    let ok ← postAnnounce e n.server
    return (m, ok)
  else pure (m, false)

/-- `uecho_node_announceproperty` — src/uecho/node.c:523-545. -/
def announceProperty (e : Env) (n : HNode) (o : HObj) (p : HProp) : H Bool := do
  let m ← msgNew
  use o.self
  let c ← propCopy p
  let m ← msgAdd m c
  let r ← announceMessage e n m
  msgDelete r.1
  return r.2

/-- The announcer of an object of a node, given the objects before and after it. -/
def annIn (e : Env) (n : HNode) (pre post : List HObj) : Announcer := fun o p => do
  let _ ← announceProperty e { n with objs := pre ++ o :: post } o p
  return ()

/-- `realloc`, a number of times: the temporary lists of src/uecho/std/node_profile_class.c:283-325. -/
def reallocs : Nat → Nat → H Nat
  | 0, t => pure t
  | k + 1, t => do
      let t ← realloc (some (t, ()))
      use t
      reallocs k t

/-- The bytes of the classes that are listed. -/
def classBytes (l : List (Nat × Byte × Byte)) : List Byte := ((l.filter fun c => c.2.1 != 0x0E).take 8).flatMap fun c => [c.2.1, c.2.2]

/-- The bytes of the instances that are listed. -/
def instanceBytes (l : List HObj) : List Byte := ((l.filter fun o => o.grp != 0x0E).take 84).flatMap fun o => [o.grp, o.cls, o.ins]

/-- `uecho_nodeprofile_updateinstanceproperties` — src/uecho/std/node_profile_class.c:265-330, on the profile object between the others. The
counts of the lists are not computed. -/
def updateInstances (e : Env) (n : HNode) (pre : List HObj) (o : HObj) (post : List HObj) : H HObj := do
  let t ← malloc
  touch (n.self :: n.clist :: n.classes.map (·.1))
  let t ← reallocs (n.classes.filter fun c => c.2.1 != 0x0E).length t
  let o ← objSetInteger (annIn e n pre post) o 0xD4 (BitVec.ofNat 32 n.classes.length) 2
  use t
  let o ← objSetData (annIn e n pre post) o 0xD7 (0 :: classBytes n.classes)
  free t
  let t ← malloc
  touch (n.self :: n.olist :: (pre ++ o :: post).map HObj.self)
  let t ← reallocs ((pre ++ o :: post).filter fun x => x.grp != 0x0E).length t
  let o ← objSetInteger (annIn e n pre post) o 0xD3 (BitVec.ofNat 32 (pre ++ post).length) 3
  use t
  let o ← objSetData (annIn e n pre post) o 0xD6 (0 :: instanceBytes (pre ++ post))
  let o ← objSetData (annIn e n pre post) o 0xD5 (0 :: instanceBytes (pre ++ post))
  free t
  return o

/-- `uecho_classlist_set` — src/uecho/class_list.c:67-87. -/
def classSet (n : HNode) (g c : Byte) : H HNode := do
  touch (n.clist :: n.classes.map (·.1))
  if n.classes.any (fun x => x.2.1 == g && x.2.2 == c) then pure n
  else do
    let a ← malloc
    return { n with classes := n.classes ++ [(a, g, c)] }

/-- `uecho_node_updatenodeprofileclass` — src/uecho/node.c:298-310. -/
def updateProfile (e : Env) (n : HNode) : H HNode := do
  touchObjs n
  match splitBy (fun o => o.is profileCode) n.objs with
  | none => pure n
  | some (pre, o, post) => do
      let o ← updateInstances e n pre o post
      return { n with objs := pre ++ o :: post }

/-- `uecho_node_addobject` — src/uecho/node.c:340-364. An object that is refused stays with the caller. -/
def nodeAdd (e : Env) (n : HNode) (o : HObj) : H (HNode × Option HObj) := do
  use o.self
  touchObjs n
  if n.objs.any (fun x => x.is (o.grp, o.cls, o.ins)) then pure (n, some o)
  else do
    let n ← classSet { n with objs := n.objs ++ [o] } o.grp o.cls
    let n ← updateProfile e n
    return (n, none)

/-- `uecho_node_new` — src/uecho/node.c:20-50. -/
def nodeNew (e : Env) (db : HDb) (id : List Byte) : H HNode := do
  let a ← malloc
  let m ← malloc
  let c ← malloc
  let l ← malloc
  let s ← serverNew
  let s ← serverAddObserver s
  let t ← strNew
  let o ← nodeProfileNew db id
  let r ← nodeAdd e ⟨a, m, c, [], l, [], s, t⟩ o
  return r.1

/-- `uecho_objectlist_clear`: `uecho_list_clear` with `uecho_object_delete`. -/
def objsClear (hdr : Nat) : List HObj → H Unit
  | [] => use hdr
  | o :: l => do
      touch (hdr :: o.self :: l.map HObj.self)
      objDelete o
      objsClear hdr l

/-- The first half of `uecho_node_delete` — src/uecho/node.c:56-65: everything before the threads of the server are stopped. -/
def nodeDrop (n : HNode) : H Unit := do
  use n.self
  free n.mutex
  touch (n.clist :: n.classes.map (·.1))
  freeAll (n.classes.map (·.1))
  free n.clist
  objsClear n.olist n.objs
  free n.olist

/-- `uecho_node_delete` — src/uecho/node.c:56-72. -/
def nodeDelete (n : HNode) : H Unit := do
  nodeDrop n
  serverDelete n.server
  strDelete n.addr
  free n.self

/-- `uecho_node_clear` — src/uecho/node.c:78-87. -/
def nodeClear (n : HNode) : H HNode := do
  touch (n.self :: n.clist :: n.classes.map (·.1))
  freeAll (n.classes.map (·.1))
  objsClear n.olist n.objs
  return { n with classes := [], objs := [] }

/-- `uecho_node_setaddress` — src/uecho/node.c:151-156. -/
def nodeSetAddr (n : HNode) (v : Option String) : H HNode := do
  use n.self
  let t ← strSetValue n.addr v
  return { n with addr := t }

/-- `uecho_node_setobject` — src/uecho/node.c:316-334. -/
def nodeSetObject (e : Env) (db : HDb) (n : HNode) (code : Byte × Byte × Byte) : H HNode := do
  touchObjs n
  if n.objs.any (fun o => o.is code) then pure n
  else do
    let o ← objNew
    let o ← objSetCode silent db o code.1 code.2.1 code.2.2
    let r ← nodeAdd e n o
    return r.1

/-- `uecho_node_announce` — src/uecho/node.c:551-565. -/
def nodeAnnounce (e : Env) (n : HNode) : H Bool := do
  touchObjs n
  match n.objs.find? (fun o => o.is profileCode) with
  | none => pure false
  | some o => do
      touch (o.plist :: o.props.map HProp.self)
      match o.props.find? (fun p => p.code == 0xD5) with
      | none => pure false
      | some p => announceProperty e n o p

/-- `uecho_node_start` — src/uecho/node.c:370-380. -/
def nodeStart (e : Env) (n : HNode) : H HNode := do
  use n.self
  let s ← serverStart e n.server
  let _ ← nodeAnnounce e { n with server := s }
  return { n with server := s }

/-- `uecho_node_stop` — src/uecho/node.c:386-396. -/
def nodeStop (n : HNode) : H HNode := do
  use n.self
  let s ← serverStop n.server
  return { n with server := s }

/-- A call on one object of a node. -/
def inNode (e : Env) (n : HNode) (code : Byte × Byte × Byte) (f : Announcer → HObj → H HObj) : H HNode := do
  touchObjs n
  match splitBy (fun o => o.is code) n.objs with
  | none => pure n
  | some (pre, o, post) => do
      let o ← f (annIn e n pre post) o
      return { n with objs := pre ++ o :: post }

/-! ### node_listener.c -/

/-- What a handler does: it sets the data of properties that the object has. -/
def handler (ann : Announcer) : List (Byte × List Byte) → HObj → H HObj
  | [], o => pure o
  | x :: l, o =>
      if o.props.any (fun p => p.code == x.1) then do
        let o ← objSetData ann o x.1 x.2
        handler ann l o
      else handler ann l o

/-- The handlers for a request: `uecho_object_notifyrequestproperty` — src/uecho/node_listener.c:35-51. What a handler writes and what it says
is the answer of the environment. -/
def notify (e : Env) (ann : Announcer) (esv code : Byte) : List HObs → HObj → H (Bool × HObj)
  | [], o => pure (true, o)
  | x :: l, o => do
      use x.self
      if x.esv == esv && x.code == code then do
        let w ← askWrites e
        let o ← handler ann w o
        let a ← coin e
        use x.self
        let r ← notify e ann esv code l o
        return (a && r.1, r.2)
      else notify e ann esv code l o

/-- One round of the same loop with a handler that calls the library on the object: after the handler the link to the next one is read. -/
def notifyOne (x : HObs) (act : HObj → H HObj) (o : HObj) : H HObj := do
  use x.self
  let o ← act o
  use x.self
  return o

/-- The response property when the property is there — src/uecho/node_listener.c:80-104, after the handlers have said `acc`. The write has been made. -/
def responseData (esv : Byte) (acc : Bool) (req : HProp) (p : HProp) (res : HProp) : H HProp :=
  if acc then
    if esv == Esv.readRequest || esv == Esv.notificationRequest || esv == Esv.notificationRR then do
      let d ← propRead p
      propSetData res d
    else pure res
  else if esv == Esv.writeRequestRR then do
    let d ← propRead req
    propSetData res d
  else pure res

/-- The write of an accepted request — src/uecho/node_listener.c:84-89. -/
def writeData (ann : Announcer) (o : HObj) (esv : Byte) (acc : Bool) (req : HProp) (pre : List HProp) (p : HProp) (post : List HProp) : H HProp :=
  if acc && (esv == Esv.writeRequest || esv == Esv.writeRequestRR) then do
    let d ← propRead req
    setDataAt ann o pre p post d
  else pure p

/-- The loop of `uecho_node_handlerequestmessage` — src/uecho/node_listener.c:59-111. The pointer to the property is kept while the handlers run; here it is
looked for again, and is the first one with the code. -/
def handleProps (e : Env) (ann : Announcer) (esv : Byte) (add : HMsg → HProp → H HMsg) : List HProp → HObj → HMsg → H (HObj × HMsg)
  | [], o, m => pure (o, m)
  | req :: reqs, o, m => do
      use req.self
      let res ← propNew
      let r ← objFind o req.code
      match r with
      | some _ => do
          touch [o.mgr, o.olist]
          let r ← notify e ann esv req.code o.obs o
          match splitBy (fun q => q.code == req.code) r.2.props with
          | some (pre, p, post) => do
              let p ← writeData ann r.2 esv r.1 req pre p post
              let res ← responseData esv r.1 req p { res with code := req.code }
              let m ← add m res
              handleProps e ann esv add reqs { r.2 with props := pre ++ p :: post } m
          | none => undef
      | none => do
          let res ← responseData esv false req req { res with code := req.code }
          let m ← add m res
          handleProps e ann esv add reqs o m

/-- The requests of a message — src/uecho/node_listener.c:164-170. -/
def handleSecs (e : Env) (ann : Announcer) (m : HMsg) (o : HObj) (res : HMsg) : H (HObj × HMsg) :=
  if m.hd.isReadWrite then
    if m.set.cnt.toNat ≤ (slotsOf m.set.arr).length ∧ m.get.cnt.toNat ≤ (slotsOf m.get.arr).length then do
      let r ← handleProps e ann Esv.writeRequestRR msgAddSet ((slotsOf m.set.arr).take m.set.cnt.toNat) o res
      handleProps e ann Esv.readRequest msgAddGet ((slotsOf m.get.arr).take m.get.cnt.toNat) r.1 r.2
    else undef
  else
    if m.plain.cnt.toNat ≤ (slotsOf m.plain.arr).length then
      handleProps e ann m.hd.esv msgAdd ((slotsOf m.plain.arr).take m.plain.cnt.toNat) o res
    else undef

/-- The response, if there is one — src/uecho/node_listener.c:176-241. Whether, and which (see `Model/NodeListener`), is the answer of the environment here. -/
def respond (e : Env) (n : HNode) (res : HMsg) : H HMsg := do
  let needed ← coin e
  if needed then do
    let esv ← coin e
    let res ← msgGetBytes { res with hd := { res.hd with esv := if esv then Esv.notification else Esv.readResponse } }
    use n.self
    if esv then do
      let _ ← postAnnounce e n.server
      return res
    else do
      let _ ← postResponse e n.server
      return res
  else pure res

/-- `uecho_node_servermessagelistener` — src/uecho/node_listener.c:117-241. -/
def nodeHandle (e : Env) (n : HNode) (m : HMsg) : H HNode := do
  use m.self
  touchObjs n
  match splitBy (fun o => o.is m.hd.deoj) n.objs with
  | none => pure n
  | some (pre, o, post) =>
      if Esv.isRequest m.hd.esv then do
        let res ← msgNew
        let r ← handleSecs e (annIn e n pre post) m o res
        useOpt m.fromA
        let res ← respond e { n with objs := pre ++ r.1 :: post } r.2
        msgDelete res
        return { n with objs := pre ++ r.1 :: post }
      else pure n

/-! ### Datagrams -/

/-- `uEchoDatagramPacket` — src/uecho/net/socket.h. -/
structure HPkt where
  self : Nat
  loc : HStr
  rem : HStr
  data : Option (Nat × List Byte)
deriving DecidableEq, Repr

/-- The packet data: `uecho_socket_datagram_packet_setdata` — src/uecho/net/datagram_packet.c:59-77. -/
def pktData (d : List Byte) : H (Option (Nat × List Byte)) :=
  if d.isEmpty then pure none
  else do
    let a ← malloc
    return some (a, d)

/-- `uecho_net_selectaddr` — src/uecho/net/interface_function.c:404-470: a new string, or NULL. -/
def selectAddr (e : Env) : H (Option (Nat × String)) := do
  let h ← askHere e
  match h with
  | none => pure none
  | some s => do
      let a ← malloc
      return some (a, s)

/-- `uecho_socket_datagram_packet_new` and `uecho_socket_recv` — src/uecho/net/datagram_packet.c:17-36, src/uecho/net/socket.c:580-617: a datagram
`d` from the address `src`. -/
def recvPkt (e : Env) (d : List Byte) (src : String) : H HPkt := do
  let a ← malloc
  let l ← strNew
  let r ← strNew
  if d.isEmpty then pure ⟨a, l, r, none⟩
  else do
    let p ← pktData d
    let r ← strSetValue r (some "")
    let r ← strSetValue r (some src)
    let h ← selectAddr e
    let l ← strSetValue l (h.map (·.2))
    freeOpt h
    return ⟨a, l, r, p⟩

/-- `uecho_socket_datagram_packet_delete` — src/uecho/net/datagram_packet.c:42-53. -/
def pktDelete (p : HPkt) : H Unit := do
  use p.self
  freeOpt p.data
  strDelete p.loc
  strDelete p.rem
  free p.self

/-- `uecho_message_parsepacket` — src/uecho/message.c:853-865. -/
def msgParsePkt (m : HMsg) (p : HPkt) : H (Bool × HMsg) := do
  use p.self
  useOpt p.data
  let r ← msgParse m (bytesOf p.data) (bytesOf p.data).length
  if r.1 then do
    let l ← strRead p.loc
    let m ← msgSetSource r.2 l
    let s ← strRead p.rem
    let m ← msgSetSource m s
    return (true, m)
  else pure r

/-- One turn of the receiver loop — src/uecho/frame/udp_server.c:155-182; mcast_server.c the same. The observers are `handle`. -/
def receive {σ : Type} (e : Env) (d : List Byte) (src : String) (s : σ) (handle : σ → HMsg → H σ) : H σ := do
  let p ← recvPkt e d src
  let m ← msgNew
  let r ← msgParsePkt m p
  if r.1 then do
    let s ← handle s r.2
    pktDelete p
    msgDelete r.2
    return s
  else do
    pktDelete p
    msgDelete r.2
    return s

/-! ### controller.c, controller_listener.c -/

/-- `uEchoController` — src/uecho/_controller.h. `post`: the pointers to the messages of a post. -/
structure HCtrl where
  self : Nat
  mutex : Nat
  cond : Nat
  node : HNode
  nlist : Nat
  nodes : List HNode
  post : Option (Nat × Nat)
deriving DecidableEq, Repr

/-- `uecho_controller_new` — src/uecho/controller.c:20-47. -/
def ctrlNew (e : Env) (db : HDb) (id : List Byte) : H HCtrl := do
  let a ← malloc
  let m ← malloc
  let c ← malloc
  let n ← nodeNew e db id
  let l ← malloc
  let s ← serverAddObserver n.server
  return ⟨a, m, c, { n with server := s }, l, [], none⟩

/-- `uecho_nodelist_clear`: `uecho_list_clear` with `uecho_node_delete`. -/
def nodesClear (hdr : Nat) : List HNode → H Unit
  | [] => use hdr
  | n :: l => do
      touch (hdr :: n.self :: l.map HNode.self)
      nodeDelete n
      nodesClear hdr l

/-- `uecho_controller_delete` — src/uecho/controller.c:53-68. -/
def ctrlDelete (c : HCtrl) : H Unit := do
  use c.self
  let n ← nodeStop c.node
  free c.mutex
  free c.cond
  nodeDelete n
  nodesClear c.nlist c.nodes
  free c.nlist
  free c.self

/-- `uecho_controller_start` — src/uecho/controller.c:122-133. -/
def ctrlStart (e : Env) (c : HCtrl) : H HCtrl := do
  use c.self
  nodesClear c.nlist c.nodes
  let n ← nodeStart e c.node
  return { c with node := n, nodes := [] }

/-- `uecho_controller_stop` — src/uecho/controller.c:139-149. -/
def ctrlStop (c : HCtrl) : H HCtrl := do
  use c.self
  let n ← nodeStop c.node
  return { c with node := n }

/-- `uecho_controller_search` — src/uecho/controller.c:525-548. -/
def ctrlSearch (e : Env) (c : HCtrl) : H Unit := do
  let m ← searchNew
  use c.self
  let r ← announceMessage e c.node m
  msgDelete r.1

/-- `uecho_node_isaddress` — src/uecho/node.c:173-187: what is read, … -/
def readAddress (n : HNode) : H Unit := do
  use n.self
  let _ ← strRead n.addr
  touch [n.server.self, n.server.ulist, n.server.mlist]
  readAddrs n.server.udp
  readAddrs n.server.mcast

/-- … and the answer. -/
def HNode.at (n : HNode) (addr : String) : Bool :=
  n.addr.val.map (·.2) == some addr || isBoundTo n.server.udp addr || isBoundTo n.server.mcast addr

/-- Reading the addresses of all nodes. -/
def readAddresses : List HNode → H Unit
  | [] => pure ()
  | n :: l => do
      readAddress n
      readAddresses l

/-- `uecho_controller_getnodebyaddress` — src/uecho/controller.c:212-225. -/
def findNode (c : HCtrl) (addr : String) : H (Option (List HNode × HNode × List HNode)) := do
  touch (c.self :: c.nlist :: c.nodes.map HNode.self)
  readAddresses c.nodes
  return splitBy (fun n => n.at addr) c.nodes

/-- The loop of `uecho_controller_handlesearchmessage` — src/uecho/controller_listener.c:61-68: three bytes for each object. -/
def addListed (e : Env) (db : HDb) : List Byte → HNode → H HNode
  | g :: c :: i :: l, n => do
      let n ← nodeSetObject e db n (g, c, i)
      addListed e db l n
  | _, n => pure n

/-- `uecho_controller_handlesearchmessage` — src/uecho/controller_listener.c:20-82. `id` are random bytes for a new node. -/
def handleSearch (e : Env) (db : HDb) (id : List Byte) (c : HCtrl) (m : HMsg) : H HCtrl :=
  if m.plain.cnt.toNat ≤ (slotsOf m.plain.arr).length then do
    use m.self
    useOpt m.plain.arr
    touch (((slotsOf m.plain.arr).take m.plain.cnt.toNat).map HProp.self)
    match ((slotsOf m.plain.arr).take m.plain.cnt.toNat).find? (fun p => p.code == 0xD6) with
    | none => pure c
    | some p => do
        let d ← propRead p
        let a ← addrRead m.fromA
        match d, a with
        | _ :: l, some a => do
            let r ← findNode c a
            match r with
            | some (pre, n, post) => do
                let n ← addListed e db l n
                return { c with nodes := pre ++ n :: post }
            | none => do
                let n ← nodeNew e db id
                let n ← nodeSetAddr n (some a)
                let n ← addListed e db l n
                return { c with nodes := c.nodes ++ [n] }
        | _, _ => pure c
  else undef

/-- The property of the object for a property of a message — src/uecho/controller_listener.c:103-109: it is made if it is missing. -/
def ensureProp (ann : Announcer) (o : HObj) (code : Byte) : H HObj := do
  let r ← objFind o code
  if r.isSome then pure o else objSetProperty ann o code 0

/-- The loop of `uecho_controller_updateopcpropertydata` — src/uecho/controller_listener.c:87-123. -/
def updateProps (ann : Announcer) : List HProp → HObj → H HObj
  | [], o => pure o
  | q :: qs, o => do
      use q.self
      let o ← ensureProp ann o q.code
      let r ← objFind o q.code
      match r with
      | none => updateProps ann qs o
      | some (pre, p, post) => do
          let d ← propRead q
          let d' ← propRead p
          if d == d' then updateProps ann qs o
          else do
            let p ← setDataAt ann o pre p post d
            updateProps ann qs { o with props := pre ++ p :: post }

/-- `uecho_controller_updatenodebyresponsemessage` — src/uecho/controller_listener.c:125-143. -/
def updateNode (e : Env) (n : HNode) (m : HMsg) : H HNode :=
  if m.hd.isReadWrite then
    if m.get.cnt.toNat ≤ (slotsOf m.get.arr).length then
      inNode e n m.hd.seoj (fun ann o => updateProps ann ((slotsOf m.get.arr).take m.get.cnt.toNat) o)
    else undef
  else
    if m.plain.cnt.toNat ≤ (slotsOf m.plain.arr).length then
      inNode e n m.hd.seoj (fun ann o => updateProps ann ((slotsOf m.plain.arr).take m.plain.cnt.toNat) o)
    else undef

/-- `uecho_controller_handlenodemessage` — src/uecho/controller_listener.c:162-184, for a message for an object of the controller — lines 209-214.
What the listener of the application is told: see `Model/Controller`. -/
def handleNode (e : Env) (c : HCtrl) (m : HMsg) : H HCtrl := do
  use c.self
  touchObjs c.node
  if c.node.objs.any (fun o => o.is m.hd.deoj) then do
    let a ← addrRead m.fromA
    let r ← findNode c (a.getD "")
    match r with
    | none => pure c
    | some (pre, n, post) =>
        if Esv.isNotification m.hd.esv || Esv.isReadResponse m.hd.esv || Esv.isNotifyResponse m.hd.esv then do
          let n ← updateNode e n m
          return { c with nodes := pre ++ n :: post }
        else pure c
  else pure c

/-- `uecho_message_issearchresponse` — src/uecho/message_search.c:66-83: what is read, and the answer. -/
def isSearch (m : HMsg) : H Bool := do
  use m.self
  useOpt m.plain.arr
  touch ((slotsOf m.plain.arr).map HProp.self)
  lift m.val.isSearchResponse

/-- `uecho_controller_servermessagelistener` — src/uecho/controller_listener.c:190-216, when no post is waiting. -/
def ctrlHandle (e : Env) (db : HDb) (id : List Byte) (c : HCtrl) (m : HMsg) : H HCtrl := do
  use c.self
  let search ← isSearch m
  if search then handleSearch e db id c m else handleNode e c m

/-- The observers of the server of a controller: the node first — src/uecho/node.c:38, src/uecho/controller.c:36. The response of a waiting
post: `uecho_controller_handlepostresponse`, src/uecho/controller_listener.c:149-156; `s.2` are the messages of the post, as long as the
application has not deleted one of them (the pointers to deleted ones lead nowhere). Two transaction numbers are equal on a big endian machine if
they are on a little endian one. -/
def ctrlObserve (e : Env) (db : HDb) (id : List Byte) (s : HCtrl × Option (HMsg × HMsg)) (m : HMsg) : H (HCtrl × Option (HMsg × HMsg)) := do
  let n ← nodeHandle e s.1.node m
  match s.2 with
  | none =>
      match s.1.post with
      | none => do
          let c ← ctrlHandle e db id { s.1 with node := n } m
          return (c, none)
      | some p => do
          use p.1
          use p.2
          let c ← ctrlHandle e db id { s.1 with node := n } m
          return (c, none)
  | some (req, res) => do
      touch [s.1.self, req.self, res.self]
      if Message.isResponseMessage .little req.val m.val then do
        let res ← msgSet res m
        use s.1.cond
        let c ← ctrlHandle e db id { s.1 with node := n } m
        return (c, some (req, res))
      else do
        let c ← ctrlHandle e db id { s.1 with node := n } m
        return (c, some (req, res))

/-- A datagram at a controller. -/
def ctrlReceive (e : Env) (db : HDb) (id : List Byte) (d : List Byte) (src : String) (s : HCtrl × Option (HMsg × HMsg)) :
    H (HCtrl × Option (HMsg × HMsg)) :=
  receive e d src s (ctrlObserve e db id)

/-- The datagrams that arrive while a post is waiting. -/
def ctrlWait (e : Env) (db : HDb) (id : List Byte) : List (List Byte × String) → HCtrl × Option (HMsg × HMsg) →
    H (HCtrl × Option (HMsg × HMsg))
  | [], s => pure s
  | x :: l, s => do
      let s ← ctrlReceive e db id x.1 x.2 s
      ctrlWait e db id l s

/-- `uecho_node_sendmessage` — src/uecho/node.c:502-517: to a node with the address `dst`. -/
def sendMessage (e : Env) (n : HNode) (dst : HStr) (m : HMsg) : H (HMsg × Bool) := do
  use m.self
  touchObjs n
  if n.objs.any (fun o => o.is profileCode) then do
    let a ← strRead dst
    let m ← msgGetBytes m
    if a.isNone then pure (m, false)
    else do
      let ok ← postResponse e n.server
      return (m, ok)
  else pure (m, false)

/-- `uecho_controller_postmessage` — src/uecho/controller.c:482-519, to the node of the controller that has the address; `l` arrives during the wait.
A post that could not be sent returns with the pointers to the messages still stored. -/
def ctrlPost (e : Env) (db : HDb) (id : List Byte) (c : HCtrl) (dst : String) (req res : HMsg) (l : List (List Byte × String)) :
    H (HCtrl × HMsg × HMsg) := do
  touch (c.self :: c.mutex :: c.nlist :: c.nodes.map HNode.self)
  match splitBy (fun n => n.at dst) c.nodes with
  | none => pure (c, req, res)
  | some (_, n, _) => do
      use n.self
      let r ← sendMessage e c.node n.addr req
      if r.2 then do
        let s ← ctrlWait e db id l ({ c with post := some (req.self, res.self) }, some (r.1, res))
        match s.2 with
        | some (req, res) => pure ({ s.1 with post := none }, req, res)
        | none => undef
      else pure ({ c with post := some (req.self, res.self) }, r.1, res)

end Heap
end Uecho
