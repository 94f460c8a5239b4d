import Verif.Model.Oom
import Verif.Model.HeapNode
/-!
# Objects, nodes and controllers when memory runs out

As in `Model/Oom`: `malloc` is a request whose result is checked, `mallocArray` one whose result is not. The object is in no node, so that
nothing is announced, and it has no code, so that the standard database is not asked. The contents of the caches of the property maps are
left out, as in `Model/HeapNode`.
-/
namespace Uecho
namespace Oom
open Heap (Mem H HStr HObs splitBy)

/-- `uEchoObject` — src/uecho/_object.h: `plist` is the header of the property list, `mgr` the observer manager with the header of its list. -/
structure OObj where
  self : Nat
  name : Option HStr
  plist : Option Nat
  props : List OProp
  mgr : Option (Nat × Option Nat)
  obs : List HObs
  anno : Option (Nat × Unit)
  set : Option (Nat × Unit)
  get : Option (Nat × Unit)
  annoSize : Nat
  setSize : Nat
  getSize : Nat
deriving DecidableEq, Repr

/-- An access to each. -/
def touch (l : List Nat) : O Unit := onMem (Heap.touch l)

/-- `uecho_object_clearpropertymapcaches` — src/uecho/std/object_super_class.c:94-116. `getSize` keeps its value. -/
def objClearCaches (o : OObj) : O OObj := do
  use o.self
  freeOpt o.anno
  freeOpt o.set
  freeOpt o.get
  return { o with anno := none, set := none, get := none, annoSize := 0, setSize := 0 }

/-- `uecho_propertylist_clear`: `uecho_list_clear` with `uecho_property_delete` — src/uecho/util/list.c:232-254. -/
def plClear (hdr : Nat) : List OProp → O Unit
  | [] => use hdr
  | p :: ps => do
      touch (hdr :: p.self :: ps.map OProp.self)
      propDelete p
      plClear hdr ps

/-- `uecho_object_property_observer_manager_new` — src/uecho/frame/object_property_observer_manager.c:17-28: the list is not checked. -/
def mgrNew : O (Option (Nat × Option Nat)) := do
  match ← malloc with
  | none => return none
  | some m => do
      let l ← mallocArray
      return some (m, l)

/-- `uecho_object_property_observerlist_delete` — src/uecho/frame/object_property_observer_list.c:34-39; NULL is accepted. -/
def olDelete (l : Option Nat) (obs : List HObs) : O Unit :=
  match l with
  | none => pure ()
  | some l => do
      touch (l :: obs.map HObs.self)
      onMem (Heap.freeAll (obs.map HObs.self))
      free l

/-- `uecho_object_property_observer_manager_delete` — src/uecho/frame/object_property_observer_manager.c:34-39, unless the pointer is NULL. -/
def mgrDelete (m : Option (Nat × Option Nat)) (obs : List HObs) : O Unit :=
  match m with
  | none => pure ()
  | some m => do
      use m.1
      olDelete m.2 obs
      free m.1

/-- `uecho_string_delete` — src/uecho/util/strings.c:42-48; NULL is accepted. -/
def strDelete (s : Option HStr) : O Unit :=
  match s with
  | none => pure ()
  | some s => onMem (Heap.strDelete s)

/-- `uecho_propertylist_delete` — src/uecho/property_list.c:34-42; NULL is accepted. -/
def plDelete (l : Option Nat) (ps : List OProp) : O Unit :=
  match l with
  | none => pure ()
  | some l => do
      plClear l ps
      free l

/-- `uecho_object_delete` — src/uecho/object.c:75-99. -/
def objDelete (o : OObj) : O Unit := do
  use o.self
  strDelete o.name
  let o ← objClearCaches o
  plDelete o.plist o.props
  mgrDelete o.mgr o.obs
  free o.self

/-- `uecho_object_new` — src/uecho/object.c:26-69. -/
def objNew : O (Option OObj) := do
  match ← malloc with
  | none => return none
  | some a => do
      let s ← strNew
      let p ← malloc
      let m ← mgrNew
      let o : OObj := ⟨a, s, p, [], m, [], none, none, none, 0, 0, 0⟩
      if s.isNone || p.isNone || m.isNone then do
        objDelete o
        return none
      else return some o

/-- `uecho_propertylist_getbycode` — src/uecho/property_list.c:67-86: a property that is missing is made and added at the end. -/
def objGetByCode (o : OObj) (code : Byte) : O (Option (List OProp × OProp × List OProp)) := do
  use o.self
  match o.plist with
  | none => return none
  | some l => do
      touch (l :: o.props.map OProp.self)
      match splitBy (fun q => q.code == code) o.props with
      | some r => return some r
      | none => do
          match ← propNew with
          | none => return none
          | some p => return some (o.props, { p with code := code }, [])

/-- `uecho_object_setpropertydata` — src/uecho/object.c:439-445, with `uecho_propertylist_setdata`, src/uecho/property_list.c:133-147:
whether the data could be set is not asked. -/
def objSetData (o : OObj) (code : Byte) (d : List Byte) : O (Bool × OObj) := do
  match ← objGetByCode o code with
  | none => return (false, o)
  | some r => do
      let q ← propSetData r.2.1 d
      return (true, { o with props := r.1 ++ q.2 :: r.2.2 })

/-- `uecho_object_setpropertyintegerdata` — src/uecho/object.c:451-457, with `uecho_propertylist_setintegerdata`,
src/uecho/property_list.c:153-165. -/
def objSetInteger (o : OObj) (code : Byte) (v : CInt) (size : Nat) : O (Bool × OObj) := do
  match ← objGetByCode o code with
  | none => return (false, o)
  | some r => do
      let q ← propSetInteger r.2.1 v size
      return (q.1, { o with props := r.1 ++ q.2 :: r.2.2 })

/-- `uecho_propertylist_set` — src/uecho/property_list.c:112-127: whether the data could be set is not asked. -/
def objSet (o : OObj) (code : Byte) (attr : CInt) (d : List Byte) : O (Bool × OObj) := do
  match ← objGetByCode o code with
  | none => return (false, o)
  | some r => do
      let q ← propSetData r.2.1 d
      use q.2.self
      return (true, { o with props := r.1 ++ { q.2 with attr := attr } :: r.2.2 })

/-- `uecho_object_setpropertyattribute` — src/uecho/object.c:475-481, with `uecho_propertylist_setattribute`, src/uecho/property_list.c:189-203. -/
def objSetAttr (o : OObj) (code : Byte) (attr : CInt) : O (Bool × OObj) := do
  match ← objGetByCode o code with
  | none => return (false, o)
  | some r => do
      use r.2.1.self
      return (true, { o with props := r.1 ++ { r.2.1 with attr := attr } :: r.2.2 })

/-- `uecho_object_getpropertydata` and `uecho_object_getpropertydatasize` — src/uecho/object.c:567-585, and reading what they say: `none` if
the property is missing and cannot be made. -/
def objRead (o : OObj) (code : Byte) : O (Option (List Byte) × OObj) := do
  match ← objGetByCode o code with
  | none => return (none, o)
  | some r => do
      let d ← propRead r.2.1
      return (some d, { o with props := r.1 ++ r.2.1 :: r.2.2 })

/-- One cache of a property map: `size++`, `realloc` — src/uecho/std/object_super_class.c:54-59: when it is refused, the pointer is NULL, the
size has grown, and the old block is forgotten. -/
def cachePush (b : Bool) (c : Option (Nat × Unit) × Nat) : O (Option (Nat × Unit) × Nat) :=
  if b then do
    match ← mallocArray with
    | none => return (none, c.2 + 1)
    | some a => do
        freeOpt c.1
        use a
        return (some (a, ()), c.2 + 1)
  else pure c

/-- The attribute as the value model has it. -/
def OProp.val (p : OProp) : Property := { Property.new with code := p.code, attr := p.attr }

/-- The loop of `uecho_object_updatepropertymaps` — src/uecho/std/object_super_class.c:52-79. -/
def collect : List OProp → OObj → O OObj
  | [], o => pure o
  | p :: ps, o => do
      use p.self
      let g ← cachePush p.val.isReadable (o.get, o.getSize)
      let s ← cachePush p.val.isWritable (o.set, o.setSize)
      let a ← cachePush p.val.isAnnounceable (o.anno, o.annoSize)
      collect ps { o with get := g.1, getSize := g.2, set := s.1, setSize := s.2, anno := a.1, annoSize := a.2 }

/-- `uecho_object_setpropertymap` — src/uecho/object.c:360-394. Copying from NULL is undefined. The bytes after the first are not computed. -/
def objSetMap (o : OObj) (code : Byte) (c : Option (Nat × Unit)) (size : Nat) : O OObj :=
  if c.isNone && size != 0 then undef
  else if size ≤ 16 then do
    useOpt c
    let r ← objSet o code Attr.read (BitVec.ofNat 8 size :: List.replicate size 0)
    return r.2
  else do
    useOpt c
    let r ← objSetData o code (BitVec.ofNat 8 size :: List.replicate 16 0)
    return r.2

/-- `uecho_object_updatepropertymaps` — src/uecho/std/object_super_class.c:41-88. -/
def objUpdateMaps (o : OObj) : O OObj := do
  let o ← objClearCaches o
  let o ← collect o.props o
  let o ← objSetMap o 0x9F o.get o.getSize
  let o ← objSetMap o 0x9E o.set o.setSize
  objSetMap o 0x9D o.anno o.annoSize

/-- `uecho_object_setproperty` — src/uecho/object.c:415-433. The parent of the property is left out, and so is that the property, which is
there, is looked up again. -/
def objSetProperty (o : OObj) (code : Byte) (attr : CInt) : O (Bool × OObj) := do
  let r ← objSet o code attr []
  if r.1 then do
    let o ← objUpdateMaps r.2
    return (true, o)
  else return (false, r.2)

/-- The handler that is replaced is deleted — src/uecho/frame/object_property_observer_manager.c:49-53. -/
def dropHandler (obs : List HObs) (esv code : Byte) : O (List HObs) :=
  match splitBy (fun x => esv == x.esv && code == x.code) obs with
  | none => pure obs
  | some (pre, x, post) => do
      free x.self
      return pre ++ post

/-- `uecho_object_setpropertyrequesthandler` — src/uecho/object.c:651-657, with `…observer_manager_setobserver`,
src/uecho/frame/object_property_observer_manager.c:45-64: the old handler is deleted first, and what `uecho_list_add` (src/uecho/util/list.c:107-121)
refuses is not deleted. -/
def objSetHandler (o : OObj) (esv code : Byte) : O (Bool × OObj) := do
  use o.self
  match o.mgr with
  | none => undef
  | some (m, none) => do
      use m
      match ← malloc with
      | none => return (false, o)
      | some a => do
          use a
          return (false, o)
  | some (m, some l) => do
      touch (m :: l :: o.obs.map HObs.self)
      let rest ← dropHandler o.obs esv code
      match ← malloc with
      | none => return (false, { o with obs := rest })
      | some a => return (true, { o with obs := rest ++ [⟨a, esv, code⟩] })

/-! ### Nodes and controllers -/

/-- The observer manager of a server: the structure, the header of its list and the observers; the list may be NULL. -/
structure OMgr where
  self : Nat
  list : Option Nat
  obs : List Nat
deriving DecidableEq, Repr

/-- `uEchoServer` — src/uecho/core/server.h. -/
structure OServer where
  self : Nat
  udp : Option Nat
  mcast : Option Nat
  mgr : Option OMgr
deriving DecidableEq, Repr

/-- `uecho_message_observer_manager_new` — src/uecho/frame/message_observer_manager.c:17-28. -/
def msgMgrNew : O (Option OMgr) := do
  match ← malloc with
  | none => return none
  | some a => do
      let l ← malloc
      return some ⟨a, l, []⟩

/-- `uecho_server_new` — src/uecho/frame/server.c:17-33. -/
def serverNew : O (Option OServer) := do
  match ← malloc with
  | none => return none
  | some a => do
      let u ← malloc
      let m ← malloc
      let g ← msgMgrNew
      return some ⟨a, u, m, g⟩

/-- `uecho_server_addobserver` — src/uecho/frame/server.c:234-237, with `uecho_message_observer_manager_addobserver`,
src/uecho/frame/message_observer_manager.c:45-57: neither the server nor its manager is checked. -/
def serverAddObserver (s : Option OServer) : O (Bool × Option OServer) :=
  match s with
  | none => undef
  | some s => do
      use s.self
      match ← malloc with
      | none => return (false, some s)
      | some a =>
          match s.mgr with
          | none => undef
          | some m => do
              use m.self
              match m.list with
              | none => return (false, some s)
              | some l => do
                  use l
                  return (true, some { s with mgr := some { m with obs := m.obs ++ [a] } })

/-- `uEchoNode` — src/uecho/_node.h. -/
structure ONode where
  self : Nat
  mutex : Option Nat
  classes : Option Nat
  objects : Option Nat
  server : Option OServer
  address : Option HStr
  profile : Option OObj
deriving DecidableEq, Repr

/-- `uecho_node_new` — src/uecho/node.c:20-51. How the node profile is made, and added if there is a list, is left open: `prof`. -/
def nodeNew (prof : Option Nat → O (Option OObj)) : O (Option ONode) := do
  match ← malloc with
  | none => return none
  | some a => do
      let m ← malloc
      let c ← malloc
      let l ← malloc
      let s ← serverNew
      let s ← serverAddObserver s
      let ad ← strNew
      let p ← prof l
      return some ⟨a, m, c, l, s.2, ad, p⟩

/-- `uEchoController` — src/uecho/_controller.h. -/
structure OCtrl where
  self : Nat
  mutex : Option Nat
  cond : Option Nat
  node : Option ONode
  nodes : Option Nat
deriving DecidableEq, Repr

/-- `uecho_controller_new` — src/uecho/controller.c:20-48. -/
def ctrlNew (prof : Option Nat → O (Option OObj)) : O (Option OCtrl) := do
  match ← malloc with
  | none => return none
  | some a => do
      let m ← malloc
      let c ← malloc
      let n ← nodeNew prof
      let l ← malloc
      let s ← serverAddObserver (n.bind (·.server))
      return some ⟨a, m, c, n.map (fun n => { n with server := s.2 }), l⟩

end Oom
end Uecho
