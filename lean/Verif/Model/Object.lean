import Verif.Model.PropertyList
import Verif.Model.PropertyMap
/-!
# object.c, std/object_super_class.c, std/database.c, frame/object_property_observer_manager.c

Functions that may announce return, besides the new object, the snapshots of the properties for
which `uecho_property_announce` runs with its parent object set. Whether a frame leaves
the node depends on the object's parent node: see `Model/Node.lean`.

Memory obtained from `realloc` has arbitrary content: the functions that hand out such bytes take
a parameter `junk : Nat → Byte`, and every theorem quantifies over it.
-/
namespace Uecho

/-- `uEchoPropertyRequestHandler` — include/uecho/object.h:49. Simplification: a handler is a
function of the target property, the ESV and the request bytes, without side effects. -/
abbrev Handler := Property → Byte → List Byte → Bool

/-- `uEchoObjectPropertyObserver` — src/uecho/frame/object_property_observer.c:17-97 (`handler` may be
NULL). -/
structure Observer where
  esv : Byte
  code : Byte
  handler : Option Handler

/-- A property map cache: the size field and the (possibly NULL) byte pointer —
src/uecho/_object.h:43-50. -/
structure Cache where
  size : Nat
  bytes : Option (List Byte)
deriving DecidableEq, Repr

/-- `uEchoObject` — src/uecho/_object.h:32-56. `parentNode` and `allMsgListener` are reduced
to "is set"; `code[3]` is three fields. -/
structure Obj where
  name : Option String
  grp : Byte
  cls : Byte
  ins : Byte
  props : List Property
  annoMap : Cache
  setMap : Cache
  getMap : Cache
  hasNode : Bool
  hasListener : Bool
  observers : List Observer

/-- An entry of the standard database (an object with its group and class codes). -/
structure DbObj where
  name : Option String
  grp : Byte
  cls : Byte
  props : List Property
deriving DecidableEq, Repr

/-- The standard database. -/
abbrev Db := List DbObj

/-- `uecho_database_getobject` — src/uecho/std/database.c:96-101 with
`uecho_objectlist_getbygroupclasscode` — src/uecho/object_list.c:68-84. -/
def Db.getObject (db : Db) (g c : Byte) : Option DbObj :=
  db.find? (fun o => o.grp == g && o.cls == c)

namespace Obj

/-- An outcome together with the announcements requested on the way. -/
abbrev Out := Obj × List Property

/-- `uecho_object_new` — src/uecho/object.c:26-69. -/
def new : Obj :=
  { name := none, grp := 0, cls := 0, ins := 0, props := [], annoMap := ⟨0, none⟩, setMap := ⟨0, none⟩,
    getMap := ⟨0, none⟩, hasNode := false, hasListener := false, observers := [] }

/-- `uecho_object_setparentnode` — src/uecho/object.c:114-122. -/
def setParentNode (o : Obj) (b : Bool) : Obj := { o with hasNode := b }

/-- `uecho_object_setname` — src/uecho/object.c:140-146; NULL changes nothing (`uecho_string_setvalue`). -/
def setName (o : Obj) (n : Option String) : Obj := { o with name := n.or o.name }

/-- `uecho_object_getcode` — src/uecho/object.c:221-234. -/
def getCode (o : Obj) : CInt :=
  (((o.grp.setWidth 32) <<< 16) &&& 0xFF0000#32) |||
    ((((o.cls.setWidth 32) <<< 8) &&& 0x00FF00#32) ||| ((o.ins.setWidth 32) &&& 0x0000FF#32))

/-- `uecho_object_iscode` — src/uecho/object.c:240-243. -/
def isCode (o : Obj) (c : CInt) : Bool := o.getCode == c

/-- `uecho_object_isdevice` — src/uecho/object.c:325-331. -/
def isDevice (o : Obj) : Bool := isDeviceGroup o.grp
/-- `uecho_object_isprofile` — src/uecho/object.c:337-343. -/
def isProfile (o : Obj) : Bool := isProfileGroup o.grp

/-- `uecho_object_setinstancecode` — src/uecho/object.c:301-307. -/
def setInstanceCode (o : Obj) (v : Byte) : Obj := { o with ins := v }

/-- `uecho_object_getproperty` — src/uecho/object.c:511-517. -/
def getProperty (o : Obj) (c : Byte) : Option Property := PropertyList.find o.props c
/-- `uecho_object_hasproperty` — src/uecho/object.c:499-505. -/
def hasProperty (o : Obj) (c : Byte) : Bool := (o.getProperty c).isSome
/-- `uecho_object_getpropertycount` — src/uecho/object.c:542-548. -/
def getPropertyCount (o : Obj) : Nat := o.props.length

/-- `uecho_object_addproperty` — src/uecho/object.c:400-409. -/
def addProperty (o : Obj) (p : Property) : Obj :=
  { o with props := PropertyList.add o.props (p.setParent true) }

/-- Loop of `uecho_object_addmissingobjectproperties` — src/uecho/object.c:765-782. -/
def addMissing (o : Obj) : List Property → Obj
  | [] => o
  | p :: ps =>
      if o.hasProperty p.code then addMissing o ps else addMissing (o.addProperty p.copy) ps

/-- `uecho_object_addstandardpropertieswithcode` — src/uecho/object.c:164-186. -/
def addStandardWithCode (db : Db) (o : Obj) (g c : Byte) : Obj × Bool :=
  match db.getObject g c with
  | none => (o, false)
  | some s => ((o.setName s.name).addMissing s.props, true)

/-- `uecho_object_addstandardproperties` — src/uecho/object.c:188-198. -/
def addStandard (db : Db) (o : Obj) : Obj × Bool :=
  let (o, a) := addStandardWithCode db o 0x00#8 0x00#8
  let (o, b) := addStandardWithCode db o o.grp o.cls
  (o, a && b)

/-- `uecho_object_setpropertymap` — src/uecho/object.c:360-394 (`codes = none`: NULL pointer). -/
def setPropertyMap (o : Obj) (mapCode : Byte) (codes : Option (List Byte)) (size : Nat) :
    Res Out := do
  let (fmt1, d) ← PropertyMap.build codes size
  if fmt1 then
    let (ps, a) := PropertyList.set o.props mapCode Attr.read d
    return ({ o with props := ps }, a)
  else
    let (ps, a) := PropertyList.setData o.props mapCode d
    return ({ o with props := ps }, a)

/-- `realloc` to `n` bytes: old content kept, new cells arbitrary. -/
def realloc (junk : Nat → Byte) (blk : Option (List Byte)) (n : Nat) : List Byte :=
  (List.range n).map fun i => match blk with
    | none => junk i
    | some b => match b[i]? with
      | some x => x
      | none => junk i

/-- Appending one code to a map cache: `size++`, `realloc`, `bytes[size - 1] = code` —
src/uecho/std/object_super_class.c:55-59 (and 64-68, 73-77). -/
def cacheAppend (junk : Nat → Byte) (c : Cache) (code : Byte) : Res Cache := do
  let size := c.size + 1
  let blk := realloc junk c.bytes size
  let blk ← wr blk (size - 1) code
  return ⟨size, some blk⟩

/-- The `if` around each append. -/
def cacheAppendIf (b : Bool) (junk : Nat → Byte) (c : Cache) (code : Byte) : Res Cache :=
  if b then cacheAppend junk c code else .ok c

/-- `uecho_object_clearpropertymapcaches` — src/uecho/std/object_super_class.c:94-116. Line 115 resets
`getPropMapBytes` a second time instead of `getPropMapSize`, so that size stays. -/
def clearMapCaches (o : Obj) : Obj :=
  { o with
    annoMap := ⟨0, none⟩
    setMap := ⟨0, none⟩
    getMap := { o.getMap with bytes := none } }

/-- One iteration of the loop at src/uecho/std/object_super_class.c:52-79. -/
def collect (junk : Nat → Byte) (o : Obj) (p : Property) : Res Obj := do
  let g ← cacheAppendIf p.isReadable junk o.getMap p.code
  let s ← cacheAppendIf p.isWritable junk o.setMap p.code
  let a ← cacheAppendIf p.isAnnounceable junk o.annoMap p.code
  return { o with getMap := g, setMap := s, annoMap := a }

/-- The loop at src/uecho/std/object_super_class.c:52-79. -/
def collectAll (junk : Nat → Byte) (o : Obj) : List Property → Res Obj
  | [] => .ok o
  | p :: ps => do
      let o ← collect junk o p
      collectAll junk o ps

/-- `uecho_object_updatepropertymaps` — src/uecho/std/object_super_class.c:41-88. -/
def updatePropertyMaps (junk : Nat → Byte) (o : Obj) : Res Out := do
  let o := o.clearMapCaches
  let o ← collectAll junk o o.props
  let (o, a1) ← setPropertyMap o 0x9F#8 o.getMap.bytes o.getMap.size
  let (o, a2) ← setPropertyMap o 0x9E#8 o.setMap.bytes o.setMap.size
  let (o, a3) ← setPropertyMap o 0x9D#8 o.annoMap.bytes o.annoMap.size
  return (o, a1 ++ a2 ++ a3)

/-- `uecho_object_setcode` — src/uecho/object.c:204-215. -/
def setCode (db : Db) (junk : Nat → Byte) (o : Obj) (v : CInt) : Res Out :=
  let o := { o with
    grp := ((v &&& 0xFF0000#32).sshiftRight 16).setWidth 8
    cls := ((v &&& 0x00FF00#32).sshiftRight 8).setWidth 8
    ins := (v &&& 0x0000FF#32).setWidth 8 }
  updatePropertyMaps junk (addStandard db o).1

/-- `uecho_object_setgroupcode` — src/uecho/object.c:249-257. -/
def setGroupCode (db : Db) (o : Obj) (v : Byte) : Obj := (addStandard db { o with grp := v }).1
/-- `uecho_object_setclasscode` — src/uecho/object.c:275-283. -/
def setClassCode (db : Db) (o : Obj) (v : Byte) : Obj := (addStandard db { o with cls := v }).1

/-- `uecho_object_setproperty` — src/uecho/object.c:415-433. -/
def setProperty (junk : Nat → Byte) (o : Obj) (c : Byte) (attr : CInt) : Res Out := do
  let (ps, a) := PropertyList.set o.props c attr []
  let o := { o with props := Message.modifyFirst c (fun p => p.setParent true) ps }
  let (o, b) ← updatePropertyMaps junk o
  return (o, a ++ b)

/-- `uecho_object_setpropertydata` — src/uecho/object.c:439-445. -/
def setPropertyData (o : Obj) (c : Byte) (d : List Byte) : Out :=
  let (ps, a) := PropertyList.setData o.props c d
  ({ o with props := ps }, a)

/-- `uecho_object_setpropertyintegerdata` — src/uecho/object.c:451-457. -/
def setPropertyIntegerData (o : Obj) (c : Byte) (v : CInt) (size : Nat) : Res Out := do
  let (ps, a) ← PropertyList.setIntegerData o.props c v size
  return ({ o with props := ps }, a)

/-- `uecho_object_setpropertybytedata` — src/uecho/object.c:463-469. -/
def setPropertyByteData (o : Obj) (c : Byte) (b : Byte) : Out :=
  let (ps, a) := PropertyList.setByteData o.props c b
  ({ o with props := ps }, a)

/-- `uecho_object_setpropertyattribute` — src/uecho/object.c:475-481. -/
def setPropertyAttribute (o : Obj) (c : Byte) (attr : CInt) : Obj :=
  { o with props := PropertyList.setAttribute o.props c attr }

/-- `uecho_object_clearproperties` — src/uecho/object.c:554-561. -/
def clearProperties (o : Obj) : Obj := ({ o with props := [] }).clearMapCaches

/-- `uecho_object_getpropertydatasize` — src/uecho/object.c:567-573. -/
def getPropertyDataSize (o : Obj) (c : Byte) : Obj × Byte :=
  let (ps, v) := PropertyList.getDataSize o.props c
  ({ o with props := ps }, v)
/-- `uecho_object_getpropertydata` — src/uecho/object.c:579-585. -/
def getPropertyData (o : Obj) (c : Byte) : Obj × List Byte :=
  let (ps, v) := PropertyList.getData o.props c
  ({ o with props := ps }, v)
/-- `uecho_object_getpropertyintegerdata` — src/uecho/object.c:591-597. -/
def getPropertyIntegerData (o : Obj) (c : Byte) : Res (Obj × CInt) := do
  let (ps, v) ← PropertyList.getIntegerData o.props c
  return ({ o with props := ps }, v)
/-- `uecho_object_getpropertybytedata` — src/uecho/object.c:603-609. -/
def getPropertyByteData (o : Obj) (c : Byte) : Res (Obj × Option Byte) := do
  let (ps, v) ← PropertyList.getByteData o.props c
  return ({ o with props := ps }, v)

/-- `uecho_object_setmessagelistener` — src/uecho/object.c:615-621. -/
def setMessageListener (o : Obj) (b : Bool) : Obj := { o with hasListener := b }

/-- `uecho_object_property_observer_manager_getobserver` —
src/uecho/frame/object_property_observer_manager.c:79-91. -/
def getObserver (o : Obj) (esv c : Byte) : Option Observer :=
  o.observers.find? (fun x => esv == x.esv && c == x.code)

/-- `uecho_object_setpropertyrequesthandler` — src/uecho/object.c:651-657, with
`…observer_manager_setobserver` — src/uecho/frame/object_property_observer_manager.c:45-64. -/
def setRequestHandler (o : Obj) (esv c : Byte) (h : Option Handler) : Obj :=
  { o with observers :=
      o.observers.eraseP (fun x => esv == x.esv && c == x.code) ++ [⟨esv, c, h⟩] }

/-- `uecho_object_getpropertyrequestlistener` — src/uecho/object.c:663-675. -/
def getRequestHandler (o : Obj) (esv c : Byte) : Option Handler :=
  match o.getObserver esv c with
  | none => none
  | some x => x.handler

/-- `uecho_object_setpropertywriterequesthandler` — src/uecho/object.c:690-699. -/
def setWriteHandler (o : Obj) (c : Byte) (h : Option Handler) : Obj :=
  ((o.setRequestHandler 0x60#8 c h).setRequestHandler 0x61#8 c h).setRequestHandler 0x6E#8 c h
/-- `uecho_object_setpropertyreadhandler` — src/uecho/object.c:705-714. -/
def setReadHandler (o : Obj) (c : Byte) (h : Option Handler) : Obj :=
  ((o.setRequestHandler 0x62#8 c h).setRequestHandler 0x63#8 c h).setRequestHandler 0x6E#8 c h

/-- `uecho_object_setmanufacturercode` — src/uecho/std/object_super_class.c:20-23. -/
def setManufacturerCode (o : Obj) (v : CInt) : Res Out := o.setPropertyIntegerData 0x8A#8 v 3

/-- `uecho_object_getmanufacturercode` — src/uecho/std/object_super_class.c:29-35. -/
def getManufacturerCode (o : Obj) : Res (Obj × CInt) := o.getPropertyIntegerData 0x8A#8

end Obj
end Uecho
