import Verif.Model.Misc
/-!
# property.c

The C struct (src/uecho/_property.h:36-48) has `name, code, attr, type, data,
data_size, parentObj`. `data`/`data_size` are one byte list (`data` is NULL
exactly when the list is empty: every function keeps the two fields in step).
`parentObj` is reduced to "is set": the object that owns the property list is
known from the context in the object model.
-/
namespace Uecho

/-- `uEchoProperty` — src/uecho/_property.h:36-48. -/
structure Property where
  name : Option String
  code : Byte
  attr : CInt
  type : CInt
  data : List Byte
  hasParent : Bool
deriving DecidableEq, Repr

namespace Attr
/-- `uEchoPropertyAttrNone` — include/uecho/property.h. -/
abbrev none : CInt := 0x00#32
/-- `uEchoPropertyAttrRead`. -/
abbrev read : CInt := 0x01#32
/-- `uEchoPropertyAttrWrite`. -/
abbrev write : CInt := 0x02#32
/-- `uEchoPropertyAttrAnno`. -/
abbrev anno : CInt := 0x04#32
/-- `uEchoPropertyAttrReadWrite`. -/
abbrev readWrite : CInt := 0x03#32
/-- `uEchoPropertyAttrReadRequired`. -/
abbrev readRequired : CInt := 0x10#32
/-- `uEchoPropertyAttrWriteRequired`. -/
abbrev writeRequired : CInt := 0x20#32
/-- `uEchoPropertyAttrAnnoRequired`. -/
abbrev annoRequired : CInt := 0x40#32
end Attr

namespace Property

/-- `uecho_property_new` — src/uecho/property.c:23-49. -/
def new : Property :=
  { name := none, code := 0, attr := Attr.readWrite, type := 0, data := [], hasParent := false }

/-- `uecho_property_isreadable` — src/uecho/property.c:493-498. -/
def isReadable (p : Property) : Bool := p.attr &&& (Attr.read ||| Attr.readRequired) != 0
/-- `uecho_property_isreadrequired` — src/uecho/property.c:504-509. -/
def isReadRequired (p : Property) : Bool := p.attr &&& Attr.readRequired != 0
/-- `uecho_property_iswritable` — src/uecho/property.c:515-520. -/
def isWritable (p : Property) : Bool := p.attr &&& (Attr.write ||| Attr.writeRequired) != 0
/-- `uecho_property_iswriterequired` — src/uecho/property.c:526-531. -/
def isWriteRequired (p : Property) : Bool := p.attr &&& Attr.writeRequired != 0
/-- `uecho_property_isreadonly` — src/uecho/property.c:537-548. -/
def isReadOnly (p : Property) : Bool := p.isReadable && !p.isWritable
/-- `uecho_property_iswriteonly` — src/uecho/property.c:554-565. -/
def isWriteOnly (p : Property) : Bool := p.isWritable && !p.isReadable
/-- `uecho_property_isannounceable` — src/uecho/property.c:571-580. -/
def isAnnounceable (p : Property) : Bool := p.attr &&& (Attr.anno ||| Attr.annoRequired) != 0
/-- `uecho_property_isannouncerequired` — src/uecho/property.c:586-595. -/
def isAnnounceRequired (p : Property) : Bool := p.attr &&& Attr.annoRequired != 0

/-- `uecho_property_setcode` — src/uecho/property.c (plain field store). -/
def setCode (p : Property) (c : Byte) : Property := { p with code := c }
/-- `uecho_property_setattribute` — src/uecho/property.c (plain field store). -/
def setAttribute (p : Property) (a : CInt) : Property := { p with attr := a }
/-- `uecho_property_setname` — src/uecho/property.c:405-410; NULL changes nothing (`uecho_string_setvalue`). -/
def setName (p : Property) (n : Option String) : Property := { p with name := n.or p.name }
/-- `uecho_property_settype` — src/uecho/property.c:601-606. -/
def setType (p : Property) (t : CInt) : Property := { p with type := t }
/-- `uecho_property_setparentobject` — src/uecho/property.c:76-84. -/
def setParent (p : Property) (b : Bool) : Property := { p with hasParent := b }

/-- `uecho_property_cleardata` — src/uecho/property.c:368-381. -/
def clearData (p : Property) : Property := { p with data := [] }

/-- `uecho_property_setcount` — src/uecho/property.c:102-119 (`calloc` zeroes). -/
def setCount (p : Property) (n : Nat) : Property :=
  if n = 0 then p.clearData else { p.clearData with data := List.replicate n 0 }

/-- `uecho_property_setdata` — src/uecho/property.c:149-169. The Boolean result says
whether `uecho_property_announce` is called (its effect depends on the parent
object and node: see `Model/Object.lean`). -/
def setData (p : Property) (d : List Byte) : Property × Bool :=
  let p1 := p.setCount d.length
  if d.length = 0 then (p1, false)
  else
    let p2 := { p1 with data := d }
    (p2, p2.isAnnounceable)

/-- `uecho_property_adddata` — src/uecho/property.c:175-199 with
`uecho_property_addcount` — src/uecho/property.c:125-143. -/
def addData (p : Property) (d : List Byte) : Property × Bool :=
  if d.length = 0 then (p, false)
  else
    let p2 := { p with data := p.data ++ d }
    (p2, p2.isAnnounceable)

/-- `uecho_property_addbytedata` — src/uecho/property.c:205-208. -/
def addByteData (p : Property) (b : Byte) : Property × Bool := p.addData [b]

/-- `uecho_property_setintegerdata` — src/uecho/property.c:214-233. -/
def setIntegerData (p : Property) (v : CInt) (size : Nat) : Res (Property × Bool) := do
  let bytes ← integer2byte v size
  return p.setData bytes

/-- `uecho_property_getintegerdata` — src/uecho/property.c:239-247. -/
def getIntegerData (p : Property) : Res CInt := byte2integer p.data

/-- `uecho_property_setbytedata` — src/uecho/property.c:253-259. -/
def setByteData (p : Property) (b : Byte) : Property × Bool := p.setData [b]

/-- `uecho_property_getbytedata` — src/uecho/property.c:265-276 (`none` = returns false). -/
def getByteData (p : Property) : Res (Option Byte) :=
  if p.data.length ≠ 1 then .ok none
  else do
    let b ← rd p.data 0
    return some b

/-- `uecho_property_copy` — src/uecho/property.c:623-641 (type and parent are not copied). -/
def copy (p : Property) : Property :=
  ((((new.setCode p.code).setName p.name).setAttribute p.attr).setData p.data).1

/-- `uecho_property_equals` — src/uecho/property.c:647-665. -/
def equals (p q : Property) : Bool :=
  if p.code != q.code then false
  else if p.attr != q.attr then false
  else if p.data.length != q.data.length then false
  else p.data == q.data

/-- `uecho_property_isdataequal` — src/uecho/property.c:717-726. -/
def isDataEqual (p : Property) (d : List Byte) : Bool :=
  if p.data.length != d.length then false else p.data == d

end Property
end Uecho
