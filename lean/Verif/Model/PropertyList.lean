import Verif.Model.Message
/-!
# property_list.c

The circular list is a `List Property` (its pointer implementation is `Model/CList.lean`).
A data setter also returns the properties for which `uecho_property_announce` is called with
a parent object set (src/uecho/property.c:694-711), as snapshots at that moment.
-/
namespace Uecho
namespace PropertyList

/-- `uecho_propertylist_findbycode` — src/uecho/property_list.c:48-61. -/
def find (ps : List Property) (c : Byte) : Option Property := ps.find? (fun p => p.code == c)

/-- `uecho_propertylist_add` — src/uecho/property_list.c:92-106. -/
def add (ps : List Property) (p : Property) : List Property :=
  ps.eraseP (fun q => q.code == p.code) ++ [p]

/-- List part of `uecho_propertylist_getbycode` — src/uecho/property_list.c:67-86: the list after a
missing property has been created. -/
def ensure (ps : List Property) (c : Byte) : List Property :=
  match find ps c with
  | some _ => ps
  | none => add ps (Property.new.setCode c)

/-- `uecho_propertylist_getbycode`: the list and the property found or created. -/
def getByCode (ps : List Property) (c : Byte) : List Property × Property :=
  match find ps c with
  | some p => (ps, p)
  | none => (add ps (Property.new.setCode c), Property.new.setCode c)

/-- Announcement requested by a data setter that left the property as `x.1`. -/
def ann (x : Property × Bool) : List Property := if x.2 && x.1.hasParent then [x.1] else []

/-- `uecho_propertylist_setdata` — src/uecho/property_list.c:133-147. -/
def setData (ps : List Property) (c : Byte) (d : List Byte) : List Property × List Property :=
  let (ps, p) := getByCode ps c
  (Message.modifyFirst c (fun p => (p.setData d).1) ps, ann (p.setData d))

/-- `uecho_propertylist_set` — src/uecho/property_list.c:112-127: data first, then the attribute. -/
def set (ps : List Property) (c : Byte) (attr : CInt) (d : List Byte) :
    List Property × List Property :=
  let (ps, p) := getByCode ps c
  (Message.modifyFirst c (fun p => (p.setData d).1.setAttribute attr) ps, ann (p.setData d))

/-- `uecho_propertylist_setintegerdata` — src/uecho/property_list.c:153-165. -/
def setIntegerData (ps : List Property) (c : Byte) (v : CInt) (size : Nat) :
    Res (List Property × List Property) := do
  let bytes ← integer2byte v size
  return setData ps c bytes

/-- `uecho_propertylist_setbytedata` — src/uecho/property_list.c:171-183. -/
def setByteData (ps : List Property) (c : Byte) (b : Byte) : List Property × List Property :=
  setData ps c [b]

/-- `uecho_propertylist_setattribute` — src/uecho/property_list.c:189-203. -/
def setAttribute (ps : List Property) (c : Byte) (attr : CInt) : List Property :=
  Message.modifyFirst c (fun p => p.setAttribute attr) (ensure ps c)

/-- `uecho_propertylist_getdatasize` — src/uecho/property_list.c:209-221 (returned as `byte`). -/
def getDataSize (ps : List Property) (c : Byte) : List Property × Byte :=
  let (ps, p) := getByCode ps c
  (ps, BitVec.ofNat 8 p.data.length)

/-- `uecho_propertylist_getdata` — src/uecho/property_list.c:227-239. -/
def getData (ps : List Property) (c : Byte) : List Property × List Byte :=
  let (ps, p) := getByCode ps c
  (ps, p.data)

/-- `uecho_propertylist_getintegerdata` — src/uecho/property_list.c:245-257. -/
def getIntegerData (ps : List Property) (c : Byte) : Res (List Property × CInt) := do
  let (ps, p) := getByCode ps c
  let v ← p.getIntegerData
  return (ps, v)

/-- `uecho_propertylist_getbytedata` — src/uecho/property_list.c:263-275. -/
def getByteData (ps : List Property) (c : Byte) : Res (List Property × Option Byte) := do
  let (ps, p) := getByCode ps c
  let v ← p.getByteData
  return (ps, v)

end PropertyList
end Uecho
