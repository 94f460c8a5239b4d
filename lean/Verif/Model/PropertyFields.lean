import Verif.Model.Property
/-! # The fields of a property one by one: src/uecho/property.c -/
namespace Uecho.Property
open Uecho

/-- `uecho_property_getname` — src/uecho/property.c:416-421. -/
def getName (p : Property) : Option String := p.name
/-- `uecho_property_getcode` — src/uecho/property.c:438-443. -/
def getCode (p : Property) : Byte := p.code
/-- `uecho_property_getattribute` — src/uecho/property.c:482-487. -/
def getAttribute (p : Property) : CInt := p.attr
/-- `uecho_property_gettype` — src/uecho/property.c:612-617. -/
def getType (p : Property) : CInt := p.type
/-- `uecho_property_getdata` — src/uecho/property.c:449-454: the bytes that the pointer points to. -/
def getData (p : Property) : List Byte := p.data
/-- `uecho_property_getdatasize` — src/uecho/property.c:460-465. -/
def getDataSize (p : Property) : Nat := p.data.length

end Uecho.Property
