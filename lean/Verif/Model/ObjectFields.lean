import Verif.Model.Node
/-! # Getters of objects and the fields of classes: src/uecho/object.c, src/uecho/class.c -/
namespace Uecho
namespace Obj

/-- `uecho_object_getname` — src/uecho/object.c:152-158. -/
def getName (o : Obj) : Option String := o.name
/-- `uecho_object_getgroupcode` — src/uecho/object.c:263-269. -/
def getGroupCode (o : Obj) : Byte := o.grp
/-- `uecho_object_getclasscode` — src/uecho/object.c:289-295. -/
def getClassCode (o : Obj) : Byte := o.cls
/-- `uecho_object_getinstancecode` — src/uecho/object.c:313-319. -/
def getInstanceCode (o : Obj) : Byte := o.ins
/-- `uecho_object_haspropertyrequestlistener` — src/uecho/object.c:681-684. -/
def hasRequestHandler (o : Obj) (esv c : Byte) : Bool := (o.getRequestHandler esv c).isSome
/-- `uecho_object_hasmessagelistener` — src/uecho/object.c:639-645. -/
def hasMessageListener (o : Obj) : Bool := o.hasListener

end Obj

namespace Class

/-- `uecho_class_new` — src/uecho/class.c:19-34. -/
def new : Class := ⟨0, 0⟩
/-- `uecho_class_setclassgroupcode` — src/uecho/class.c:107-113. -/
def setGroupCode (c : Class) (v : Byte) : Class := { c with grp := v }
/-- `uecho_class_getclassgroupcode` — src/uecho/class.c:119-125. -/
def getGroupCode (c : Class) : Byte := c.grp
/-- `uecho_class_setclasscode` — src/uecho/class.c:131-137. -/
def setClassCode (c : Class) (v : Byte) : Class := { c with cls := v }
/-- `uecho_class_getclasscode` — src/uecho/class.c:143-149. -/
def getClassCode (c : Class) : Byte := c.cls
/-- `uecho_class_iscode` — src/uecho/class.c:95-101. -/
def isCode (c : Class) (code : CInt) : Bool := c.getCode == code

end Class
end Uecho
