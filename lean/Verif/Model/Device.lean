import Verif.Model.Object
/-!
# std/device.c, std/device_super_class.c, std/profile_super_class.c, std/node_profile_class.c
(object part)

Setters return the new object and the announced snapshots, as in `Model/Object.lean`.
Getters that go through `uecho_object_getproperty…data` may add an empty property, so they return the
object too.
-/
namespace Uecho

namespace Device

/-- `uecho_device_setoperatingstatus` — src/uecho/std/device_super_class.c:53-59. -/
def setOperatingStatus (o : Obj) (on : Bool) : Obj.Out :=
  o.setPropertyData 0x80#8 [if on then 0x30#8 else 0x31#8]

/-- `uecho_device_isoperatingstatus` — src/uecho/std/device_super_class.c:65-73. -/
def isOperatingStatus (o : Obj) : Res (Obj × Bool) := do
  let (o, v) ← o.getPropertyByteData 0x80#8
  match v with
  | none => return (o, false)
  | some b => return (o, b == 0x30#8)

/-- `uecho_device_setinstallationlocation` — src/uecho/std/device_super_class.c:79-82. -/
def setInstallationLocation (o : Obj) (loc : Byte) : Obj.Out := o.setPropertyData 0x81#8 [loc]

/-- `uecho_device_getinstallationlocation` — src/uecho/std/device_super_class.c:88-96. -/
def getInstallationLocation (o : Obj) : Res (Obj × Byte) := do
  let (o, v) ← o.getPropertyByteData 0x81#8
  match v with
  | none => return (o, 0x00#8)
  | some b => return (o, b)

/-- `uecho_device_setstandardversion` — src/uecho/std/device_super_class.c:102-111 (`char` to `byte`). -/
def setStandardVersion (o : Obj) (ver : Byte) : Obj.Out :=
  o.setPropertyData 0x82#8 [0x00#8, 0x00#8, ver, 0x00#8]

/-- `uecho_device_getstandardversion` — src/uecho/std/device_super_class.c:117-134. -/
def getStandardVersion (o : Obj) : Res Byte :=
  match o.getProperty 0x82#8 with
  | none => .ok 0
  | some p => if p.data.length ≠ 4 then .ok 0 else rd p.data 2

/-- `uecho_device_setfaultstatus` — src/uecho/std/device_super_class.c:140-146. -/
def setFaultStatus (o : Obj) (fault : Bool) : Obj.Out :=
  o.setPropertyData 0x88#8 [if fault then 0x41#8 else 0x42#8]

/-- `uecho_device_isfaultstatus` — src/uecho/std/device_super_class.c:152-160. -/
def isFaultStatus (o : Obj) : Res (Obj × Bool) := do
  let (o, v) ← o.getPropertyByteData 0x88#8
  match v with
  | none => return (o, false)
  | some b => return (o, b == 0x41#8)

/-- `uecho_device_setmanufacturercode` — src/uecho/std/device_super_class.c:166-169. -/
def setManufacturerCode (o : Obj) (v : CInt) : Res Obj.Out := o.setManufacturerCode v

/-- `uecho_device_getmanufacturercode` — src/uecho/std/device_super_class.c:175-178. -/
def getManufacturerCode (o : Obj) : Res (Obj × CInt) := o.getManufacturerCode

/-- `uecho_device_addmandatoryproperties` — src/uecho/std/device_super_class.c:21-47. Result: object,
announcements, return value. -/
def addMandatory (db : Db) (o : Obj) : Res (Obj × List Property × Bool) :=
  match db.getObject 0x00#8 0x00#8 with
  | none => .ok (o, [], false)
  | some s => do
      let o := o.addMissing s.props
      let (o, a1) := setOperatingStatus o true
      let (o, a2) := setFaultStatus o false
      let (o, a3) := setStandardVersion o 0x4E#8
      let (o, a4) := setInstallationLocation o 0x00#8
      let (o, a5) ← o.setManufacturerCode 0xFFFFF0#32
      return (o, a1 ++ a2 ++ a3 ++ a4 ++ a5, true)

/-- `uecho_device_new` — src/uecho/std/device.c:17-32 (`none` = NULL). A new object has no parent node,
so nothing is announced. -/
def new (db : Db) : Res (Option Obj) := do
  let (o, _, ok) ← addMandatory db Obj.new
  return if ok then some o else none

end Device

namespace Profile

/-- `uecho_profile_setmanufacturercode` — src/uecho/std/profile_super_class.c:32-35. -/
def setManufacturerCode (o : Obj) (v : CInt) : Res Obj.Out := o.setManufacturerCode v

/-- `uecho_profile_getmanufacturercode` — src/uecho/std/profile_super_class.c:41-44: declared to return
`bool`, so the code is converted to 0 or 1. -/
def getManufacturerCode (o : Obj) : Res (Obj × CInt) := do
  let (o, v) ← o.getManufacturerCode
  return (o, if v = 0 then 0 else 1)

end Profile

namespace NodeProfile

/-- `uecho_nodeprofile_setoperatingstatus` — src/uecho/std/node_profile_class.c:76-82. -/
def setOperatingStatus (o : Obj) (on : Bool) : Obj.Out :=
  o.setPropertyData 0x80#8 [if on then 0x30#8 else 0x31#8]

/-- `uecho_nodeprofile_setversion` — src/uecho/std/node_profile_class.c:88-98 (`int` to `byte`). -/
def setVersion (o : Obj) (major minor : CInt) : Obj.Out :=
  o.setPropertyData 0x82#8 [major.setWidth 8, minor.setWidth 8, 0x00#8, 0x10#8]

/-- `uecho_nodeprofile_setid` — src/uecho/std/node_profile_class.c:104-118 (reads 3 and 13 bytes of
the two arrays). -/
def setId (o : Obj) (man uniq : List Byte) : Res Obj.Out := do
  let a ← rdN man 0 3
  let b ← rdN uniq 0 13
  return o.setPropertyData 0x83#8 (0xFE#8 :: (a ++ b))

/-- `uecho_nodeprofile_setdefaultid` — src/uecho/std/node_profile_class.c:124-139; `rnd` stands for the
successive results of `rand() & 0xFF`. -/
def setDefaultId (o : Obj) (rnd : Nat → Byte) : Res Obj.Out :=
  setId o ((List.range 3).map rnd) ((List.range 13).map fun n => rnd (3 + n))

/-- `uecho_nodeprofile_addmandatoryproperties` — src/uecho/std/node_profile_class.c:43-70. -/
def addMandatory (db : Db) (rnd : Nat → Byte) (o : Obj) : Res (Obj × List Property × Bool) :=
  match db.getObject 0x0E#8 0xF0#8 with
  | none => .ok (o, [], false)
  | some s => do
      let o := o.addMissing s.props
      let (o, a1) := setOperatingStatus o true
      let (o, a2) := setVersion o 1#32 13#32
      let (o, a3) ← setDefaultId o rnd
      return (o, a1 ++ a2 ++ a3, true)

/-- `uecho_nodeprofile_new` — src/uecho/std/node_profile_class.c:25-37 (`uecho_profile_new`,
src/uecho/std/profile.c, is `uecho_object_new` and adds nothing). -/
def new (db : Db) (junk rnd : Nat → Byte) : Res Obj := do
  let (o, _) ← Obj.new.setCode db junk 0x0EF001#32
  let (o, _, _) ← addMandatory db rnd o
  return o

/-- `uecho_nodeprofile_setclasscount` — src/uecho/std/node_profile_class.c:145-148. -/
def setClassCount (o : Obj) (n : Nat) : Res Obj.Out :=
  o.setPropertyIntegerData 0xD4#8 (BitVec.ofNat 32 n) 2

/-- `uecho_nodeprofile_setinstancecount` — src/uecho/std/node_profile_class.c:154-157. -/
def setInstanceCount (o : Obj) (n : Nat) : Res Obj.Out :=
  o.setPropertyIntegerData 0xD3#8 (BitVec.ofNat 32 n) 3

/-- First `k` bytes of a buffer whose cell 0 has just been set to `c` (the buffers built by
`uecho_nodeprofile_updateinstanceproperties` have an uninitialised cell 0 and then the entries). -/
def listData (c : Byte) (entries : List Byte) (k : Nat) : Res (List Byte) := do
  let buf : List (Option Byte) := none :: entries.map some
  let buf ← wr buf 0 (some c)
  let d ← rdN buf 0 k
  PropertyMap.initialised d

/-- `uecho_nodeprofile_setclasslist` — src/uecho/std/node_profile_class.c:163-170. -/
def setClassList (o : Obj) (cnt : Nat) (entries : List Byte) : Res Obj.Out := do
  let cnt := if 255 < cnt then 255 else cnt
  let d ← listData (BitVec.ofNat 8 cnt) entries (cnt * 2 + 1)
  return o.setPropertyData 0xD7#8 d

/-- `uecho_nodeprofile_setinstancelist` — src/uecho/std/node_profile_class.c:176-190. -/
def setInstanceList (o : Obj) (cnt : Nat) (entries : List Byte) : Res Obj.Out := do
  let cnt := if 255 < cnt then 255 else cnt
  let d ← listData (BitVec.ofNat 8 cnt) entries (cnt * 3 + 1)
  let (o, a1) := o.setPropertyData 0xD6#8 d
  let (o, a2) := o.setPropertyData 0xD5#8 d
  return (o, a1 ++ a2)

/-- `uecho_nodeprofile_isoperatingstatus` — src/uecho/std/node_profile_class.c:196-204. -/
def isOperatingStatus (o : Obj) : Res (Obj × Bool) := do
  let (o, v) ← o.getPropertyByteData 0x80#8
  match v with
  | none => return (o, false)
  | some b => return (o, b == 0x30#8)

/-- `uecho_nodeprofile_getinstancecount` — src/uecho/std/node_profile_class.c:210-218. -/
def getInstanceCount (o : Obj) : Res (Obj × CInt) := o.getPropertyIntegerData 0xD3#8
/-- `uecho_nodeprofile_getclasscount` — src/uecho/std/node_profile_class.c:224-232. -/
def getClassCount (o : Obj) : Res (Obj × CInt) := o.getPropertyIntegerData 0xD4#8
/-- `uecho_nodeprofile_getnotificationinstancelist` — src/uecho/std/node_profile_class.c:238-241. -/
def getNotificationInstanceList (o : Obj) : Obj × List Byte := o.getPropertyData 0xD5#8
/-- `uecho_nodeprofile_getinstancelist` — src/uecho/std/node_profile_class.c:247-250. -/
def getInstanceList (o : Obj) : Obj × List Byte := o.getPropertyData 0xD6#8
/-- `uecho_nodeprofile_getclasslist` — src/uecho/std/node_profile_class.c:256-259. -/
def getClassList (o : Obj) : Obj × List Byte := o.getPropertyData 0xD7#8

end NodeProfile
end Uecho
