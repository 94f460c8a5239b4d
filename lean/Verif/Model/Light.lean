import Verif.Model.NodeListener
/-!
# examples/device/uecholight: the lighting device

Printing is not modelled, and neither is the code for `UECHO_PLATFORM_RASPBIAN` (the macro is undefined at
examples/device/uecholight/lighting_dev.c:24).
-/
namespace Uecho.Light

/-- `LIGHT_PROPERTY_POWER_CODE` — examples/device/uecholight/lighting_dev.c:20. -/
abbrev powerCode : Byte := 0x80#8
/-- `LIGHT_PROPERTY_POWER_ON` — examples/device/uecholight/lighting_dev.c:21. -/
abbrev powerOn : Byte := 0x30#8

/-- `uecho_lighting_propertyrequesthandler` — examples/device/uecholight/lighting_dev.c:68-102: all three branches of the `switch`
print and go on. Data of one byte is never at a null pointer. -/
def requestHandler : Handler := fun _ _ d =>
  match d with
  | [_] => true
  | _ => false

/-- `uecho_light_new` — examples/device/uecholight/lighting_dev.c:108-141. `junk1`, `junk2`: what the memory obtained by the two calls
that build property maps contains. If the device is NULL, all calls do nothing. -/
def new (db : Db) (junk1 junk2 : Nat → Byte) : Res (Option Obj) := do
  match ← Device.new db with
  | none => return none
  | some o =>
    let (o, _) ← o.setManufacturerCode 0xFFFFF0#32
    let (o, _) ← o.setCode db junk1 0x029101#32
    let (o, _) ← o.setProperty junk2 powerCode Attr.readWrite
    let (o, _) := o.setPropertyData powerCode [powerOn]
    return some (o.setWriteHandler powerCode (some requestHandler))

/-- The `-m` option — examples/device/uecholight/main.c:80-82: `int` comparison. -/
def setMaker (e : Endian) (maker : CInt) (n : Node) : Res (Node × List Effect) :=
  if 0 < maker.toInt then Node.setManufacturerCode e maker (List.range n.objs.length) n else .ok (n, [])

/-- `main` up to the loop — examples/device/uecholight/main.c:29-90, if `uecho_node_start` succeeds and the node exists; `none`: the
program ends because there is no light. -/
def main (e : Endian) (db : Db) (junk junk1 junk2 rnd : Nat → Byte) (tid0 : BitVec 32) (verbose : Bool) (maker : CInt)
    (bound : List String) : Res (Option Node) := do
  let (n, _) ← Node.new e db junk rnd tid0
  let n := if verbose then n.setMessageListener true else n
  match ← new db junk1 junk2 with
  | none => return none
  | some o =>
    let (n, _) ← setMaker e maker n
    let (n, _, _) ← n.addObject e o
    let (n, _) ← n.start e bound
    return some n

end Uecho.Light
