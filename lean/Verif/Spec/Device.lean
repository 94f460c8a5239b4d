import Verif.Model.Device
/-!
# Specification vocabulary for the state accessors of a device

`DeviceState` is what a device reports about itself; `DeviceCall` are the calls that change or read it, and writes to
other properties. `Shows o st`: the five getters of the object `o` give the state `st` and leave the object as it is.
-/
namespace Uecho.Spec
open Uecho

structure DeviceState where
  on : Bool
  location : Byte
  version : Byte
  fault : Bool
  maker : Nat

/-- A new device: on, location unknown, release N (0x4E), no fault, experimental manufacturer code. -/
def DeviceState.initial : DeviceState := ⟨true, 0x00, 0x4E, false, 0xFFFFF0⟩

inductive DeviceCall
  | setOn (b : Bool)
  | setLocation (l : Byte)
  | setVersion (v : Byte)
  | setFault (b : Bool)
  | setMaker (v : CInt)
  /-- data written to a property other than the five -/
  | setOther (c : Byte) (d : List Byte)
  | getOn | getLocation | getVersion | getFault | getMaker

/-- The codes of the five properties. -/
def deviceCodes : List Byte := [0x80, 0x81, 0x82, 0x88, 0x8A]

def DeviceCall.Allowed : DeviceCall → Prop
  | .setOther c _ => c ∉ deviceCodes
  | _ => True

/-- What the call does to the state. A manufacturer code has three bytes. -/
def DeviceCall.effect (st : DeviceState) : DeviceCall → DeviceState
  | .setOn b => { st with on := b }
  | .setLocation l => { st with location := l }
  | .setVersion v => { st with version := v }
  | .setFault b => { st with fault := b }
  | .setMaker v => { st with maker := v.toNat % 2 ^ 24 }
  | _ => st

def DeviceCall.run (o : Obj) : DeviceCall → Res Obj
  | .setOn b => .ok (Device.setOperatingStatus o b).1
  | .setLocation l => .ok (Device.setInstallationLocation o l).1
  | .setVersion v => .ok (Device.setStandardVersion o v).1
  | .setFault b => .ok (Device.setFaultStatus o b).1
  | .setMaker v => do let (o, _) ← Device.setManufacturerCode o v; return o
  | .setOther c d => .ok (o.setPropertyData c d).1
  | .getOn => do let (o, _) ← Device.isOperatingStatus o; return o
  | .getLocation => do let (o, _) ← Device.getInstallationLocation o; return o
  | .getVersion => do let _ ← Device.getStandardVersion o; return o
  | .getFault => do let (o, _) ← Device.isFaultStatus o; return o
  | .getMaker => do let (o, _) ← Device.getManufacturerCode o; return o

def runCalls : Obj → List DeviceCall → Res Obj
  | o, [] => .ok o
  | o, c :: cs => do let o ← c.run o; runCalls o cs

structure Shows (o : Obj) (st : DeviceState) : Prop where
  on : Device.isOperatingStatus o = .ok (o, st.on)
  location : Device.getInstallationLocation o = .ok (o, st.location)
  version : Device.getStandardVersion o = .ok st.version
  fault : Device.isFaultStatus o = .ok (o, st.fault)
  maker : Device.getManufacturerCode o = .ok (o, BitVec.ofNat 32 st.maker)

end Uecho.Spec
