import Verif.Model.CString
/-!
# Small records: network interfaces, datagrams, manufacturers, enumerations, observers

Records whose text fields are `uEchoString`s (`Model/CString`). A text argument is NULL (`none`) or the characters before
the terminating zero. The checks of the record pointer for NULL are not modelled, nor are refused requests for memory.
Pointers to user data and functions are numbers, 0 is NULL. The links of the lists the records can be in are in `Model/CList`.
-/
namespace Uecho.Records
open Uecho Uecho.CString

/-- `uEchoNetworkInterface` — src/uecho/net/interface.h:43-51, without the links. -/
structure NetIf where
  name : Str
  ipaddr : Str
  netmask : Str
  macaddr : List Byte
  index : Int

namespace NetIf

/-- `uecho_net_interface_new` — src/uecho/net/interface.c:22-39. -/
def new : NetIf := ⟨CString.new, CString.new, CString.new, List.replicate 6 0#8, 0⟩

/-- `uecho_net_interface_setname` — src/uecho/net/interface.c:76-82. -/
def setName (i : NetIf) (v : Option (List Byte)) : Res NetIf := do
  let s ← CString.set i.name v
  return { i with name := s }

/-- `uecho_net_interface_getname` — src/uecho/net/interface.c:88-94. -/
def getName (i : NetIf) : Res (Option (List Byte)) := CString.getValue i.name

/-- `uecho_net_interface_setaddress` — src/uecho/net/interface.c:100-106. -/
def setAddress (i : NetIf) (v : Option (List Byte)) : Res NetIf := do
  let s ← CString.set i.ipaddr v
  return { i with ipaddr := s }

/-- `uecho_net_interface_getaddress` — src/uecho/net/interface.c:112-118. -/
def getAddress (i : NetIf) : Res (Option (List Byte)) := CString.getValue i.ipaddr

/-- `uecho_net_interface_setnetmask` — src/uecho/net/interface.c:124-130. -/
def setNetmask (i : NetIf) (v : Option (List Byte)) : Res NetIf := do
  let s ← CString.set i.netmask v
  return { i with netmask := s }

/-- `uecho_net_interface_getnetmask` — src/uecho/net/interface.c:136-142. -/
def getNetmask (i : NetIf) : Res (Option (List Byte)) := CString.getValue i.netmask

/-- `uecho_net_interface_setmacaddress` — src/uecho/net/interface.h:72: `memcpy` of six bytes; `v` are the bytes the caller's
buffer has. -/
def setMac (i : NetIf) (v : List Byte) : Res NetIf := do
  let bs ← rdN v 0 6
  let m ← wrN i.macaddr 0 bs
  return { i with macaddr := m }

/-- `uecho_net_interface_getmacaddress` — src/uecho/net/interface.h:73: the six bytes the caller's buffer gets. -/
def getMac (i : NetIf) : Res (List Byte) := rdN i.macaddr 0 6

/-- `uecho_net_interface_setindex` — src/uecho/net/interface.h:75. -/
def setIndex (i : NetIf) (v : Int) : NetIf := { i with index := v }

/-- `uecho_net_interface_getindex` — src/uecho/net/interface.h:76. -/
def getIndex (i : NetIf) : Int := i.index

/-- The characters of "INADDR_ANY" — src/uecho/net/interface.c:66. -/
def anyName : List Byte := [0x49, 0x4E, 0x41, 0x44, 0x44, 0x52, 0x5F, 0x41, 0x4E, 0x59]

/-- The characters of "0.0.0.0" — src/uecho/net/interface.c:67. -/
def anyAddress : List Byte := [0x30, 0x2E, 0x30, 0x2E, 0x30, 0x2E, 0x30]

/-- `uecho_net_interface_getany` — src/uecho/net/interface.c:61-70. -/
def getAny : Res NetIf := do
  let i ← setName new (some anyName)
  setAddress i (some anyAddress)

end NetIf

/-- `uEchoDatagramPacket` — src/uecho/net/socket.h:71-80; `data` is NULL or the allocated block. -/
structure Packet where
  data : Option (List Byte)
  dataLen : Nat
  localAddr : Str
  localPort : Int
  remoteAddr : Str
  remotePort : Int

namespace Packet

/-- `uecho_socket_datagram_packet_new` — src/uecho/net/datagram_packet.c:17-36. -/
def new : Packet := ⟨none, 0, CString.new, 0, CString.new, 0⟩

/-- `uecho_socket_datagram_packet_clear` — src/uecho/net/datagram_packet.c:83-95. -/
def clear (p : Packet) : Packet := { p with data := none, dataLen := 0 }

/-- `uecho_socket_datagram_packet_setdata` — src/uecho/net/datagram_packet.c:59-77, with a block that is not the packet's own. -/
def setData (p : Packet) (data : Option (List Byte)) (len : Nat) : Res Packet :=
  let p := clear p
  match data with
  | none => .ok p
  | some d => if len ≤ 0 then .ok p else do
      let bs ← rdN d 0 len
      return { p with data := some bs, dataLen := len }

/-- `uecho_socket_datagram_packet_getdata` — src/uecho/net/socket.h:154, with the bytes a reader of `getlength` bytes sees. -/
def getData (p : Packet) : Res (List Byte) :=
  match p.data with
  | none => if p.dataLen = 0 then .ok [] else .ub
  | some d => rdN d 0 p.dataLen

/-- `uecho_socket_datagram_packet_getlength` — src/uecho/net/socket.h:155. -/
def getLength (p : Packet) : Nat := p.dataLen

/-- `uecho_socket_datagram_packet_setlocaladdress` — src/uecho/net/socket.h:157. -/
def setLocalAddress (p : Packet) (v : Option (List Byte)) : Res Packet := do
  let s ← CString.set p.localAddr v
  return { p with localAddr := s }

/-- `uecho_socket_datagram_packet_getlocaladdress` — src/uecho/net/socket.h:158. -/
def getLocalAddress (p : Packet) : Res (Option (List Byte)) := CString.getValue p.localAddr

/-- `uecho_socket_datagram_packet_setlocalport` — src/uecho/net/socket.h:159. -/
def setLocalPort (p : Packet) (v : Int) : Packet := { p with localPort := v }

/-- `uecho_socket_datagram_packet_getlocalport` — src/uecho/net/socket.h:160. -/
def getLocalPort (p : Packet) : Int := p.localPort

/-- `uecho_socket_datagram_packet_setremoteaddress` — src/uecho/net/socket.h:161. -/
def setRemoteAddress (p : Packet) (v : Option (List Byte)) : Res Packet := do
  let s ← CString.set p.remoteAddr v
  return { p with remoteAddr := s }

/-- `uecho_socket_datagram_packet_getremoteaddress` — src/uecho/net/socket.h:162. -/
def getRemoteAddress (p : Packet) : Res (Option (List Byte)) := CString.getValue p.remoteAddr

/-- `uecho_socket_datagram_packet_setremoteport` — src/uecho/net/socket.h:163. -/
def setRemotePort (p : Packet) (v : Int) : Packet := { p with remotePort := v }

/-- `uecho_socket_datagram_packet_getremoteport` — src/uecho/net/socket.h:164. -/
def getRemotePort (p : Packet) : Int := p.remotePort

/-- `uecho_socket_datagram_packet_copy` — src/uecho/net/datagram_packet.c:101-113, for two different packets. -/
def copy (dst src : Packet) : Res Packet := do
  let p ← setData dst src.data (getLength src)
  let la ← getLocalAddress src
  let p ← setLocalAddress p la
  let p := setLocalPort p (getLocalPort src)
  let ra ← getRemoteAddress src
  let p ← setRemoteAddress p ra
  return setRemotePort p (getRemotePort src)

/-- `uecho_socket_datagram_packet_copy(p, p)` — src/uecho/net/datagram_packet.c:101-113: the block is freed
and then copied from; the texts are as in `CString.setOwn`. -/
def copySelf (p : Packet) : Res Packet :=
  match p.data with
  | some _ => if p.dataLen ≤ 0 then do
        let la ← CString.setOwn p.localAddr
        let ra ← CString.setOwn p.remoteAddr
        return { clear p with localAddr := la, remoteAddr := ra }
      else .ub
  | none => do
      let la ← CString.setOwn p.localAddr
      let ra ← CString.setOwn p.remoteAddr
      return { clear p with localAddr := la, remoteAddr := ra }

end Packet

/-- `uEchoManufacture` — src/uecho/_manufacture.h, without the links. -/
structure Manufacture where
  code : Int
  name : Str

namespace Manufacture

/-- `uecho_manufacture_new` — src/uecho/manufacture.c:17-32. -/
def new : Manufacture := ⟨0, CString.new⟩
/-- `uecho_manufacture_setcode` — src/uecho/manufacture.c:64-69. -/
def setCode (m : Manufacture) (v : Int) : Manufacture := { m with code := v }
/-- `uecho_manufacture_getcode` — src/uecho/manufacture.c:75-80. -/
def getCode (m : Manufacture) : Int := m.code
/-- `uecho_manufacture_iscode` — src/uecho/manufacture.c:86-91. -/
def isCode (m : Manufacture) (v : Int) : Bool := if m.code = v then true else false
/-- `uecho_manufacture_setname` — src/uecho/manufacture.c:97-102. -/
def setName (m : Manufacture) (v : Option (List Byte)) : Res Manufacture := do
  let s ← CString.set m.name v
  return { m with name := s }
/-- `uecho_manufacture_getname` — src/uecho/manufacture.c:108-113. -/
def getName (m : Manufacture) : Res (Option (List Byte)) := CString.getValue m.name

end Manufacture

/-- `uEchoPropertyEnum` — src/uecho/_property.h, without the links. -/
structure PropEnum where
  code : Int
  name : Str
  desc : Str

namespace PropEnum

/-- `uecho_property_enum_new` — src/uecho/property_enum.c:23-44. -/
def new : PropEnum := ⟨0, CString.new, CString.new⟩
/-- `uecho_property_enum_setcode` — src/uecho/property_enum.c:92-97. -/
def setCode (m : PropEnum) (v : Int) : PropEnum := { m with code := v }
/-- `uecho_property_enum_getcode` — src/uecho/property_enum.c:103-108. -/
def getCode (m : PropEnum) : Int := m.code
/-- `uecho_property_enum_setname` — src/uecho/property_enum.c:114-119. -/
def setName (m : PropEnum) (v : Option (List Byte)) : Res PropEnum := do
  let s ← CString.set m.name v
  return { m with name := s }
/-- `uecho_property_enum_getname` — src/uecho/property_enum.c:125-130. -/
def getName (m : PropEnum) : Res (Option (List Byte)) := CString.getValue m.name
/-- `uecho_property_enum_setdescription` — src/uecho/property_enum.c:136-141. -/
def setDescription (m : PropEnum) (v : Option (List Byte)) : Res PropEnum := do
  let s ← CString.set m.desc v
  return { m with desc := s }
/-- `uecho_property_enum_getdescription` — src/uecho/property_enum.c:147-152. -/
def getDescription (m : PropEnum) : Res (Option (List Byte)) := CString.getValue m.desc

end PropEnum

/-- `uEchoMessageObserver` — src/uecho/frame/message_observer.h, without the links. -/
structure MsgObserver where
  object : Nat
  handler : Nat

namespace MsgObserver

/-- `uecho_message_observer_new` — src/uecho/frame/message_observer.c:17-32. -/
def new : MsgObserver := ⟨0, 0⟩
/-- `uecho_message_observer_setobject` — src/uecho/frame/message_observer.c:49-52. -/
def setObject (o : MsgObserver) (v : Nat) : MsgObserver := { o with object := v }
/-- `uecho_message_observer_getobjcet` — src/uecho/frame/message_observer.c:58-61. -/
def getObject (o : MsgObserver) : Nat := o.object
/-- `uecho_message_observer_sethandler` — src/uecho/frame/message_observer.c:67-70. -/
def setHandler (o : MsgObserver) (v : Nat) : MsgObserver := { o with handler := v }
/-- `uecho_message_observer_gethandler` — src/uecho/frame/message_observer.c:76-79. -/
def getHandler (o : MsgObserver) : Nat := o.handler

end MsgObserver

/-- `uEchoObjectPropertyObserver` — src/uecho/frame/object_property_observer.h, without the links; `esv` is `none` while it is
not initialised. -/
structure PropObserver where
  esv : Option Byte
  propCode : Byte
  handler : Nat

namespace PropObserver

/-- `uecho_object_property_observer_new` — src/uecho/frame/object_property_observer.c:17-32: the ESV is not set. -/
def new : PropObserver := ⟨none, 0, 0⟩
/-- `uecho_object_property_observer_setesv` — src/uecho/frame/object_property_observer.c:49-52. -/
def setEsv (o : PropObserver) (v : Byte) : PropObserver := { o with esv := some v }
/-- `uecho_object_property_observer_getesv` — src/uecho/frame/object_property_observer.c:58-61: reading it before it was set is
undefined. -/
def getEsv (o : PropObserver) : Res Byte :=
  match o.esv with
  | some v => .ok v
  | none => .ub
/-- `uecho_object_property_observer_setpropetycode` — src/uecho/frame/object_property_observer.c:67-70. -/
def setCode (o : PropObserver) (v : Byte) : PropObserver := { o with propCode := v }
/-- `uecho_object_property_observer_getpropetycode` — src/uecho/frame/object_property_observer.c:76-79. -/
def getCode (o : PropObserver) : Byte := o.propCode
/-- `uecho_object_property_observer_sethandler` — src/uecho/frame/object_property_observer.c:85-88. -/
def setHandler (o : PropObserver) (v : Nat) : PropObserver := { o with handler := v }
/-- `uecho_object_property_observer_handler` — src/uecho/frame/object_property_observer.c:94-97. -/
def getHandler (o : PropObserver) : Nat := o.handler

end PropObserver

end Uecho.Records
