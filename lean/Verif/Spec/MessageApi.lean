import Verif.Model.Message
/-!
# Which message objects a program can have

`Reachable e m`: some sequence of calls of the public message API (include/uecho/
message.h), each of them with defined behaviour, produces `m`. A property
object of the message can be changed in any way by its owner (`editProp…`).
-/
namespace Uecho.Spec
open Uecho

inductive Reachable (e : Endian) : Message → Prop
  | new : Reachable e Message.new
  | setTid {m} (h : Reachable e m) (v : BitVec 32) : Reachable e (m.setTid e v)
  | setSrc {m m'} (h : Reachable e m) (c : CInt) (he : m.setSourceObjectCode c = .ok m') :
      Reachable e m'
  | setDst {m m'} (h : Reachable e m) (c : CInt) (he : m.setDestinationObjectCode c = .ok m') :
      Reachable e m'
  | setEsv {m} (h : Reachable e m) (v : Byte) : Reachable e (m.setEsv v)
  | setSrcAddr {m} (h : Reachable e m) (a : Option String) : Reachable e (m.setSourceAddress a)
  | setDstAddr {m} (h : Reachable e m) (a : Option String) :
      Reachable e (m.setDestinationAddress a)
  | addProperty {m m'} (h : Reachable e m) (p : Property) (he : m.addProperty p = .ok m') :
      Reachable e m'
  | addPropertySet {m m'} (h : Reachable e m) (p : Property) (he : m.addPropertySet p = .ok m') :
      Reachable e m'
  | addPropertyGet {m m'} (h : Reachable e m) (p : Property) (he : m.addPropertyGet p = .ok m') :
      Reachable e m'
  | setProperty {m m'} (h : Reachable e m) (c : Byte) (d : List Byte)
      (he : m.setProperty c d = .ok m') : Reachable e m'
  | setPropertySet {m m'} (h : Reachable e m) (c : Byte) (d : List Byte)
      (he : m.setPropertySet c d = .ok m') : Reachable e m'
  | setPropertyGet {m m'} (h : Reachable e m) (c : Byte) (d : List Byte)
      (he : m.setPropertyGet c d = .ok m') : Reachable e m'
  | editProp {m} (h : Reachable e m) (n : Nat) (p : Property) :
      Reachable e { m with ep := m.ep.set n p }
  | editPropSet {m} (h : Reachable e m) (n : Nat) (p : Property) :
      Reachable e { m with epSet := m.epSet.set n p }
  | editPropGet {m} (h : Reachable e m) (n : Nat) (p : Property) :
      Reachable e { m with epGet := m.epGet.set n p }
  | clear {m m'} (h : Reachable e m) (he : m.clear = .ok m') : Reachable e m'
  | clearProperties {m m'} (h : Reachable e m) (he : m.clearProperties = .ok m') : Reachable e m'
  | parse {m m'} (h : Reachable e m) (data : List Byte) (len : Nat) (r : Bool)
      (hl : len ≤ data.length) (he : m.parse data len = .ok (r, m')) : Reachable e m'
  | parsePacket {m m'} (h : Reachable e m) (data : List Byte) (l a : Option String) (r : Bool)
      (he : m.parsePacket data l a = .ok (r, m')) : Reachable e m'
  | set {m s m'} (h : Reachable e m) (hs : Reachable e s) (he : m.setFrom e s = .ok m') :
      Reachable e m'

end Uecho.Spec
