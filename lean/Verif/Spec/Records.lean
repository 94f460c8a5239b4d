import Verif.Model.Records
/-!
# Specification: what small records hold

The setters of a record, as calls; a record holds for each field what was passed last, and a text field the text passed last
(passing NULL passes no text).
-/
namespace Uecho.Spec
open Uecho Uecho.Records

/-- A text argument: NULL, or characters without a zero. -/
def IsText (v : Option (List Byte)) : Prop := ∀ cs, v = some cs → 0#8 ∉ cs

/-- The last text among the arguments. -/
def lastText (vs : List (Option (List Byte))) : Option (List Byte) := (vs.filterMap id).getLast?

/-- The last value, or what a new record has. -/
def lastElse {α : Type} (d : α) (vs : List α) : α := vs.getLast?.getD d

/-- The setters of a network interface. -/
inductive IfCall where
  | name (v : Option (List Byte))
  | address (v : Option (List Byte))
  | netmask (v : Option (List Byte))
  | mac (v : List Byte)
  | index (v : Int)

/-- The names passed. -/
def IfCall.name? : IfCall → Option (Option (List Byte))
  | .name v => some v
  | _ => none
/-- The addresses passed. -/
def IfCall.address? : IfCall → Option (Option (List Byte))
  | .address v => some v
  | _ => none
/-- The netmasks passed. -/
def IfCall.netmask? : IfCall → Option (Option (List Byte))
  | .netmask v => some v
  | _ => none
/-- The MAC addresses passed. -/
def IfCall.mac? : IfCall → Option (List Byte)
  | .mac v => some (v.take 6)
  | _ => none
/-- The indexes passed. -/
def IfCall.index? : IfCall → Option Int
  | .index v => some v
  | _ => none

/-- Texts are texts, and the caller has six bytes for a MAC address. -/
def IfCall.Ok : IfCall → Prop
  | .name v | .address v | .netmask v => IsText v
  | .mac v => 6 ≤ v.length
  | .index _ => True

def ifCall (i : NetIf) : IfCall → Res NetIf
  | .name v => i.setName v
  | .address v => i.setAddress v
  | .netmask v => i.setNetmask v
  | .mac v => i.setMac v
  | .index v => .ok (i.setIndex v)

/-- The setters of a datagram. -/
inductive PktCall where
  | data (v : Option (List Byte)) (len : Nat)
  | clear
  | localAddress (v : Option (List Byte))
  | localPort (v : Int)
  | remoteAddress (v : Option (List Byte))
  | remotePort (v : Int)

/-- The local addresses passed. -/
def PktCall.localAddress? : PktCall → Option (Option (List Byte))
  | .localAddress v => some v
  | _ => none
/-- The local ports passed. -/
def PktCall.localPort? : PktCall → Option Int
  | .localPort v => some v
  | _ => none
/-- The remote addresses passed. -/
def PktCall.remoteAddress? : PktCall → Option (Option (List Byte))
  | .remoteAddress v => some v
  | _ => none
/-- The remote ports passed. -/
def PktCall.remotePort? : PktCall → Option Int
  | .remotePort v => some v
  | _ => none

def PktCall.Ok : PktCall → Prop
  | .data v len => ∀ d, v = some d → len ≤ d.length
  | .localAddress v | .remoteAddress v => IsText v
  | _ => True

def pktCall (p : Packet) : PktCall → Res Packet
  | .data v len => p.setData v len
  | .clear => .ok p.clear
  | .localAddress v => p.setLocalAddress v
  | .localPort v => .ok (p.setLocalPort v)
  | .remoteAddress v => p.setRemoteAddress v
  | .remotePort v => .ok (p.setRemotePort v)

/-- The bytes that a call on a datagram leaves as its data. -/
def PktCall.bytes : PktCall → Option (List Byte)
  | .data none _ => some []
  | .data (some d) len => some (d.take len)
  | .clear => some []
  | _ => none

/-- The setters of a manufacturer. -/
inductive ManCall where
  | code (v : Int)
  | name (v : Option (List Byte))

def ManCall.code? : ManCall → Option Int
  | .code v => some v
  | _ => none
def ManCall.name? : ManCall → Option (Option (List Byte))
  | .name v => some v
  | _ => none

def ManCall.Ok : ManCall → Prop
  | .name v => IsText v
  | _ => True

def manCall (m : Manufacture) : ManCall → Res Manufacture
  | .code v => .ok (m.setCode v)
  | .name v => m.setName v

/-- The setters of an element of an enumeration. -/
inductive EnumCall where
  | code (v : Int)
  | name (v : Option (List Byte))
  | description (v : Option (List Byte))

def EnumCall.code? : EnumCall → Option Int
  | .code v => some v
  | _ => none
def EnumCall.name? : EnumCall → Option (Option (List Byte))
  | .name v => some v
  | _ => none
def EnumCall.description? : EnumCall → Option (Option (List Byte))
  | .description v => some v
  | _ => none

def EnumCall.Ok : EnumCall → Prop
  | .name v | .description v => IsText v
  | _ => True

def enumCall (m : PropEnum) : EnumCall → Res PropEnum
  | .code v => .ok (m.setCode v)
  | .name v => m.setName v
  | .description v => m.setDescription v

/-- The setters of an observer of properties. -/
inductive ObsCall where
  | esv (v : Byte)
  | code (v : Byte)
  | handler (v : Nat)

def ObsCall.esv? : ObsCall → Option Byte
  | .esv v => some v
  | _ => none
def ObsCall.code? : ObsCall → Option Byte
  | .code v => some v
  | _ => none
def ObsCall.handler? : ObsCall → Option Nat
  | .handler v => some v
  | _ => none

def obsCall (o : PropObserver) : ObsCall → PropObserver
  | .esv v => o.setEsv v
  | .code v => o.setCode v
  | .handler v => o.setHandler v

/-- The setters of an observer of messages. -/
inductive MsgObsCall where
  | object (v : Nat)
  | handler (v : Nat)

def MsgObsCall.object? : MsgObsCall → Option Nat
  | .object v => some v
  | _ => none
def MsgObsCall.handler? : MsgObsCall → Option Nat
  | .handler v => some v
  | _ => none

def msgObsCall (o : MsgObserver) : MsgObsCall → MsgObserver
  | .object v => o.setObject v
  | .handler v => o.setHandler v

/-- What a user sees of a datagram: the data, the length, both addresses and both ports. -/
def PktShows (p : Packet) (data : List Byte) (la ra : Option (List Byte)) (lp rp : Int) : Prop :=
  p.getData = .ok data ∧ p.getLength = data.length ∧ p.getLocalAddress = .ok la ∧ p.getLocalPort = lp ∧
    p.getRemoteAddress = .ok ra ∧ p.getRemotePort = rp

/-- One call after the other. -/
def runSetters {α β : Type} (f : α → β → Res α) : α → List β → Res α
  | a, [] => .ok a
  | a, c :: cs => do
      let a' ← f a c
      runSetters f a' cs

end Uecho.Spec
