import Verif.Model.Property
import Verif.Model.Esv
/-!
# message.c

A property array (`byte opc; uEchoProperty** ep`) is a count and the list of the
allocated slots; `ep == NULL` is the empty list. Slots are never NULL because
allocation is assumed to succeed and `uecho_message_addproperty` rejects NULL.
The cached `bytes` pointer is not state of the model: `uecho_message_getbytes` always
reallocates it.
-/
namespace Uecho

/-- `uEchoMessage` — src/uecho/_message.h. -/
structure Message where
  ehd1 : Byte
  ehd2 : Byte
  tid0 : Byte
  tid1 : Byte
  seoj : Byte × Byte × Byte
  deoj : Byte × Byte × Byte
  esv : Byte
  opc : Byte
  ep : List Property
  opcSet : Byte
  epSet : List Property
  opcGet : Byte
  epGet : List Property
  fromAddr : Option String
  toAddr : Option String
deriving DecidableEq, Repr

/-- Byte order of the host, for `htons`/`ntohs`. -/
inductive Endian where
  | little
  | big
deriving DecidableEq, Repr

/-- `htons` = `ntohs` on a 16-bit value. -/
def hton16 (e : Endian) (v : BitVec 16) : BitVec 16 :=
  match e with
  | .big => v
  | .little => v.extractLsb' 0 8 ++ v.extractLsb' 8 8

namespace Message

/-- `uecho_message_settid` — src/uecho/message.c:137-149. `val` is `unsigned int`;
`htons` takes its low 16 bits. -/
def setTid (e : Endian) (m : Message) (val : BitVec 32) : Message :=
  let v := if 65535#32 < val then val % 65535#32 else val
  let n := hton16 e (v.setWidth 16)
  { m with tid0 := n.extractLsb' 8 8, tid1 := n.extractLsb' 0 8 }

/-- `uecho_message_gettid` — src/uecho/message.c:155-159. -/
def getTid (e : Endian) (m : Message) : BitVec 32 :=
  (hton16 e (m.tid0 ++ m.tid1 : BitVec 16)).setWidth 32

/-- Store a 3-byte object code, as `uecho_integer2byte(code, eoj, 3)` does. -/
def eojOfCode (code : CInt) : Res (Byte × Byte × Byte) := do
  match ← integer2byte code 3 with
  | [a, b, c] => return (a, b, c)
  | _ => .ub

/-- Read a 3-byte object code, as `uecho_byte2integer(eoj, 3)` does. -/
def codeOfEoj (e : Byte × Byte × Byte) : Res CInt := byte2integer [e.1, e.2.1, e.2.2]

/-- `uecho_message_setsourceobjectcode` — src/uecho/message.c:165-168. -/
def setSourceObjectCode (m : Message) (code : CInt) : Res Message := do
  let e ← eojOfCode code
  return { m with seoj := e }
/-- `uecho_message_getsourceobjectcode` — src/uecho/message.c:174-177. -/
def getSourceObjectCode (m : Message) : Res CInt := codeOfEoj m.seoj
/-- `uecho_message_setdestinationobjectcode` — src/uecho/message.c:192-195. -/
def setDestinationObjectCode (m : Message) (code : CInt) : Res Message := do
  let e ← eojOfCode code
  return { m with deoj := e }
/-- `uecho_message_getdestinationobjectcode` — src/uecho/message.c:201-204. -/
def getDestinationObjectCode (m : Message) : Res CInt := codeOfEoj m.deoj

/-- `uecho_message_setesv` — src/uecho/message.c:320-328. -/
def setEsv (m : Message) (e : Byte) : Message := { m with esv := e }

/-- `uecho_message_setehd1` / `setehd2` — src/uecho/message.c:284-314. -/
def setEhd (m : Message) (a b : Byte) : Message := { m with ehd1 := a, ehd2 := b }

/-- `uecho_message_new` — src/uecho/message.c:23-53. The TID 0 and object codes 0
are stored as zero bytes. -/
def new : Message :=
  { ehd1 := 0x10, ehd2 := 0x81, tid0 := 0, tid1 := 0, seoj := (0, 0, 0), deoj := (0, 0, 0),
    esv := 0, opc := 0, ep := [], opcSet := 0, epSet := [], opcGet := 0, epGet := [],
    fromAddr := none, toAddr := none }

/-- `uecho_message_isreadwritemessage` — src/uecho/message.c:771-780. -/
def isReadWrite (m : Message) : Bool := Esv.isReadWrite m.esv

/-- The slots `ep[0..opc)` visited by a `for (n = 0; n < opc; n++) ... ep[n]` loop; UB if
the array is shorter than its count. (A C loop that returns early would touch
fewer slots; calling this UB earlier is conservative.) -/
def slots (opc : Byte) (ep : List Property) : Res (List Property) :=
  if opc.toNat ≤ ep.length then .ok (ep.take opc.toNat) else .ub

/-- `uecho_properties_clear` / `uecho_message_clearproperties` — src/uecho/message.c:75-101. -/
def clearProperties (m : Message) : Res Message := do
  let _ ← slots m.opc m.ep
  let _ ← slots m.opcSet m.epSet
  let _ ← slots m.opcGet m.epGet
  return { m with opc := 0, ep := [], opcSet := 0, epSet := [], opcGet := 0, epGet := [] }

/-- `uecho_message_clear` — src/uecho/message.c:107-131. -/
def clear (m : Message) : Res Message :=
  clearProperties { m with fromAddr := none, toAddr := none }

/-- `uecho_message_setopcep` — src/uecho/message.c:219-230: allocate `count` fresh
properties; with count 0 the array pointer is left alone. -/
def setOpcEp (ep : List Property) (count : Byte) : Byte × List Property :=
  if count = 0 then (count, ep) else (count, List.replicate count.toNat Property.new)

/-- `uecho_message_getopc` — src/uecho/message.c:257-260. -/
def getOpc (m : Message) : Byte := m.opc
/-- `uecho_message_getopcset` — src/uecho/message.c:266-269. -/
def getOpcSet (m : Message) : Byte := m.opcSet
/-- `uecho_message_getopcget` — src/uecho/message.c:275-278. -/
def getOpcGet (m : Message) : Byte := m.opcGet

/-- `uecho_property_add` — src/uecho/message.c:589-595. The count is a byte: adding to
255 properties wraps it to 0, the array is reallocated to 0 bytes (freed) and the
store goes to index -1. When the block does not have exactly `opc` slots the
model gives UB (the invariant `WF` excludes that). -/
def propAdd (opc : Byte) (ep : List Property) (p : Property) : Res (Byte × List Property) :=
  let opc' := opc + 1
  if opc' = 0 then .ub
  else if ep.length = opc.toNat then .ok (opc', ep ++ [p])
  else .ub

/-- `uecho_message_addproperty` — src/uecho/message.c:597-602. -/
def addProperty (m : Message) (p : Property) : Res Message := do
  let (o, e) ← propAdd m.opc m.ep p
  return { m with opc := o, ep := e }
/-- `uecho_message_addpropertyset` — src/uecho/message.c:604-609. -/
def addPropertySet (m : Message) (p : Property) : Res Message := do
  let (o, e) ← propAdd m.opcSet m.epSet p
  return { m with opcSet := o, epSet := e }
/-- `uecho_message_addpropertyget` — src/uecho/message.c:611-616. -/
def addPropertyGet (m : Message) (p : Property) : Res Message := do
  let (o, e) ← propAdd m.opcGet m.epGet p
  return { m with opcGet := o, epGet := e }

/-- `uecho_property_get` — src/uecho/message.c:622-627. `(opc - 1) < n` compares the `int`
`opc - 1`, converted to `size_t`, with `n`. -/
def propGet (opc : Byte) (ep : List Property) (n : Nat) : Res (Option Property) :=
  if ep = [] then .ok none
  else if szSub opc.toNat 1 < n then .ok none
  else do
    let p ← rd ep n
    return some p

/-- `uecho_message_getproperty` — src/uecho/message.c:629-634. -/
def getProperty (m : Message) (n : Nat) : Res (Option Property) := propGet m.opc m.ep n
/-- `uecho_message_getpropertyset` — src/uecho/message.c:636-641. -/
def getPropertySet (m : Message) (n : Nat) : Res (Option Property) := propGet m.opcSet m.epSet n
/-- `uecho_message_getpropertyget` — src/uecho/message.c:643-648. -/
def getPropertyGet (m : Message) (n : Nat) : Res (Option Property) := propGet m.opcGet m.epGet n

/-- `uecho_property_getbycode` — src/uecho/message.c:654-666: first slot with the code. -/
def propGetByCode (opc : Byte) (ep : List Property) (code : Byte) : Res (Option Property) := do
  let s ← slots opc ep
  return s.find? (fun p => p.code == code)

/-- `uecho_message_getpropertybycode` — src/uecho/message.c:668-673. -/
def getPropertyByCode (m : Message) (code : Byte) : Res (Option Property) :=
  propGetByCode m.opc m.ep code
/-- `uecho_message_getpropertysetbycode` — src/uecho/message.c:675-680. -/
def getPropertySetByCode (m : Message) (code : Byte) : Res (Option Property) :=
  propGetByCode m.opcSet m.epSet code
/-- `uecho_message_getpropertygetbycode` — src/uecho/message.c:682-687. -/
def getPropertyGetByCode (m : Message) (code : Byte) : Res (Option Property) :=
  propGetByCode m.opcGet m.epGet code

/-- Replace the first property with the given code by its image (the store through
the pointer returned by `uecho_property_getbycode`). -/
def modifyFirst (code : Byte) (f : Property → Property) : List Property → List Property
  | [] => []
  | p :: ps => if p.code == code then f p :: ps else p :: modifyFirst code f ps

/-- `uecho_property_set` — src/uecho/message.c:693-708. -/
def propSet (opc : Byte) (ep : List Property) (code : Byte) (d : List Byte) :
    Res (Byte × List Property) := do
  match ← propGetByCode opc ep code with
  | some _ => return (opc, modifyFirst code (fun p => (p.setData d).1) ep)
  | none =>
      let (o, e) ← propAdd opc ep (Property.new.setCode code)
      -- the new property is the last slot; set its data
      return (o, e.dropLast ++ (e.getLast?.toList.map (fun p => (p.setData d).1)))

/-- `uecho_message_setproperty` — src/uecho/message.c:710-715. -/
def setProperty (m : Message) (code : Byte) (d : List Byte) : Res Message := do
  let (o, e) ← propSet m.opc m.ep code d
  return { m with opc := o, ep := e }
/-- `uecho_message_setpropertyset` — src/uecho/message.c:717-722. -/
def setPropertySet (m : Message) (code : Byte) (d : List Byte) : Res Message := do
  let (o, e) ← propSet m.opcSet m.epSet code d
  return { m with opcSet := o, epSet := e }
/-- `uecho_message_setpropertyget` — src/uecho/message.c:724-729. -/
def setPropertyGet (m : Message) (code : Byte) (d : List Byte) : Res Message := do
  let (o, e) ← propSet m.opcGet m.epGet code d
  return { m with opcGet := o, epGet := e }

/-- `uecho_message_property_parse` — src/uecho/message.c:735-769, over the slots still to
fill. Result: success flag, slots as left in memory, offset. -/
def propertyParse (data : List Byte) (len : Nat) :
    List Property → Nat → Res (Bool × List Property × Nat)
  | [], off => .ok (true, [], off)
  | p :: ps, off =>
    if szSub len 1 < off then .ok (false, p :: ps, off)
    else do
      let c ← rd data off
      let p := p.setCode c
      let off := off + 1
      if szSub len 1 < off then .ok (false, p :: ps, off)
      else do
        let cnt ← rd data off
        let off := off + 1
        if szSub len 1 < szSub (off + cnt.toNat) 1 then .ok (false, p :: ps, off)
        else do
          let d ← rdN data off cnt.toNat
          let p := (p.setData d).1
          let (ok, ps', off') ← propertyParse data len ps (off + cnt.toNat)
          return (ok, p :: ps', off')

/-- `uecho_message_parse` — src/uecho/message.c:782-847. `data` is the memory block the
pointer refers to, `len` the `dataLen` argument. -/
def parse (m : Message) (data : List Byte) (len : Nat) : Res (Bool × Message) := do
  let m ← m.clear
  if len < 12 then return (false, m)
  let d0 ← rd data 0
  if d0 ≠ 0x10#8 then return (false, m)
  let d1 ← rd data 1
  if d1 ≠ 0x81#8 then return (false, m)
  let t0 ← rd data 2
  let t1 ← rd data 3
  let s0 ← rd data 4
  let s1 ← rd data 5
  let s2 ← rd data 6
  let e0 ← rd data 7
  let e1 ← rd data 8
  let e2 ← rd data 9
  let esv ← rd data 10
  let m := { m with tid0 := t0, tid1 := t1, seoj := (s0, s1, s2), deoj := (e0, e1, e2), esv := esv }
  let cnt ← rd data 11
  if m.isReadWrite then
    let (o, e) := setOpcEp m.epSet cnt
    let s ← slots o e
    let (ok, e', off) ← propertyParse data len s 12
    let m := { m with opcSet := o, epSet := e' }
    if !ok then return (false, m)
    if szSub len 1 < off then return (false, m)
    let cnt2 ← rd data off
    let (o2, e2) := setOpcEp m.epGet cnt2
    let s2 ← slots o2 e2
    let (ok2, e2', _) ← propertyParse data len s2 (off + 1)
    let m := { m with opcGet := o2, epGet := e2' }
    return (ok2, m)
  else
    let (o, e) := setOpcEp m.ep cnt
    let s ← slots o e
    let (ok, e', _) ← propertyParse data len s 12
    return (ok, { m with opc := o, ep := e' })

/-- `uecho_message_setsourceaddress` — src/uecho/message.c:436-439, via `uecho_strloc`
(src/uecho/util/strings_function.c:47-63), which leaves the field alone when the
argument is NULL. -/
def setSourceAddress (m : Message) (a : Option String) : Message :=
  match a with
  | none => m
  | some s => { m with fromAddr := some s }
/-- `uecho_message_setdestinationaddress` — src/uecho/message.c:463-466. -/
def setDestinationAddress (m : Message) (a : Option String) : Message :=
  match a with
  | none => m
  | some s => { m with toAddr := some s }

/-- `uecho_message_parsepacket` — src/uecho/message.c:853-865: parse, then the local and
finally the remote address of the datagram as source address. -/
def parsePacket (m : Message) (data : List Byte) (localAddr remoteAddr : Option String) :
    Res (Bool × Message) := do
  let (ok, m) ← m.parse data data.length
  if !ok then return (false, m)
  return (true, (m.setSourceAddress localAddr).setSourceAddress remoteAddr)

/-- `uecho_message_opcsize` — src/uecho/message.c:871-886. -/
def opcSize (opc : Byte) (ep : List Property) : Res Nat := do
  let s ← slots opc ep
  return s.foldl (fun n p => n + 2 + p.data.length) 0

/-- `uecho_message_size` — src/uecho/message.c:888-907. -/
def size (m : Message) : Res Nat := do
  if m.isReadWrite then
    let a ← opcSize m.opcSet m.epSet
    let b ← opcSize m.opcGet m.epGet
    return 12 + a + 1 + b
  else
    let a ← opcSize m.opc m.ep
    return 12 + a

/-- `uecho_message_setopcbytes` — src/uecho/message.c:913-930: write EPC, PDC (the low
byte of the size) and EDT of every slot. -/
def setOpcBytes : List Property → List (Option Byte) → Nat → Res (List (Option Byte) × Nat)
  | [], buf, off => .ok (buf, off)
  | p :: ps, buf, off => do
      let buf ← wr buf off (some p.code)
      let buf ← wr buf (off + 1) (some (BitVec.ofNat 8 p.data.length))
      if p.data.length ≤ 0 then setOpcBytes ps buf (off + 2)
      else do
        let buf ← wrN buf (off + 2) (p.data.map some)
        setOpcBytes ps buf (off + 2 + p.data.length)

/-- `uecho_message_getbytes` — src/uecho/message.c:932-969. The buffer has
`uecho_message_size` uninitialised bytes. -/
def getBytes (m : Message) : Res (List (Option Byte)) := do
  let sz ← m.size
  let buf := List.replicate sz (none : Option Byte)
  let buf ← wr buf 0 (some m.ehd1)
  let buf ← wr buf 1 (some m.ehd2)
  let buf ← wr buf 2 (some m.tid0)
  let buf ← wr buf 3 (some m.tid1)
  let buf ← wr buf 4 (some m.seoj.1)
  let buf ← wr buf 5 (some m.seoj.2.1)
  let buf ← wr buf 6 (some m.seoj.2.2)
  let buf ← wr buf 7 (some m.deoj.1)
  let buf ← wr buf 8 (some m.deoj.2.1)
  let buf ← wr buf 9 (some m.deoj.2.2)
  let buf ← wr buf 10 (some m.esv)
  if m.isReadWrite then
    let buf ← wr buf 11 (some m.opcSet)
    let s ← slots m.opcSet m.epSet
    let (buf, off) ← setOpcBytes s buf 12
    let buf ← wr buf off (some m.opcGet)
    let s ← slots m.opcGet m.epGet
    let (buf, _) ← setOpcBytes s buf (off + 1)
    return buf
  else
    let buf ← wr buf 11 (some m.opc)
    let s ← slots m.opc m.ep
    let (buf, _) ← setOpcBytes s buf 12
    return buf

/-- Loop of `uecho_message_set` — src/uecho/message.c:994-1003: for `n` in `ns`, copy the
n-th plain property of the source. -/
def copyProps (src : Message) : List Nat → Message → Res Message
  | [], dst => .ok dst
  | n :: ns, dst => do
      match ← src.getProperty n with
      | none => copyProps src ns dst
      | some p => do
          let dst ← dst.addProperty p.copy
          copyProps src ns dst

/-- `uecho_message_set(msg, srcMsg)` — src/uecho/message.c:975-1006 (for two different
message objects). The set/get sections are not copied. -/
def setFrom (e : Endian) (dst src : Message) : Res Message := do
  let dst ← dst.clear
  let dst := dst.setEhd src.ehd1 src.ehd2
  let dst := dst.setTid e (src.getTid e)
  let sc ← src.getSourceObjectCode
  let dst ← dst.setSourceObjectCode sc
  let dc ← src.getDestinationObjectCode
  let dst ← dst.setDestinationObjectCode dc
  let dst := dst.setEsv src.esv
  let dst := dst.setSourceAddress src.fromAddr
  let dst := dst.setDestinationAddress src.toAddr
  copyProps src (List.range src.opc.toNat) dst

/-- `uecho_message_copy` — src/uecho/message.c:1012-1023. -/
def copy (e : Endian) (src : Message) : Res Message := setFrom e new src

/-- `uecho_message_equals` — src/uecho/message.c:1029-1042. `memcmp` of indeterminate
bytes would be UB. -/
def equals (m1 m2 : Message) : Res Bool := do
  let s1 ← m1.size
  let s2 ← m2.size
  if s1 ≠ s2 then return false
  let b1 ← m1.getBytes
  let b2 ← m2.getBytes
  if (b1.take s1).all Option.isSome && (b2.take s1).all Option.isSome
      && s1 ≤ b1.length && s1 ≤ b2.length then
    return b1.take s1 == b2.take s1
  else .ub

/-- `uecho_message_isresponserequired` — src/uecho/message.c:404-412. -/
def isResponseRequired (m : Message) : Bool := (Esv.requestToResponse m.esv).isSome

/-- `uecho_message_isresponsemessage` — src/uecho/message.c:418-430. -/
def isResponseMessage (e : Endian) (m res : Message) : Bool :=
  if m.getTid e != res.getTid e then false
  else if m.esv == res.esv then false
  else true

/-- `uecho_message_search_new` — src/uecho/message_search.c:18-39 (ESV 0x62, both
objects 0x0EF001, property 0xD6 with no data). -/
def searchNew : Res Message := do
  let m := new.setEsv Esv.readRequest
  let m ← m.setSourceObjectCode 0x0EF001
  let m ← m.setDestinationObjectCode 0x0EF001
  m.addProperty ((Property.new.setCode 0xD6).setData []).1

/-- `uecho_message_issearchrequest` — src/uecho/message_search.c:45-60. A NULL property
would give code 0 (uecho_property_getcode). -/
def isSearchRequest (m : Message) : Res Bool := do
  if m.esv ≠ Esv.readRequest then return false
  if m.opc ≠ 1 then return false
  match ← m.getProperty 0 with
  | none => return false
  | some p => return p.code == 0xD6#8

/-- `uecho_message_issearchresponse` — src/uecho/message_search.c:66-83. -/
def isSearchResponse (m : Message) : Res Bool := do
  if m.esv ≠ Esv.readResponse ∧ m.esv ≠ Esv.notification ∧ m.esv ≠ Esv.notificationResponse then
    return false
  if m.opc ≠ 1 then return false
  match ← m.getProperty 0 with
  | none => return false
  | some p => return p.code == 0xD6#8

end Message
end Uecho
