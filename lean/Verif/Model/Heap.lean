import Verif.Model.Message
/-!
# Memory blocks: which are allocated, who frees them

The other models describe the contents of memory; this one describes the blocks. The heap is the list of the blocks that are
allocated. A new block has an address that no block had before, so a pointer to a freed block never becomes valid again; `free` of, or
access to, a block that is not allocated is undefined behaviour. A C structure is modelled by its own address and the addresses of the
blocks its pointer fields point to, together with the contents that decide what the code does.

Simplifications. Allocation succeeds. `realloc` always moves the block. Contents of blocks
that only hold bytes to be sent are not here: see `Model/Message`.
-/
namespace Uecho
namespace Heap

/-- The heap: the addresses of the allocated blocks, and an address above all that were ever used. -/
structure Mem where
  live : List Nat
  next : Nat
deriving DecidableEq, Repr

/-- A piece of C code that works on the heap. -/
def H (α : Type) := Mem → Res (α × Mem)

instance : Monad H where
  pure a := fun m => .ok (a, m)
  bind x f := fun m => x m >>= fun r => f r.1 r.2

/-- `malloc`, `calloc`, `strdup`. -/
def malloc : H Nat := fun m => .ok (m.next, ⟨m.next :: m.live, m.next + 1⟩)

/-- `free` of a pointer that is not NULL. -/
def free (a : Nat) : H Unit := fun m => if a ∈ m.live then .ok ((), { m with live := m.live.erase a }) else .ub

/-- An access through the pointer `a`. -/
def use (a : Nat) : H Unit := fun m => if a ∈ m.live then .ok ((), m) else .ub

/-- Undefined behaviour. -/
def undef {α : Type} : H α := fun _ => .ub

/-- A computation on contents. -/
def lift {α : Type} (x : Res α) : H α := fun m => x >>= fun a => .ok (a, m)

/-- `if (p) free(p)`. -/
def freeOpt {α : Type} : Option (Nat × α) → H Unit
  | none => pure ()
  | some (a, _) => free a

/-- An access through a pointer unless it is NULL. -/
def useOpt {α : Type} : Option (Nat × α) → H Unit
  | none => pure ()
  | some (a, _) => use a

/-- `realloc` of a pointer that may be NULL, to a size that is not 0. -/
def realloc {α : Type} (p : Option (Nat × α)) : H Nat := do
  freeOpt p
  malloc

/-! ### util/strings.c -/

/-- `uEchoString` — src/uecho/util/strings.h: the structure and its text. -/
structure HStr where
  self : Nat
  val : Option (Nat × String)
deriving DecidableEq, Repr

/-- `uecho_string_new` — src/uecho/util/strings.c:23-36. -/
def strNew : H HStr := do
  let a ← malloc
  return ⟨a, none⟩

/-- `uecho_string_clear` — src/uecho/util/strings.c:54-64. -/
def strClear (s : HStr) : H HStr := do
  use s.self
  freeOpt s.val
  return { s with val := none }

/-- `uecho_string_delete` — src/uecho/util/strings.c:42-48. -/
def strDelete (s : HStr) : H Unit := do
  let s ← strClear s
  free s.self

/-- `uecho_string_setvalue` — src/uecho/util/strings.c:70-76, with `uecho_string_setnvalue` (lines 104-122). -/
def strSetValue (s : HStr) (v : Option String) : H HStr :=
  match v with
  | none => pure s
  | some t => do
      let s ← strClear s
      let a ← malloc
      return { s with val := some (a, t) }

/-- Reading the text of a string: `uecho_string_getvalue` — src/uecho/util/strings.c:142-145 — and what its caller does with it. -/
def strRead (s : HStr) : H (Option String) := do
  use s.self
  useOpt s.val
  return s.val.map (·.2)

/-! ### property.c -/

/-- `uEchoProperty` — src/uecho/_property.h:36-48. -/
structure HProp where
  self : Nat
  name : HStr
  code : Byte
  attr : CInt
  type : CInt
  data : Option (Nat × List Byte)
  hasParent : Bool
deriving DecidableEq, Repr

/-- The bytes behind a data pointer. -/
def bytesOf : Option (Nat × List Byte) → List Byte
  | none => []
  | some (_, d) => d

/-- The contents: the property of `Model/Property`. -/
def HProp.val (p : HProp) : Property :=
  { name := p.name.val.map (·.2), code := p.code, attr := p.attr, type := p.type, data := bytesOf p.data, hasParent := p.hasParent }

/-- `uecho_property_new` — src/uecho/property.c:23-49. -/
def propNew : H HProp := do
  let a ← malloc
  let s ← strNew
  return ⟨a, s, 0, Attr.readWrite, 0, none, false⟩

/-- `uecho_property_cleardata` — src/uecho/property.c:368-381. -/
def propClearData (p : HProp) : H HProp := do
  use p.self
  freeOpt p.data
  return { p with data := none }

/-- `uecho_property_delete` — src/uecho/property.c:55-70. -/
def propDelete (p : HProp) : H Unit := do
  use p.self
  strDelete p.name
  let p ← propClearData p
  free p.self

/-- `uecho_property_setcount` — src/uecho/property.c:102-119. -/
def propSetCount (p : HProp) (n : Nat) : H HProp := do
  let p ← propClearData p
  if n = 0 then pure p
  else do
    let a ← malloc
    return { p with data := some (a, List.replicate n 0) }

/-- `uecho_property_setdata` — src/uecho/property.c:149-169, of a property without a parent object (no announcement). -/
def propSetData (p : HProp) (d : List Byte) : H HProp := do
  let p ← propSetCount p d.length
  match p.data with
  | none => pure p
  | some (a, _) => do
      use a
      return { p with data := some (a, d) }

/-- `uecho_property_adddata` — src/uecho/property.c:175-199, with `uecho_property_addcount` (lines 125-143). -/
def propAddData (p : HProp) (d : List Byte) : H HProp :=
  if d.length = 0 then pure p
  else do
    use p.self
    let a ← realloc p.data
    return { p with data := some (a, bytesOf p.data ++ d) }

/-- `uecho_property_setintegerdata` — src/uecho/property.c:214-233. -/
def propSetInteger (p : HProp) (v : CInt) (size : Nat) : H HProp := do
  let t ← malloc
  let b ← lift (integer2byte v size)
  use t
  let p ← propSetData p b
  free t
  return p

/-- `uecho_property_setname` — src/uecho/property.c:405-410. -/
def propSetName (p : HProp) (v : Option String) : H HProp := do
  use p.self
  let s ← strSetValue p.name v
  return { p with name := s }

/-- Reading the data of a property. -/
def propRead (p : HProp) : H (List Byte) := do
  use p.self
  useOpt p.data
  return bytesOf p.data

/-- `uecho_property_copy` — src/uecho/property.c:623-641. -/
def propCopy (p : HProp) : H HProp := do
  let q ← propNew
  use p.self
  let n ← strRead p.name
  let q ← propSetName { q with code := p.code } n
  let d ← propRead p
  propSetData { q with attr := p.attr } d

/-! ### message.c -/

/-- A property array of a message: `byte opc; uEchoProperty** ep` — src/uecho/_message.h. -/
structure HSec where
  cnt : Byte
  arr : Option (Nat × List HProp)
deriving DecidableEq, Repr

/-- The slots of the array. -/
def slotsOf : Option (Nat × List HProp) → List HProp
  | none => []
  | some (_, ps) => ps

/-- `uEchoMessage` — src/uecho/_message.h. Of `hd` only the header fields (EHD, TID, SEOJ, DEOJ, ESV) count. -/
structure HMsg where
  self : Nat
  hd : Message
  plain : HSec
  set : HSec
  get : HSec
  bytes : Option (Nat × Unit)
  fromA : Option (Nat × String)
  toA : Option (Nat × String)
deriving DecidableEq, Repr

/-- The contents: the message of `Model/Message`. -/
def HMsg.val (m : HMsg) : Message :=
  { m.hd with opc := m.plain.cnt, ep := (slotsOf m.plain.arr).map HProp.val,
              opcSet := m.set.cnt, epSet := (slotsOf m.set.arr).map HProp.val,
              opcGet := m.get.cnt, epGet := (slotsOf m.get.arr).map HProp.val,
              fromAddr := m.fromA.map (·.2), toAddr := m.toA.map (·.2) }

/-- `uecho_message_new` — src/uecho/message.c:23-53. -/
def msgNew : H HMsg := do
  let a ← malloc
  return ⟨a, Message.new, ⟨0, none⟩, ⟨0, none⟩, ⟨0, none⟩, none, none, none⟩

/-- The loop of `uecho_properties_clear` — src/uecho/message.c:77-81. -/
def deleteAll : List HProp → H Unit
  | [] => pure ()
  | p :: ps => do
      propDelete p
      deleteAll ps

/-- `uecho_properties_clear` — src/uecho/message.c:75-91: as many slots as the count says. -/
def secClear (s : HSec) : H HSec :=
  if s.cnt.toNat ≤ (slotsOf s.arr).length then do
    useOpt s.arr
    deleteAll ((slotsOf s.arr).take s.cnt.toNat)
    freeOpt s.arr
    return ⟨0, none⟩
  else undef

/-- `uecho_message_clear` — src/uecho/message.c:107-131. -/
def msgClear (m : HMsg) : H HMsg := do
  use m.self
  freeOpt m.bytes
  freeOpt m.fromA
  freeOpt m.toA
  let p ← secClear m.plain
  let s ← secClear m.set
  let g ← secClear m.get
  return { m with bytes := none, fromA := none, toA := none, plain := p, set := s, get := g }

/-- `uecho_message_delete` — src/uecho/message.c:59-69. -/
def msgDelete (m : HMsg) : H Unit := do
  let m ← msgClear m
  free m.self

/-- The loop of `uecho_message_setopcep` — src/uecho/message.c:226-228. -/
def newProps : Nat → H (List HProp)
  | 0 => pure []
  | k + 1 => do
      let p ← propNew
      let ps ← newProps k
      return p :: ps

/-- `uecho_message_setopcep` — src/uecho/message.c:219-230: the old array is not freed. -/
def secSetOpc (s : HSec) (count : Byte) : H HSec :=
  if count = 0 then pure { s with cnt := 0 }
  else do
    let a ← malloc
    let ps ← newProps count.toNat
    return ⟨count, some (a, ps)⟩

/-- `uecho_property_add` — src/uecho/message.c:589-595. Adding the 256th property is a store before the block. -/
def secAdd (s : HSec) (p : HProp) : H HSec :=
  if s.cnt + 1 = 0 then undef
  else if s.cnt.toNat ≤ (slotsOf s.arr).length then do
    let a ← realloc s.arr
    return ⟨s.cnt + 1, some (a, (slotsOf s.arr).take s.cnt.toNat ++ [p])⟩
  else undef

/-- A store through the pointer to the first property with the code. -/
def modFirst (code : Byte) (f : HProp → H HProp) : List HProp → H (List HProp)
  | [] => pure []
  | p :: ps =>
      if p.code == code then do
        let q ← f p
        return q :: ps
      else do
        let qs ← modFirst code f ps
        return p :: qs

/-- `uecho_property_set` — src/uecho/message.c:693-708. -/
def secSetProp (s : HSec) (code : Byte) (d : List Byte) : H HSec :=
  if s.cnt.toNat ≤ (slotsOf s.arr).length then
    match s.arr with
    | some (a, ps) =>
        if (ps.take s.cnt.toNat).any (fun p => p.code == code) then do
          use a
          let qs ← modFirst code (fun p => propSetData p d) ps
          return { s with arr := some (a, qs) }
        else do
          use a
          let p ← propNew
          -- the pointer stays valid while the array moves
          let p ← propSetData { p with code := code } d
          secAdd s p
    | none => do
        let p ← propNew
        let p ← propSetData { p with code := code } d
        secAdd s p
  else undef

/-- `uecho_message_property_parse` — src/uecho/message.c:735-769 (compare `Message.propertyParse`). -/
def secParse (data : List Byte) (len : Nat) : List HProp → Nat → H (Bool × List HProp × Nat)
  | [], off => pure (true, [], off)
  | p :: ps, off =>
    if szSub len 1 < off then pure (false, p :: ps, off)
    else do
      let c ← lift (rd data off)
      use p.self
      if szSub len 1 < off + 1 then pure (false, { p with code := c } :: ps, off + 1)
      else do
        let cnt ← lift (rd data (off + 1))
        if szSub len 1 < szSub (off + 1 + 1 + cnt.toNat) 1 then pure (false, { p with code := c } :: ps, off + 1 + 1)
        else do
          let d ← lift (rdN data (off + 1 + 1) cnt.toNat)
          let q ← propSetData { p with code := c } d
          let r ← secParse data len ps (off + 1 + 1 + cnt.toNat)
          return (r.1, q :: r.2.1, r.2.2)

/-- One property array of the frame: `uecho_message_setopc…` and `uecho_message_property_parse`. -/
def secRead (s : HSec) (count : Byte) (data : List Byte) (len off : Nat) : H (Bool × HSec × Nat) := do
  let s ← secSetOpc s count
  match s.arr with
  | none => pure (true, s, off)
  | some (a, ps) =>
      if s.cnt.toNat ≤ ps.length then do
        use a
        let r ← secParse data len (ps.take s.cnt.toNat) off
        return (r.1, { s with arr := some (a, r.2.1 ++ ps.drop s.cnt.toNat) }, r.2.2)
      else undef

/-- The second half of `uecho_message_parse` for SetGet messages — src/uecho/message.c:822-835. -/
def msgParseRW (m : HMsg) (data : List Byte) (len : Nat) (cnt : Byte) : H (Bool × HMsg) := do
  let r ← secRead m.set cnt data len 12
  if r.1 then
    if szSub len 1 < r.2.2 then pure (false, { m with set := r.2.1 })
    else do
      let cnt2 ← lift (rd data r.2.2)
      let r2 ← secRead m.get cnt2 data len (r.2.2 + 1)
      return (r2.1, { m with set := r.2.1, get := r2.2.1 })
  else pure (false, { m with set := r.2.1 })

/-- The second half of `uecho_message_parse` for the other messages — src/uecho/message.c:836-842. -/
def msgParsePlain (m : HMsg) (data : List Byte) (len : Nat) (cnt : Byte) : H (Bool × HMsg) := do
  let r ← secRead m.plain cnt data len 12
  return (r.1, { m with plain := r.2.1 })

/-- The fields of the frame before the properties. -/
structure Hdr where
  tid0 : Byte
  tid1 : Byte
  seoj : Byte × Byte × Byte
  deoj : Byte × Byte × Byte
  esv : Byte

/-- Storing them — src/uecho/message.c:801-818. -/
def Hdr.put (h : Hdr) (m : Message) : Message :=
  { m with tid0 := h.tid0, tid1 := h.tid1, seoj := h.seoj, deoj := h.deoj, esv := h.esv }

/-- The fields before the properties — src/uecho/message.c:789-818: `none` if the header is refused. -/
def readHeader (data : List Byte) (len : Nat) : Res (Option Hdr) :=
  if len < 12 then .ok none
  else do
    let d0 ← rd data 0
    if d0 ≠ 0x10#8 then .ok none
    else do
      let d1 ← rd data 1
      if d1 ≠ 0x81#8 then .ok none
      else do
        let t0 ← rd data 2
        let t1 ← rd data 3
        let s0 ← rd data 4
        let s1 ← rd data 5
        let s2 ← rd data 6
        let e0 ← rd data 7
        let e1 ← rd data 8
        let e2 ← rd data 9
        let esv ← rd data 10
        .ok (some { tid0 := t0, tid1 := t1, seoj := (s0, s1, s2), deoj := (e0, e1, e2), esv := esv })

/-- `uecho_message_parse` — src/uecho/message.c:782-847. -/
def msgParse (m : HMsg) (data : List Byte) (len : Nat) : H (Bool × HMsg) := do
  let m ← msgClear m
  let h ← lift (readHeader data len)
  match h with
  | none => pure (false, m)
  | some h => do
      let cnt ← lift (rd data 11)
      if Esv.isReadWrite h.esv then msgParseRW { m with hd := h.put m.hd } data len cnt
      else msgParsePlain { m with hd := h.put m.hd } data len cnt

/-- `uecho_strloc` — src/uecho/util/strings_function.c:47-63. -/
def strloc (v : Option String) (p : Option (Nat × String)) : H (Option (Nat × String)) :=
  match v with
  | none => pure p
  | some t => do
      freeOpt p
      let a ← malloc
      return some (a, t)

/-- `uecho_message_setsourceaddress` — src/uecho/message.c:436-439. -/
def msgSetSource (m : HMsg) (v : Option String) : H HMsg := do
  use m.self
  let p ← strloc v m.fromA
  return { m with fromA := p }

/-- `uecho_message_setdestinationaddress` — src/uecho/message.c:463-466. -/
def msgSetDest (m : HMsg) (v : Option String) : H HMsg := do
  use m.self
  let p ← strloc v m.toA
  return { m with toA := p }

/-- Reading the data of all the properties of an array — the loop of `uecho_message_setopcbytes`, src/uecho/message.c:917-928. -/
def readAll : List HProp → H Unit
  | [] => pure ()
  | p :: ps => do
      let _ ← propRead p
      readAll ps

/-- Reading a property array. -/
def secReadAll (s : HSec) : H Unit :=
  if s.cnt.toNat ≤ (slotsOf s.arr).length then do
    useOpt s.arr
    readAll ((slotsOf s.arr).take s.cnt.toNat)
  else undef

/-- The property arrays that are sent. -/
def msgReadSecs (m : HMsg) : H Unit :=
  if m.hd.isReadWrite then do
    secReadAll m.set
    secReadAll m.get
  else secReadAll m.plain

/-- `uecho_message_getbytes` — src/uecho/message.c:932-969. -/
def msgGetBytes (m : HMsg) : H HMsg := do
  use m.self
  freeOpt m.bytes
  let a ← malloc
  msgReadSecs m
  use a
  return { m with bytes := some (a, ()) }

/-- The loop of `uecho_message_set` — src/uecho/message.c:994-1003. -/
def copyAll : List HProp → HSec → H HSec
  | [], s => pure s
  | p :: ps, s => do
      let q ← propCopy p
      let s ← secAdd s q
      copyAll ps s

/-- Reading an address. -/
def addrRead (p : Option (Nat × String)) : H (Option String) := do
  useOpt p
  return p.map (·.2)

/-- `uecho_message_set` — src/uecho/message.c:975-1006, of two different messages: only the plain array is copied. -/
def msgSet (dst src : HMsg) : H HMsg := do
  let dst ← msgClear dst
  use src.self
  let f ← addrRead src.fromA
  let dst ← msgSetSource { dst with hd := src.hd } f
  let t ← addrRead src.toA
  let dst ← msgSetDest dst t
  if src.plain.cnt.toNat ≤ (slotsOf src.plain.arr).length then do
    useOpt src.plain.arr
    let s ← copyAll ((slotsOf src.plain.arr).take src.plain.cnt.toNat) dst.plain
    return { dst with plain := s }
  else undef

/-- `uecho_message_copy` — src/uecho/message.c:1012-1023. -/
def msgCopy (src : HMsg) : H HMsg := do
  let m ← msgNew
  msgSet m src

/-- `uecho_message_equals` — src/uecho/message.c:1029-1042, of two different messages of the same size. -/
def msgEquals (m1 m2 : HMsg) : H (HMsg × HMsg) := do
  let m1 ← msgGetBytes m1
  let m2 ← msgGetBytes m2
  useOpt m1.bytes
  useOpt m2.bytes
  return (m1, m2)

/-- `uecho_message_addproperty` — src/uecho/message.c:597-602. -/
def msgAdd (m : HMsg) (p : HProp) : H HMsg := do
  use m.self
  let s ← secAdd m.plain p
  return { m with plain := s }

/-- `uecho_message_addpropertyset` — src/uecho/message.c:604-609. -/
def msgAddSet (m : HMsg) (p : HProp) : H HMsg := do
  use m.self
  let s ← secAdd m.set p
  return { m with set := s }

/-- `uecho_message_addpropertyget` — src/uecho/message.c:611-616. -/
def msgAddGet (m : HMsg) (p : HProp) : H HMsg := do
  use m.self
  let s ← secAdd m.get p
  return { m with get := s }

/-- `uecho_message_setproperty` — src/uecho/message.c:710-715. -/
def msgSetProp (m : HMsg) (code : Byte) (d : List Byte) : H HMsg := do
  use m.self
  let s ← secSetProp m.plain code d
  return { m with plain := s }

/-- `uecho_message_setpropertyset` — src/uecho/message.c:717-722. -/
def msgSetPropSet (m : HMsg) (code : Byte) (d : List Byte) : H HMsg := do
  use m.self
  let s ← secSetProp m.set code d
  return { m with set := s }

/-- `uecho_message_setpropertyget` — src/uecho/message.c:724-729. -/
def msgSetPropGet (m : HMsg) (code : Byte) (d : List Byte) : H HMsg := do
  use m.self
  let s ← secSetProp m.get code d
  return { m with get := s }

/-- `uecho_message_setopc` — src/uecho/message.c:232-237. -/
def msgSetOpc (m : HMsg) (count : Byte) : H HMsg := do
  use m.self
  let s ← secSetOpc m.plain count
  return { m with plain := s }

/-- `uecho_message_search_new` — src/uecho/message_search.c:18-39 (the codes of the header: see `Message.searchNew`). -/
def searchNew : H HMsg := do
  let m ← msgNew
  let p ← propNew
  let p ← propSetData { p with code := 0xD6 } []
  msgAdd { m with hd := { m.hd with esv := Esv.readRequest, seoj := (0x0E, 0xF0, 0x01), deoj := (0x0E, 0xF0, 0x01) } } p

end Heap
end Uecho
