import Verif.Model.Heap
/-!
# Memory that runs out

The blocks of properties and messages once more, as in `Model/Heap`, but here a request for memory may be refused: `malloc`, `calloc` and
`realloc` return NULL. Which requests are refused is decided outside: one list says it for the requests whose result the code checks
(structures, texts, data), another for those whose result it uses without a check (the arrays of properties of messages, and the bytes
to be sent). When a list is used up, requests are granted.

Simplifications. `realloc` that succeeds moves the block. The bytes to be sent are a list in which `none` stands for a byte that was never
written. A property has no parent object, so that setting its data announces nothing.
-/
namespace Uecho
namespace Oom
open Heap (Mem H HStr bytesOf)

/-- The heap, and which of the requests to come are refused. -/
structure St where
  mem : Mem
  small : List Bool
  array : List Bool
deriving DecidableEq, Repr

/-- A piece of C code. -/
def O (α : Type) := St → Res (α × St)

instance : Monad O where
  pure a := fun s => .ok (a, s)
  bind x f := fun s => x s >>= fun r => f r.1 r.2

/-- Code that requests no memory. -/
def onMem {α : Type} (x : H α) : O α := fun s => x s.mem >>= fun r => .ok (r.1, { s with mem := r.2 })

/-- A request that is checked: `none` is NULL. -/
def malloc : O (Option Nat) := fun s =>
  if s.small.headD false then .ok (none, { s with small := s.small.tail })
  else Heap.malloc s.mem >>= fun r => .ok (some r.1, { s with mem := r.2, small := s.small.tail })

/-- A request that is not checked. -/
def mallocArray : O (Option Nat) := fun s =>
  if s.array.headD false then .ok (none, { s with array := s.array.tail })
  else Heap.malloc s.mem >>= fun r => .ok (some r.1, { s with mem := r.2, array := s.array.tail })

/-- `free`. -/
def free (a : Nat) : O Unit := onMem (Heap.free a)
/-- `if (p) free(p)`. -/
def freeOpt {α : Type} (p : Option (Nat × α)) : O Unit := onMem (Heap.freeOpt p)
/-- An access. -/
def use (a : Nat) : O Unit := onMem (Heap.use a)
/-- An access unless the pointer is NULL. -/
def useOpt {α : Type} (p : Option (Nat × α)) : O Unit := onMem (Heap.useOpt p)
/-- A computation on contents. -/
def lift {α : Type} (x : Res α) : O α := onMem (Heap.lift x)
/-- Undefined behaviour. -/
def undef {α : Type} : O α := fun _ => .ub

/-- `uecho_string_new` — src/uecho/util/strings.c:23-36. -/
def strNew : O (Option HStr) := do
  match ← malloc with
  | none => return none
  | some a => return some ⟨a, none⟩

/-- `uecho_string_setvalue` — src/uecho/util/strings.c:70-76, 104-122: the old text is freed first. -/
def strSetValue (s : HStr) (v : Option String) : O HStr :=
  match v with
  | none => pure s
  | some t => do
      let s ← onMem (Heap.strClear s)
      match ← malloc with
      | none => return s
      | some a => return { s with val := some (a, t) }

/-- `uEchoProperty` — src/uecho/_property.h:36-48; here the count of the bytes is a field of its own. -/
structure OProp where
  self : Nat
  name : HStr
  code : Byte
  attr : CInt
  data : Option (Nat × List Byte)
  size : Nat
deriving DecidableEq, Repr

/-- `uecho_property_new` — src/uecho/property.c:23-49, with the `uecho_property_delete` of a property without a name (lines 55-70). -/
def propNew : O (Option OProp) := do
  match ← malloc with
  | none => return none
  | some a =>
      match ← strNew with
      | none => do
          free a
          return none
      | some s => return some ⟨a, s, 0, Attr.readWrite, none, 0⟩

/-- `uecho_property_cleardata` — src/uecho/property.c:368-381. -/
def propClearData (p : OProp) : O OProp := do
  use p.self
  freeOpt p.data
  return { p with data := none, size := 0 }

/-- `uecho_property_delete` — src/uecho/property.c:55-70. -/
def propDelete (p : OProp) : O Unit := do
  use p.self
  onMem (Heap.strDelete p.name)
  let p ← propClearData p
  free p.self

/-- `uecho_property_setcount` — src/uecho/property.c:102-119. -/
def propSetCount (p : OProp) (n : Nat) : O (Bool × OProp) := do
  let p ← propClearData p
  if n = 0 then return (true, p)
  else
    match ← malloc with
    | none => return (false, p)
    | some a => return (true, { p with data := some (a, List.replicate n 0), size := n })

/-- `uecho_property_setdata` — src/uecho/property.c:149-169. -/
def propSetData (p : OProp) (d : List Byte) : O (Bool × OProp) := do
  let r ← propSetCount p d.length
  if r.1 then
    match r.2.data with
    | none => if d.length = 0 then return (true, r.2) else undef
    | some (a, _) => do
        use a
        return (true, { r.2 with data := some (a, d) })
  else return (false, r.2)

/-- `uecho_property_adddata` — src/uecho/property.c:175-199, with `uecho_property_addcount` (lines 125-143): `realloc` that fails leaves
the old block, and its result replaces the only pointer to it. -/
def propAddData (p : OProp) (d : List Byte) : O (Bool × OProp) :=
  if d.length = 0 then pure (true, p)
  else do
    use p.self
    match ← malloc with
    | none => return (false, { p with data := none })
    | some a => do
        freeOpt p.data
        return (true, { p with data := some (a, (bytesOf p.data) ++ d), size := p.size + d.length })

/-- `uecho_property_setintegerdata` — src/uecho/property.c:214-233: `true` if the request is refused. -/
def propSetInteger (p : OProp) (v : CInt) (size : Nat) : O (Bool × OProp) := do
  match ← malloc with
  | none => return (true, p)
  | some t => do
      let b ← lift (integer2byte v size)
      use t
      let r ← propSetData p b
      free t
      return r

/-- `uecho_property_setname` — src/uecho/property.c:405-410. -/
def propSetName (p : OProp) (v : Option String) : O OProp := do
  use p.self
  let s ← strSetValue p.name v
  return { p with name := s }

/-- Reading `data_size` bytes through the data pointer. -/
def propRead (p : OProp) : O (List Byte) := do
  use p.self
  match p.data with
  | none => if p.size = 0 then return [] else undef
  | some (a, d) => do
      use a
      if p.size = d.length then return d else undef

/-- `uecho_property_copy` — src/uecho/property.c:623-641: whether the data could be set is not asked. -/
def propCopy (p : OProp) : O (Option OProp) := do
  match ← propNew with
  | none => return none
  | some q => do
      use p.self
      let n ← onMem (Heap.strRead p.name)
      let q ← propSetName { q with code := p.code } n
      let d ← propRead p
      let r ← propSetData { q with attr := p.attr } d
      return some r.2

/-! ### message.c -/

/-- A property array of a message; a slot may be NULL. -/
structure OSec where
  cnt : Byte
  arr : Option (Nat × List (Option OProp))
deriving DecidableEq, Repr

/-- The slots of the array. -/
def slotsOf : Option (Nat × List (Option OProp)) → List (Option OProp)
  | none => []
  | some (_, ps) => ps

/-- `uEchoMessage` — src/uecho/_message.h. Of `hd` only the header fields count. -/
structure OMsg where
  self : Nat
  hd : Message
  plain : OSec
  set : OSec
  get : OSec
  bytes : Option (Nat × Unit)
  fromA : Option (Nat × String)
  toA : Option (Nat × String)
deriving DecidableEq, Repr

/-- `uecho_message_new` — src/uecho/message.c:23-53. -/
def msgNew : O (Option OMsg) := do
  match ← malloc with
  | none => return none
  | some a => return some ⟨a, Message.new, ⟨0, none⟩, ⟨0, none⟩, ⟨0, none⟩, none, none, none⟩

/-- The loop of `uecho_properties_clear` — src/uecho/message.c:77-81. -/
def deleteAll : List (Option OProp) → O Unit
  | [] => pure ()
  | none :: ps => deleteAll ps
  | some p :: ps => do
      propDelete p
      deleteAll ps

/-- `uecho_properties_clear` — src/uecho/message.c:75-91. -/
def secClear (s : OSec) : O OSec :=
  if s.cnt.toNat ≤ (slotsOf s.arr).length then do
    useOpt s.arr
    deleteAll ((slotsOf s.arr).take s.cnt.toNat)
    freeOpt s.arr
    return ⟨0, none⟩
  else undef

/-- `uecho_message_clear` — src/uecho/message.c:107-131. -/
def msgClear (m : OMsg) : O OMsg := do
  use m.self
  freeOpt m.bytes
  freeOpt m.fromA
  freeOpt m.toA
  let p ← secClear m.plain
  let s ← secClear m.set
  let g ← secClear m.get
  return { m with bytes := none, fromA := none, toA := none, plain := p, set := s, get := g }

/-- `uecho_message_delete` — src/uecho/message.c:59-69. -/
def msgDelete (m : OMsg) : O Unit := do
  let m ← msgClear m
  free m.self

/-- The loop of `uecho_message_setopcep` — src/uecho/message.c:226-228: what `uecho_property_new` returns is stored, NULL or not. -/
def newSlots : Nat → O (List (Option OProp))
  | 0 => pure []
  | k + 1 => do
      let p ← propNew
      let ps ← newSlots k
      return p :: ps

/-- `uecho_message_setopcep` — src/uecho/message.c:219-230: the array is not checked. -/
def secSetOpc (s : OSec) (count : Byte) : O OSec :=
  if count = 0 then pure { s with cnt := 0 }
  else do
    match ← mallocArray with
    | none => undef
    | some a => do
        let ps ← newSlots count.toNat
        return ⟨count, some (a, ps)⟩

/-- `uecho_property_add` — src/uecho/message.c:589-595: the array is not checked. -/
def secAdd (s : OSec) (p : OProp) : O OSec :=
  if s.cnt + 1 = 0 then undef
  else if s.cnt.toNat ≤ (slotsOf s.arr).length then do
    match ← mallocArray with
    | none => undef
    | some a => do
        freeOpt s.arr
        return ⟨s.cnt + 1, some (a, (slotsOf s.arr).take s.cnt.toNat ++ [some p])⟩
  else undef

/-- The slot is a property with the code — src/uecho/message.c:662-668. -/
def hasCode (code : Byte) (p : Option OProp) : Bool :=
  match p with
  | none => false
  | some p => p.code == code

/-- `uecho_property_setdata` on the first property with the code; `true` if there is none. -/
def setFirst (code : Byte) (d : List Byte) : List (Option OProp) → O (Bool × List (Option OProp))
  | [] => pure (true, [])
  | none :: ps => do
      let r ← setFirst code d ps
      return (r.1, none :: r.2)
  | some p :: ps =>
      if p.code == code then do
        let r ← propSetData p d
        return (r.1, some r.2 :: ps)
      else do
        let r ← setFirst code d ps
        return (r.1, some p :: r.2)

/-- `uecho_property_set` — src/uecho/message.c:693-708. A new property is added before its data are set; here the data are set through
the array, where it is the first with its code. -/
def secSetProp (s : OSec) (code : Byte) (d : List Byte) : O (Bool × OSec) :=
  if s.cnt.toNat ≤ (slotsOf s.arr).length then do
    useOpt s.arr
    if ((slotsOf s.arr).take s.cnt.toNat).any (hasCode code) then
      match s.arr with
      | none => undef
      | some (a, ps) => do
          let r ← setFirst code d ps
          return (r.1, { s with arr := some (a, r.2) })
    else
      match ← propNew with
      | none => return (false, s)
      | some p => do
          let s ← secAdd s { p with code := code }
          match s.arr with
          | none => undef
          | some (a, ps) => do
              let r ← setFirst code d ps
              return (r.1, { s with arr := some (a, r.2) })
  else undef

/-- `uecho_message_property_parse` — src/uecho/message.c:735-769: `false` at a slot that is NULL, and if the data cannot be set. -/
def secParse (data : List Byte) (len : Nat) : List (Option OProp) → Nat → O (Bool × List (Option OProp) × Nat)
  | [], off => pure (true, [], off)
  | none :: ps, off => pure (false, none :: ps, off)
  | some p :: ps, off =>
    if szSub len 1 < off then pure (false, some p :: ps, off)
    else do
      let c ← lift (rd data off)
      use p.self
      if szSub len 1 < off + 1 then pure (false, some { p with code := c } :: ps, off + 1)
      else do
        let cnt ← lift (rd data (off + 1))
        if szSub len 1 < szSub (off + 1 + 1 + cnt.toNat) 1 then pure (false, some { p with code := c } :: ps, off + 1 + 1)
        else do
          let d ← lift (rdN data (off + 1 + 1) cnt.toNat)
          let q ← propSetData { p with code := c } d
          if q.1 then do
            let r ← secParse data len ps (off + 1 + 1 + cnt.toNat)
            return (r.1, some q.2 :: r.2.1, r.2.2)
          else return (false, some q.2 :: ps, off + 1 + 1)

/-- One property array of the frame: `uecho_message_setopc…` and `uecho_message_property_parse`. -/
def secRead (s : OSec) (count : Byte) (data : List Byte) (len off : Nat) : O (Bool × OSec × Nat) := do
  let s ← secSetOpc s count
  match s.arr with
  | none => return (true, s, off)
  | some (a, ps) =>
      if s.cnt.toNat ≤ ps.length then do
        use a
        let r ← secParse data len (ps.take s.cnt.toNat) off
        return (r.1, { s with arr := some (a, r.2.1 ++ ps.drop s.cnt.toNat) }, r.2.2)
      else undef

/-- The second half of `uecho_message_parse` for SetGet messages — src/uecho/message.c:822-835. -/
def msgParseRW (m : OMsg) (data : List Byte) (len : Nat) (cnt : Byte) : O (Bool × OMsg) := do
  let r ← secRead m.set cnt data len 12
  if r.1 then
    if szSub len 1 < r.2.2 then return (false, { m with set := r.2.1 })
    else do
      let cnt2 ← lift (rd data r.2.2)
      let r2 ← secRead m.get cnt2 data len (r.2.2 + 1)
      return (r2.1, { m with set := r.2.1, get := r2.2.1 })
  else return (false, { m with set := r.2.1 })

/-- The second half of `uecho_message_parse` for the other messages — src/uecho/message.c:836-842. -/
def msgParsePlain (m : OMsg) (data : List Byte) (len : Nat) (cnt : Byte) : O (Bool × OMsg) := do
  let r ← secRead m.plain cnt data len 12
  return (r.1, { m with plain := r.2.1 })

/-- `uecho_message_parse` — src/uecho/message.c:782-847. -/
def msgParse (m : OMsg) (data : List Byte) (len : Nat) : O (Bool × OMsg) := do
  let m ← msgClear m
  let h ← lift (Heap.readHeader data len)
  match h with
  | none => return (false, m)
  | some h => do
      let cnt ← lift (rd data 11)
      if Esv.isReadWrite h.esv then msgParseRW { m with hd := h.put m.hd } data len cnt
      else msgParsePlain { m with hd := h.put m.hd } data len cnt

/-- `uecho_strloc` — src/uecho/util/strings_function.c:47-63. -/
def strloc (v : Option String) (p : Option (Nat × String)) : O (Option (Nat × String)) :=
  match v with
  | none => pure p
  | some t => do
      freeOpt p
      match ← malloc with
      | none => return none
      | some a => return some (a, t)

/-- `uecho_message_setsourceaddress` — src/uecho/message.c:436-439. -/
def msgSetSource (m : OMsg) (v : Option String) : O OMsg := do
  use m.self
  let p ← strloc v m.fromA
  return { m with fromA := p }

/-- `uecho_message_setdestinationaddress` — src/uecho/message.c:463-466. -/
def msgSetDest (m : OMsg) (v : Option String) : O OMsg := do
  use m.self
  let p ← strloc v m.toA
  return { m with toA := p }

/-- `uecho_message_opcsize` — src/uecho/message.c:870-885: slots that are NULL do not count. -/
def slotsSize : List (Option OProp) → Nat
  | [] => 0
  | none :: ps => slotsSize ps
  | some p :: ps => 2 + p.size + slotsSize ps

/-- `uecho_message_opcsize` of an array. -/
def secSize (s : OSec) : O Nat :=
  if s.cnt.toNat ≤ (slotsOf s.arr).length then do
    useOpt s.arr
    return slotsSize ((slotsOf s.arr).take s.cnt.toNat)
  else undef

/-- `uecho_message_setopcbytes` — src/uecho/message.c:911-930: what it writes, up to the first slot that is NULL. -/
def slotsBytes : List (Option OProp) → O (List Byte)
  | [] => pure []
  | none :: _ => pure []
  | some p :: ps => do
      let d ← propRead p
      let r ← slotsBytes ps
      return p.code :: BitVec.ofNat 8 p.size :: d ++ r

/-- `uecho_message_setopcbytes` of an array. -/
def secBytes (s : OSec) : O (List Byte) :=
  if s.cnt.toNat ≤ (slotsOf s.arr).length then do
    useOpt s.arr
    slotsBytes ((slotsOf s.arr).take s.cnt.toNat)
  else undef

/-- `uecho_message_size` — src/uecho/message.c:887-905. -/
def msgSize (m : OMsg) : O Nat := do
  use m.self
  if m.hd.isReadWrite then do
    let a ← secSize m.set
    let b ← secSize m.get
    return 12 + a + 1 + b
  else do
    let a ← secSize m.plain
    return 12 + a

/-- What `uecho_message_getbytes` writes — src/uecho/message.c:942-966. -/
def msgWritten (m : OMsg) : O (List Byte) := do
  let h := [m.hd.ehd1, m.hd.ehd2, m.hd.tid0, m.hd.tid1, m.hd.seoj.1, m.hd.seoj.2.1, m.hd.seoj.2.2,
    m.hd.deoj.1, m.hd.deoj.2.1, m.hd.deoj.2.2, m.hd.esv]
  if m.hd.isReadWrite then do
    let a ← secBytes m.set
    let b ← secBytes m.get
    return h ++ [m.set.cnt] ++ a ++ [m.get.cnt] ++ b
  else do
    let a ← secBytes m.plain
    return h ++ [m.plain.cnt] ++ a

/-- `uecho_message_getbytes` — src/uecho/message.c:932-969: the block is not checked, and is as long as `uecho_message_size` says. The
bytes after those written have no value. -/
def msgGetBytes (m : OMsg) : O (List (Option Byte) × OMsg) := do
  use m.self
  freeOpt m.bytes
  let n ← msgSize m
  match ← mallocArray with
  | none => undef
  | some a => do
      let w ← msgWritten m
      use a
      if w.length ≤ n then
        return (w.map some ++ List.replicate (n - w.length) none, { m with bytes := some (a, ()) })
      else undef

/-- `uecho_message_getproperty` — src/uecho/message.c:622-634 — for every slot up to the count: nothing if the first slot is NULL. -/
def gettable : List (Option OProp) → List OProp
  | [] => []
  | none :: _ => []
  | ps => ps.filterMap id

/-- The loop of `uecho_message_set` — src/uecho/message.c:994-1003: a copy that is NULL is not added. -/
def copyAll : List OProp → OSec → O OSec
  | [], s => pure s
  | p :: ps, s => do
      match ← propCopy p with
      | none => copyAll ps s
      | some q => do
          let s ← secAdd s q
          copyAll ps s

/-- Reading an address. -/
def addrRead (p : Option (Nat × String)) : O (Option String) := do
  useOpt p
  return p.map (·.2)

/-- `uecho_message_set` — src/uecho/message.c:975-1006, of two different messages. -/
def msgSet (dst src : OMsg) : O OMsg := do
  let dst ← msgClear dst
  use src.self
  let f ← addrRead src.fromA
  let dst ← msgSetSource { dst with hd := src.hd } f
  let t ← addrRead src.toA
  let dst ← msgSetDest dst t
  if src.plain.cnt.toNat ≤ (slotsOf src.plain.arr).length then do
    useOpt src.plain.arr
    let p ← copyAll (gettable ((slotsOf src.plain.arr).take src.plain.cnt.toNat)) dst.plain
    return { dst with plain := p }
  else undef

/-- `uecho_message_copy` — src/uecho/message.c:1012-1023. -/
def msgCopy (m : OMsg) : O (Option OMsg) := do
  match ← msgNew with
  | none => return none
  | some n => do
      let n ← msgSet n m
      return some n

end Oom
end Uecho
