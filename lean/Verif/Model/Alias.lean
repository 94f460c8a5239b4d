import Verif.Model.Heap
/-!
# Setters once more, with the pointer they read from

`Model/Heap` gives the setters a value. Here they get a pointer: to a block of the heap, or to memory of the application. Copying from a block
that has been freed is undefined; copying nothing is not. A message may also be both arguments of a call.
-/
namespace Uecho
namespace Heap

/-- A pointer to a value: the block, unless the value is not on the heap. -/
structure Src (α : Type) where
  blk : Option Nat
  val : α

/-- Reading through the pointer. -/
def Src.read {α : Type} (s : Src α) : H α := do
  match s.blk with
  | none => pure s.val
  | some a => do
      use a
      return s.val

/-- `uecho_string_setvalue` — src/uecho/util/strings.c:70-76, with `uecho_string_setnvalue` (lines 104-122): the length is taken before the old text
is freed, the characters are copied after. -/
def strSetFrom (s : HStr) (v : Src String) : H HStr := do
  let t ← v.read
  let s ← strClear s
  let a ← malloc
  let u ← (if t.length = 0 then pure t else v.read)
  return { s with val := some (a, u) }

/-- `uecho_property_setname` — src/uecho/property.c:405-410. -/
def propSetNameFrom (p : HProp) (v : Src String) : H HProp := do
  use p.self
  let s ← strSetFrom p.name v
  return { p with name := s }

/-- `uecho_property_setdata` — src/uecho/property.c:149-169, of a property without a parent object: the old data are freed before the new ones are
copied. The size is that of the value. -/
def propSetDataFrom (p : HProp) (v : Src (List Byte)) : H HProp := do
  let p ← propSetCount p v.val.length
  match p.data with
  | none => pure p
  | some (a, _) => do
      let d ← v.read
      use a
      return { p with data := some (a, d) }

/-- `uecho_property_adddata` — src/uecho/property.c:175-199, with `uecho_property_addcount` (lines 125-143): `realloc` moves the data before the new
ones are copied. -/
def propAddDataFrom (p : HProp) (v : Src (List Byte)) : H HProp :=
  if v.val.length = 0 then pure p
  else do
    use p.self
    let a ← realloc p.data
    let d ← v.read
    return { p with data := some (a, bytesOf p.data ++ d) }

/-- `uecho_strloc` — src/uecho/util/strings_function.c:47-63: the old text is freed before the new one is duplicated. -/
def strlocFrom (v : Src String) (p : Option (Nat × String)) : H (Option (Nat × String)) := do
  freeOpt p
  let t ← v.read
  let a ← malloc
  return some (a, t)

/-- `uecho_message_setsourceaddress` — src/uecho/message.c:436-439. -/
def msgSetSourceFrom (m : HMsg) (v : Src String) : H HMsg := do
  use m.self
  let a ← strlocFrom v m.fromA
  return { m with fromA := a }

/-- `uecho_message_setdestinationaddress` — src/uecho/message.c:463-466. -/
def msgSetDestFrom (m : HMsg) (v : Src String) : H HMsg := do
  use m.self
  let a ← strlocFrom v m.toA
  return { m with toA := a }

/-- `uecho_message_set` — src/uecho/message.c:975-1006, of a message and itself: what is copied has been cleared before. -/
def msgSetSelf (m : HMsg) : H HMsg := do
  let m ← msgClear m
  use m.self
  let f ← addrRead m.fromA
  let m ← msgSetSource m f
  let t ← addrRead m.toA
  let m ← msgSetDest m t
  if m.plain.cnt.toNat ≤ (slotsOf m.plain.arr).length then do
    useOpt m.plain.arr
    let s ← copyAll ((slotsOf m.plain.arr).take m.plain.cnt.toNat) m.plain
    return { m with plain := s }
  else undef

/-- `uecho_message_equals` — src/uecho/message.c:1029-1042, of a message and itself: the second `uecho_message_getbytes` frees what the first one
returned. -/
def msgEqualsSelf (m : HMsg) : H HMsg := do
  let m1 ← msgGetBytes m
  let m2 ← msgGetBytes m1
  useOpt m1.bytes
  useOpt m2.bytes
  return m2

end Heap
end Uecho
