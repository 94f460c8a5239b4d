import Verif.Model.CList
/-!
# Lists of things with a code, in linked memory

src/uecho/property_enum.c, property_enum_list.c, property_list.c, class.c, class_list.c, object_list.c, manufacture_list.c: these lists
share their code. An element is a list cell with a code; its other members (names, data) are left out. The code is an `int` or a byte or a
`uint16_t`; here a number. Loops as in `Model/CList.lean`: outcome `none` after `k` rounds without end.
-/
namespace Uecho.Keyed
open Uecho Uecho.CList

/-- The list cells, and the codes of the elements. -/
structure Mem where
  cells : CList.Mem
  code : Nat → Int

/-- `malloc` and the initialisation of an element — src/uecho/property_enum.c:20-44, property.c, class.c:19-34, manufacture.c:17-32. The code begins as 0. -/
def newElement (junk : Cell) (m : Mem) (x : Nat) : Res Mem := do
  let h ← nodeInit (alloc m.cells x junk) x
  return ⟨h, fun y => if y = x then 0 else m.code y⟩

/-- `uecho_property_enumlist_new` — src/uecho/property_enum_list.c:17-28, and its like. -/
def newList (junk : Cell) (m : Mem) (p : Nat) : Res Mem := do
  let h ← headerInit (alloc m.cells p junk) p
  return { m with cells := h }

/-- `uecho_property_enum_setcode` — src/uecho/property_enum.c:92-97, and its like. -/
def setCode (m : Mem) (x : Nat) (c : Int) : Res Mem := do
  let _ ← cell m.cells x
  return { m with code := fun y => if y = x then c else m.code y }

/-- `uecho_property_enum_getcode` — src/uecho/property_enum.c:103-108, and its like. -/
def getCode (m : Mem) (x : Nat) : Res Int := do
  let _ ← cell m.cells x
  return m.code x

/-- `uecho_property_enum_delete` — src/uecho/property_enum.c:50-68, without the names; and its like. -/
def delete (m : Mem) (x : Nat) : Res Mem := do
  let (h, _) ← remove m.cells x
  let h ← free h x
  return { m with cells := h }

/-- The loop of `uecho_property_enumlist_findbycode`. -/
def findLoop (m : Mem) (c : Int) : Nat → Option Nat → Res (Option (Option Nat))
  | _, none => .ok (some none)
  | 0, some _ => .ok none
  | k + 1, some x => do
      let d ← getCode m x
      if d = c then return some (some x)
      let q ← next m.cells x
      findLoop m c k q

/-- `uecho_property_enumlist_findbycode` — src/uecho/property_enum_list.c:48-61, `uecho_propertylist_findbycode` — src/uecho/property_list.c:48-61,
`uecho_classlist_getbycode` — src/uecho/class_list.c:48-61, `uecho_objectlist_getbycode` — src/uecho/object_list.c:48-62,
`uecho_manufacturelist_getbycode` — src/uecho/manufacture_list.c:48-61. -/
def find (k : Nat) (m : Mem) (p : Nat) (c : Int) : Res (Option (Option Nat)) := do
  let q ← gets m.cells p
  findLoop m c k q

/-- `uecho_property_enumlist_add` — src/uecho/property_enum_list.c:67-81, `uecho_propertylist_add` — src/uecho/property_list.c:92-106: an element with
the same code is removed and deleted. -/
def add (k : Nat) (m : Mem) (p x : Nat) : Res (Option (Mem × Bool)) := do
  let c ← getCode m x
  match ← find k m p c with
  | none => return none
  | some none => do
      let (h, b) ← CList.add m.cells p x
      return some ({ m with cells := h }, b)
  | some (some y) => do
      let (h, _) ← remove m.cells y
      let m ← delete { m with cells := h } y
      let (h, b) ← CList.add m.cells p x
      return some ({ m with cells := h }, b)

/-- `uecho_classlist_set` — src/uecho/class_list.c:67-86, `uecho_objectlist_set` — src/uecho/object_list.c:90-109; `x` is the address that `malloc` would
give. -/
def set (k : Nat) (junk : Cell) (m : Mem) (p : Nat) (c : Int) (x : Nat) : Res (Option (Mem × Bool)) := do
  match ← find k m p c with
  | none => return none
  | some (some _) => return some (m, true)
  | some none => do
      let m ← newElement junk m x
      let m ← setCode m x c
      let (h, _) ← CList.add m.cells p x
      return some ({ m with cells := h }, true)

/-- `uecho_propertylist_getbycode` — src/uecho/property_list.c:67-86. -/
def getOrNew (k : Nat) (junk : Cell) (m : Mem) (p : Nat) (c : Int) (x : Nat) : Res (Option (Mem × Option Nat)) := do
  match ← find k m p c with
  | none => return none
  | some (some y) => return some (m, some y)
  | some none => do
      let m ← newElement junk m x
      let m ← setCode m x c
      match ← add k m p x with
      | none => return none
      | some (m, _) => return some (m, some x)

/-- `uecho_property_enumlist_delete` — src/uecho/property_enum_list.c:34-42, and its like: clear with the destructor, and free. -/
def deleteList (k : Nat) (m : Mem) (p : Nat) : Res (Option Mem) := do
  match ← clear k m.cells p with
  | none => return none
  | some h => do
      let h ← free h p
      return some { m with cells := h }

end Uecho.Keyed
