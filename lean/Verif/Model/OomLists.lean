import Verif.Model.Device
/-!
# The temporary lists of src/uecho/std/node_profile_class.c, with requests for memory that may be refused

The lists of classes and of instances are built by the same code, with entries of 2 and of 3 bytes. Only the requests for the temporary
list may be refused here; those for the data of the properties are `Model/Oom.lean`.
-/
namespace Uecho.OomLists
open Uecho

/-- A pointer to a block: `none` is NULL; in the block `none` is a byte that was never written. -/
abbrev Block := Option (List (Option Byte))

/-- `p = realloc(p, size)` — src/uecho/std/node_profile_class.c:284,295,308,319: if it is refused the pointer is NULL afterwards. -/
def grow (granted : Bool) (b : Block) (size : Nat) : Block :=
  if granted then some ((b.getD []).take size ++ List.replicate (size - (b.getD []).length) none) else none

/-- The assignments of an entry — src/uecho/std/node_profile_class.c:297-298, 321-323. -/
def writes : Block → Nat → List Byte → Res Block
  | b, _, [] => .ok b
  | none, _, _ :: _ => .ub
  | some l, i, v :: vs => if i < l.length then writes (some (l.set i (some v))) (i + 1) vs else .ub

/-- The loops — src/uecho/std/node_profile_class.c:288-299, 312-324: `w` is the size of an entry, `cnt` the number of entries so far, `r k` whether
the `k`-th request is granted. -/
def fillList (w : Nat) (r : Nat → Bool) : List (List Byte) → Nat → Block → Res Block
  | [], _, b => .ok b
  | x :: xs, cnt, b => do
      let cnt := cnt + 1
      let b := grow (r cnt) b (w * cnt + 1)
      let b ← writes b (w * (cnt - 1) + 1) x
      fillList w r xs cnt b

/-- A list from its first request to the data that are set — src/uecho/std/node_profile_class.c:284-302, 308-327, with
`uecho_nodeprofile_setclasslist` and `uecho_nodeprofile_setinstancelist` (lines 163-190), which write to the first byte. -/
def build (w : Nat) (entries : List (List Byte)) (r : Nat → Bool) : Res (List Byte) := do
  let b ← fillList w r entries 0 (grow (r 0) none 1)
  let cnt := if 255 < entries.length then 255 else entries.length
  match b with
  | none => .ub
  | some buf => do
      let buf ← wr buf 0 (some (BitVec.ofNat 8 cnt))
      let d ← rdN buf 0 (cnt * w + 1)
      PropertyMap.initialised d

end Uecho.OomLists
