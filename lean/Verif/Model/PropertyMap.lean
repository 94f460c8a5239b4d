import Verif.Model.Property
/-!
# Property maps: reading (property.c) and writing (object.c)

Sizes from include/uecho/profile.h:44-47: format 1 holds at most 15 codes, format 2 is
a count byte and 16 bitmap bytes.
-/
namespace Uecho
namespace PropertyMap

/-- `uecho_property_getpropertymapcount` — src/uecho/property.c:282-299 (`none` = false). -/
def count (p : Property) : Res (Option Nat) :=
  if p.code = 0x9D#8 ∨ p.code = 0x9E#8 ∨ p.code = 0x9F#8 then
    if p.data.length < 1 then .ok none
    else do
      let b ← rd p.data 0
      return some b.toNat
  else .ok none

/-- `uecho_propertymap_format2bittocode` — src/uecho/property.c:305-313 (byte arithmetic). -/
def bitToCode (row bit : Nat) : Byte :=
  BitVec.ofNat 8 (0x10 * bit + 0x80) + BitVec.ofNat 8 row

/-- Format 1 loop of `uecho_property_getpropertymapcodes` — src/uecho/property.c:335-337:
`arr[n] = data[n + 1]` for the listed `n`. -/
def readFmt1 (data : List Byte) : List Nat → List (Option Byte) → Res (List (Option Byte))
  | [], arr => .ok arr
  | n :: ns, arr => do
      let b ← rd data (n + 1)
      let arr ← wr arr n (some b)
      readFmt1 data ns arr

/-- The (row, bit) pairs in the order of the two nested loops, src/uecho/property.c:348-350. -/
def cells : List (Nat × Nat) :=
  (List.range 16).flatMap fun i => (List.range 8).map fun j => (i, j)

/-- Format 2 loops — src/uecho/property.c:347-359. State: write index and caller array. Result:
success flag and array. -/
def readFmt2 (data : List Byte) (size : Nat) : List (Nat × Nat) → Nat → List (Option Byte) →
    Res (Bool × List (Option Byte))
  | [], _, arr => .ok (true, arr)
  | (i, j) :: cs, idx, arr => do
      let b ← rd data (i + 1)
      let mask : Byte := (BitVec.ofNat 8 (1 <<< j)) &&& 0x0F#8
      if b &&& mask = 0 then readFmt2 data size cs idx arr
      else if size ≤ idx then .ok (false, arr)
      else do
        let arr ← wr arr idx (some (bitToCode i j))
        readFmt2 data size cs (idx + 1) arr

/-- `uecho_property_getpropertymapcodes` — src/uecho/property.c:315-362. `arr` is the caller's array
(`none` = not initialised), `size` the `propCodesSize` argument. -/
def codes (p : Property) (arr : List (Option Byte)) (size : Nat) : Res (Bool × List (Option Byte)) := do
  match ← count p with
  | none => return (false, arr)
  | some n =>
    if n ≠ size then return (false, arr)
    else if size ≤ 15 then
      if p.data.length < n + 1 then return (false, arr)
      else do
        let arr ← readFmt1 p.data (List.range n) arr
        return (true, arr)
    else if p.data.length ≠ 17 then return (false, arr)
    else readFmt2 p.data size cells 0 arr

/-- `uecho_propertymap_codetoformat2` — src/uecho/object.c:349-358 (`none` = false). The upper bound
test `0xFF < propCode` is never true for a byte. -/
def codeToFormat2 (c : Byte) : Option (Nat × Nat) :=
  if c.toNat < 0x80 ∨ 0xFF < c.toNat then none
  else some ((((c.toNat - 0x80) &&& 0x0F) + 1), ((((c.toNat - 0x80) &&& 0xF0) >>> 4) &&& 0x0F))

/-- Loop of the format 2 writer — src/uecho/object.c:383-389 (read-modify-write of a local array;
reading an uninitialised cell is UB). -/
def writeFmt2 : List Byte → List (Option Byte) → Res (List (Option Byte))
  | [], buf => .ok buf
  | c :: cs, buf =>
      match codeToFormat2 c with
      | none => writeFmt2 cs buf
      | some (row, bit) => do
          match ← rd buf row with
          | none => .ub
          | some old =>
            let buf ← wr buf row (some (old ||| ((BitVec.ofNat 8 (1 <<< bit)) &&& 0x0F#8)))
            writeFmt2 cs buf

/-- Reading initialised bytes out of a buffer. -/
def initialised : List (Option Byte) → Res (List Byte)
  | [] => .ok []
  | none :: _ => .ub
  | some b :: bs => do
      let r ← initialised bs
      return b :: r

/-- The data `uecho_object_setpropertymap` — src/uecho/object.c:360-394 — computes in its local 17-byte
array, and whether it is format 1. `codes = none` is a NULL pointer with a positive size. -/
def build (codes : Option (List Byte)) (size : Nat) : Res (Bool × List Byte) := do
  let buf : List (Option Byte) := List.replicate 17 none
  let buf ← wr buf 0 (some (BitVec.ofNat 8 size))
  match codes with
  | none =>
    if size = 0 then do
      let d ← rdN buf 0 1
      let d ← initialised d
      return (true, d)
    else .ub
  | some codes =>
    let codes ← rdN codes 0 size
    if size ≤ 15 then do
      let buf ← wrN buf 1 (codes.map some)
      let d ← rdN buf 0 (size + 1)
      let d ← initialised d
      return (true, d)
    else do
      let buf ← wrN buf 1 (List.replicate 16 (some 0))
      let buf ← writeFmt2 codes buf
      let d ← rdN buf 0 17
      let d ← initialised d
      return (false, d)

end PropertyMap
end Uecho
