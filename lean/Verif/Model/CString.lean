import Verif.Model.Basic
/-!
# src/uecho/util/strings.c: growing strings

A C string argument (`const char*`) is `Option (List Byte)`: `none` is NULL, `some cs` are the characters before
the terminating zero (so none of them is zero); arguments with a length are lists of any bytes. Allocated memory
is a list of `Option Byte` (`none`: not initialised). Sums of sizes are below 2^64.
-/
namespace Uecho.CString
open Uecho

/-- Contents of an allocated block. -/
abbrev Block := List (Option Byte)

/-- `uEchoString` — src/uecho/util/strings.h:86-90. -/
structure Str where
  value : Option Block
  memSize : Nat
  valueSize : Nat

/-- `uecho_string_new` — src/uecho/util/strings.c:23-36. -/
def new : Str := ⟨none, 0, 0⟩

/-- `uecho_string_clear` — src/uecho/util/strings.c:54-64. -/
def clear (s : Str) : Str :=
  match s.value with
  | none => s
  | some _ => ⟨none, 0, 0⟩

/-- `uecho_string_setnvalue` — src/uecho/util/strings.c:104-122; `value` has at least `len` bytes. -/
def setN (s : Str) (value : Option (List Byte)) (len : Nat) : Res Str :=
  let s := clear s
  match value with
  | none => .ok s
  | some cs => do
      let src ← rdN cs 0 len
      let m : Block := List.replicate (len + 1) none
      let m ← wrN m 0 (src.map some)
      let m ← wr m len (some 0#8)
      return ⟨some m, len + 1, len⟩

/-- `uecho_string_setvalue` — src/uecho/util/strings.c:70-76. -/
def set (s : Str) (value : Option (List Byte)) : Res Str :=
  match value with
  | none => .ok s
  | some cs => setN s (some cs) cs.length

/-- `uecho_string_setvalue(str, uecho_string_getvalue(str))` — src/uecho/util/strings.c:70-76, 104-122: the characters are
copied from the block that `uecho_string_clear` has just freed. -/
def setOwn (s : Str) : Res Str :=
  match s.value with
  | none => .ok s
  | some _ => .ub

/-- `uecho_string_setpointervalue` — src/uecho/util/strings.c:128-136: the string takes over a block of the
caller. -/
def setPointer (s : Str) (value : Option Block) (len : Nat) : Str :=
  let _ := clear s
  ⟨value, len + 1, len⟩

/-- What a reader of a C string sees: the bytes up to the first zero; reading uninitialised memory or past the block is
undefined. -/
def readZ : Block → Res (List Byte)
  | [] => .ub
  | none :: _ => .ub
  | some c :: m => if c = 0#8 then .ok [] else do
      let cs ← readZ m
      return c :: cs

/-- `uecho_string_getvalue` — src/uecho/util/strings.c:142-145, with the characters that a reader of the result sees. -/
def getValue (s : Str) : Res (Option (List Byte)) :=
  match s.value with
  | none => .ok none
  | some m => do
      let cs ← readZ m
      return some cs

/-- `uecho_string_length` — src/uecho/util/strings.c:163-172. -/
def length (s : Str) : Nat :=
  match s.value with
  | none => 0
  | some _ => s.valueSize

/-- `realloc`: the old content, then memory that is not initialised. -/
def realloc (old : Option Block) (n : Nat) : Block :=
  let o := (old.getD []).take n
  o ++ List.replicate (n - o.length) none

/-- `uecho_string_naddvalue` — src/uecho/util/strings.c:187-226. -/
def addN (s : Str) (value : Option (List Byte)) (len : Nat) : Res Str :=
  match value with
  | none => .ok s
  | some cs =>
    if len = 0 then .ok s else do
      let need := s.valueSize + len + 1
      let s := if s.memSize < need ∨ s.value.isNone then
          ⟨some (realloc s.value (need + 16)), need + 16, s.valueSize⟩ else s
      match s.value with
      | none => .ub
      | some m => do
          let src ← rdN cs 0 len
          let m ← wrN m s.valueSize (src.map some)
          let m ← wr m (s.valueSize + len) (some 0#8)
          return ⟨some m, s.memSize, s.valueSize + len⟩

/-- `uecho_string_addvalue` — src/uecho/util/strings.c:178-181. -/
def add (s : Str) (value : Option (List Byte)) : Res Str := addN s value ((value.getD []).length)

/-- `uecho_string_naddrepvalue` — src/uecho/util/strings.c:246-254; the counter is an `int`, so `times` is below 2^31. -/
def addRepN (s : Str) (value : Option (List Byte)) (len : Nat) : Nat → Res Str
  | 0 => .ok s
  | n + 1 => do
      let s ← addN s value len
      addRepN s value len n

/-- `uecho_string_addrepvalue` — src/uecho/util/strings.c:232-240. -/
def addRep (s : Str) (value : Option (List Byte)) (times : Nat) : Res Str :=
  addRepN s value ((value.getD []).length) times

end Uecho.CString
