import Verif.Model.CString
/-!
# src/uecho/util/strings_function.c: comparing and finding texts, writing numbers

C strings as in `Model/CString.lean`: `none` is NULL, `some cs` are the characters before the terminating zero. `strcmp(3)` and its
relatives promise the sign of their result only; here it is -1, 0 or 1. Locale "C". `float` and `double` are left out.
-/
namespace Uecho.Compare
open Uecho Uecho.CString

/-- `strcmp(3)`. Characters are compared as `unsigned char`. -/
def cmp : List Byte → List Byte → Int
  | [], [] => 0
  | [], _ :: _ => -1
  | _ :: _, [] => 1
  | a :: as, b :: bs => if a = b then cmp as bs else if a.toNat < b.toNat then -1 else 1

/-- `strncmp(3)`: at most `n` characters. -/
def ncmp : Nat → List Byte → List Byte → Int
  | 0, _, _ => 0
  | _ + 1, [], [] => 0
  | _ + 1, [], _ :: _ => -1
  | _ + 1, _ :: _, [] => 1
  | n + 1, a :: as, b :: bs => if a = b then ncmp n as bs else if a.toNat < b.toNat then -1 else 1

/-- `tolower(3)`. -/
def lower (c : Byte) : Byte := if 0x41#8 ≤ c ∧ c ≤ 0x5A#8 then c + 0x20#8 else c

/-- `strcasecmp(3)`. -/
def casecmp : List Byte → List Byte → Int
  | [], [] => 0
  | [], _ :: _ => -1
  | _ :: _, [] => 1
  | a :: as, b :: bs => if lower a = lower b then casecmp as bs else if (lower a).toNat < (lower b).toNat then -1 else 1

/-- `uecho_strlen` — src/uecho/util/strings_function.c:69-72. -/
def strlen : Option (List Byte) → Nat
  | none => 0
  | some s => s.length

/-- `uecho_strcmp` — src/uecho/util/strings_function.c:96-103. -/
def strcmp : Option (List Byte) → Option (List Byte) → Int
  | none, _ => -1
  | some _, none => 1
  | some a, some b => cmp a b

/-- `uecho_strncmp` — src/uecho/util/strings_function.c:109-116. -/
def strncmp (a b : Option (List Byte)) (n : Nat) : Int :=
  match a, b with
  | none, _ => -1
  | some _, none => 1
  | some a, some b => ncmp n a b

/-- `uecho_strcasecmp` — src/uecho/util/strings_function.c:122-135. -/
def strcasecmp : Option (List Byte) → Option (List Byte) → Int
  | none, _ => -1
  | some _, none => -1
  | some a, some b => casecmp a b

/-- `uecho_streq` — src/uecho/util/strings_function.c:141-147. -/
def streq (a b : Option (List Byte)) : Bool :=
  if a = none ∨ b = none then false else decide (strcmp a b = 0)

/-- `uecho_strcaseeq` — src/uecho/util/strings_function.c:153-159. -/
def strcaseeq (a b : Option (List Byte)) : Bool :=
  if a = none ∨ b = none then false else decide (strcasecmp a b = 0)

/-- `strstr(3)`: the first position, from `i` on, at which the needle begins. -/
def find (needle : List Byte) : List Byte → Nat → Option Nat
  | [], i => if needle = [] then some i else none
  | c :: cs, i => if needle.isPrefixOf (c :: cs) then some i else find needle cs (i + 1)

/-- `uecho_strstr` — src/uecho/util/strings_function.c:165-175. -/
def strstr : Option (List Byte) → Option (List Byte) → Int
  | some hay, some needle =>
    match find needle hay 0 with
    | none => -1
    | some i => i
  | _, _ => -1

/-- The digits that `printf(3)` writes for a number. -/
def digits (n : Nat) : List Byte :=
  if n < 10 then [BitVec.ofNat 8 (0x30 + n)] else digits (n / 10) ++ [BitVec.ofNat 8 (0x30 + n % 10)]
termination_by n

/-- What `%d`, `%ld` and `%zd` write. -/
def decimal (v : Int) : List Byte :=
  if v < 0 then 0x2D#8 :: digits v.natAbs else digits v.natAbs

/-- `sprintf(3)` of a number, with the terminating zero. `HAVE_SNPRINTF` is defined nowhere in the repository, so that the size of the buffer is not used. -/
def sprint (v : Int) (buf : Block) : Res Block := wrN buf 0 ((decimal v ++ [0#8]).map some)

/-- `uecho_int2str` — src/uecho/util/strings_function.c:340-348. -/
def int2str (v : BitVec 32) (buf : Block) (_bufSize : Nat) : Res Block := sprint v.toInt buf

/-- `uecho_long2str` — src/uecho/util/strings_function.c:354-362. -/
def long2str (v : BitVec 64) (buf : Block) (_bufSize : Nat) : Res Block := sprint v.toInt buf

/-- `uecho_sizet2str` — src/uecho/util/strings_function.c:396-404: `%zd` takes the bits for a signed number. -/
def sizet2str (v : BitVec 64) (buf : Block) (_bufSize : Nat) : Res Block := sprint v.toInt buf

/-- `uecho_ssizet2str` — src/uecho/util/strings_function.c:410-418. -/
def ssizet2str (v : BitVec 64) (buf : Block) (_bufSize : Nat) : Res Block := sprint v.toInt buf

/-- `uecho_string_setintvalue` — src/uecho/util/strings.c:82-87, with the buffer of src/uecho/util/strings.h:28. -/
def setInt (s : Str) (v : BitVec 32) : Res Str := do
  let buf ← int2str v (List.replicate 16 none) 16
  let cs ← readZ buf
  CString.set s (some cs)

/-- `uecho_string_setlongvalue` — src/uecho/util/strings.c:93-98, with the buffer of src/uecho/util/strings.h:31. -/
def setLong (s : Str) (v : BitVec 64) : Res Str := do
  let buf ← long2str v (List.replicate 32 none) 32
  let cs ← readZ buf
  CString.set s (some cs)

end Uecho.Compare
