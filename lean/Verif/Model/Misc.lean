import Verif.Model.Basic
/-!
# misc.c and util/bytes.c
-/
namespace Uecho

/-- `uecho_integer2byte(val, bytes, byteSize)` — src/uecho/misc.c:50-63 (the same
loop is `uecho_bytes_fromint`, src/uecho/util/bytes.c:37-50). The C loop
writes `bytes[byteSize-1-n] = (val >> (n*8)) & 0xFF` for `n = 0 .. byteSize-1`; the
model lists the written bytes from index 0. A shift by 32 or more is undefined;
`>>` of a negative `int` is taken as arithmetic (gcc/clang). The NULL check of
`bytes` is not modelled. -/
def integer2byte (val : CInt) : Nat → Res (List Byte)
  | 0 => .ok []
  | k + 1 => do
      let rest ← integer2byte val k
      if 32 ≤ k * 8 then .ub
      else .ok ((val.sshiftRight (k * 8)).setWidth 8 :: rest)

/-- Body of the loop of `uecho_byte2integer`, bytes in reverse order (the loop
reads index `byteSize-1-n`). Left shift of the promoted `int` by ≥ 32 or with a result
not representable in `int`, and `int` addition overflow, are undefined. -/
def byte2integerLoop : List Byte → Nat → CInt → Res CInt
  | [], _, acc => .ok acc
  | b :: bs, n, acc =>
      if 32 ≤ n * 8 then .ub
      else if 2 ^ 31 ≤ b.toNat * 2 ^ (n * 8) then .ub
      else if 2 ^ 31 ≤ acc.toNat + b.toNat * 2 ^ (n * 8) then .ub
      else byte2integerLoop bs (n + 1) (acc + BitVec.ofNat 32 (b.toNat * 2 ^ (n * 8)))

/-- `uecho_byte2integer(bytes, byteSize)` — src/uecho/misc.c:69-83 (same loop:
`uecho_bytes_toint`, src/uecho/util/bytes.c:19-31). NULL `bytes` gives 0, as
does the empty list here. -/
def byte2integer (bytes : List Byte) : Res CInt :=
  byte2integerLoop bytes.reverse 0 0

/-- `uecho_objectcode2classcode` — src/uecho/misc.c:19-22. -/
def objectcode2classcode (code : CInt) : CInt :=
  (code.sshiftRight 8) &&& 0xFFFF

/-- `uecho_isdeviceclassgroupcode` — src/uecho/misc.c:28-33 (`uEchoClassGroupDeviceMax` =
0x06, include/uecho/class.h). -/
def isDeviceGroup (code : Byte) : Bool := !(0x06#8 < code)

/-- `uecho_isprofileclassgroupcode` — src/uecho/misc.c:39-44 (`uEchoClassGroupProfile` =
0x0E). -/
def isProfileGroup (code : Byte) : Bool := code == 0x0E#8

end Uecho
