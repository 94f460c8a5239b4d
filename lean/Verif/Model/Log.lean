import Verif.Model.CString
/-!
# src/uecho/util/logs.c: the trace of a datagram

C strings are lists of bytes without zeros, as in `Model/CString`. Both addresses are not NULL (a socket's address is
always set, src/uecho/net/socket.c:122).
-/
namespace Uecho.Log
open Uecho Uecho.CString

/-- `snprintf(buf + off, size, …)` that formats to `text`: the C library writes nothing for size 0, and otherwise at most
`size - 1` characters and a zero. A pointer beyond the end of `buf` is undefined. -/
def snprintf (buf : Block) (off size : Nat) (text : List Byte) : Res Block :=
  if buf.length < off then .ub
  else if size = 0 then .ok buf
  else wrN buf off ((text.take (size - 1)).map some ++ [some 0#8])

/-- `%-15s`: padded on the right with blanks to 15 characters. -/
def padRight (s : List Byte) : List Byte := s ++ List.replicate (15 - s.length) 32#8

/-- `%X` of a number below 16. -/
def hexDigit (n : Nat) : Byte := if n < 10 then BitVec.ofNat 8 (48 + n) else BitVec.ofNat 8 (55 + n)

/-- `%02X` of a byte. -/
def hex2 (b : Byte) : List Byte := [hexDigit (b.toNat / 16), hexDigit (b.toNat % 16)]

/-- `strlen(buf)`. -/
def strlen (buf : Block) : Res Nat := do
  let cs ← readZ buf
  return cs.length

/-- The loop over the bytes — src/uecho/util/logs.c:36-39; `sizeof(buf)` is 256. -/
def hexLoop (buf : Block) (off : Nat) : List Byte → Res Block
  | [] => .ok buf
  | b :: bs => do
      let buf ← snprintf buf off (szSub 256 off) (hex2 b)
      hexLoop buf (off + 2) bs

/-- `uecho_net_socket_log` — src/uecho/util/logs.c:20-42: the text that is passed to the logger, or nothing for an empty
datagram. -/
def socketLog (pre frm to bytes : List Byte) : Res (Option (List Byte)) :=
  if bytes = [] then .ok none else do
    let buf : Block := List.replicate 256 none
    let (buf, off) ← (if pre = [] then (.ok (buf, 0) : Res (Block × Nat)) else do
      let buf ← snprintf buf 0 256 (pre ++ [32#8])
      let n ← strlen buf
      return (buf, n))
    let buf ← snprintf buf off (szSub 256 off) (padRight frm ++ [32#8, 45#8, 62#8, 32#8] ++ padRight to ++ [32#8])
    let off ← strlen buf
    let buf ← hexLoop buf off bytes
    let text ← readZ buf
    return some text

end Uecho.Log
