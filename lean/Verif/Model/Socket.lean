import Verif.Model.Basic
/-!
# src/uecho/net/socket.c: stream sockets

The operating system is an oracle. `send os i len` is the answer to the `i`-th call of `send(2)` for `len` bytes: a number of
bytes taken from the front, 0 for an error (the code does not distinguish 0 from negative answers).
-/
namespace Uecho.Socket
open Uecho

/-- What the operating system answers to the `i`-th `send(2)` of `len` bytes. -/
abbrev SendOs := Nat → Nat → Nat

/-- State of `uecho_socket_write`'s loop: `calls` counts the calls of `send(2)`, `wire` is what the operating system took. -/
structure W where
  calls : Nat
  pos : Nat
  len : Nat
  total : Nat
  retry : Nat
  wire : List Byte

/-- One round of the loop — src/uecho/net/socket.c:444-474; `inr` is the result after a `break` or the end of the loop.
`len - n` is `size_t` arithmetic. -/
def writeStep (os : SendOs) (cmd : List Byte) (w : W) : Res (W ⊕ Nat × W) := do
  let data ← rdN cmd w.pos w.len
  let n := os w.calls w.len
  if n = 0 then
    let w := { w with calls := w.calls + 1, retry := w.retry + 1 }
    if 10 < w.retry then return .inr (0, w)
    if 0 < w.len then return .inl w
    return .inr (w.total, w)
  else
    let w := { w with calls := w.calls + 1, pos := w.pos + n, len := szSub w.len n, total := w.total + n, retry := 0,
                      wire := w.wire ++ data.take n }
    if 0 < w.len then return .inl w
    return .inr (w.total, w)

/-- The loop, for at most `k` rounds; `none` if it has not ended. -/
def writeLoop (os : SendOs) (cmd : List Byte) : Nat → W → Res (Option (Nat × W))
  | 0, _ => .ok none
  | k + 1, w => do
      match ← writeStep os cmd w with
      | .inl w => writeLoop os cmd k w
      | .inr r => return some r

/-- `uecho_socket_write` — src/uecho/net/socket.c:431-477, without OpenSSL. The result, and the bytes that the operating
system took. -/
def write (os : SendOs) (cmd : List Byte) (k : Nat) : Res (Option (Nat × List Byte)) :=
  if cmd.length = 0 then .ok (some (0, [])) else do
    match ← writeLoop os cmd k ⟨0, 0, cmd.length, 0, 0, []⟩ with
    | none => return none
    | some (n, w) => return some (n, w.wire)

/-- What a peer sends: bytes one after the other, then the end of the stream or an error. -/
abbrev Input := List Byte

/-- The rest of a line that does not fit — src/uecho/net/socket.c:501-507. -/
def skipLine : Input → Input
  | [] => []
  | c :: cs => if c = 10#8 then cs else skipLine cs

/-- The first loop of `uecho_socket_readline` — src/uecho/net/socket.c:492-499: `none` for -1. `fuel` is at least the
number of rounds. -/
def readLoop (bound : Nat) : Nat → List (Option Byte) → Nat → Input → Res (Option (List (Option Byte) × Nat × Input))
  | 0, _, _, _ => .ub
  | fuel + 1, buf, cnt, inp =>
    if cnt < bound then
      match inp with
      | [] => .ok none
      | c :: cs => do
          let buf ← wr buf cnt (some c)
          if c = 10#8 then return some (buf, cnt + 1, cs)
          readLoop bound fuel buf (cnt + 1) cs
    else .ok (some (buf, cnt, inp))

/-- `uecho_socket_readline` — src/uecho/net/socket.c:482-510, with a buffer of `len` bytes (`buf.length = len`): the buffer,
the result (`none` for -1) and the rest of the stream. Every round consumes a byte. After an error the
buffer is given back as it was, although bytes may have been written into it. -/
def readline (buf : List (Option Byte)) (inp : Input) : Res (List (Option Byte) × Option Nat × Input) := do
  match ← readLoop (szSub buf.length 1) (inp.length + 1) buf 0 inp with
  | none => return (buf, none, [])
  | some (buf, cnt, rest) =>
      let buf ← wr buf cnt (some 0#8)
      if cnt = 0 then .ub
      else do
        let last ← rd buf (cnt - 1)
        match last with
        | none => .ub
        | some c => return (buf, some cnt, if c = 10#8 then rest else skipLine rest)

end Uecho.Socket
