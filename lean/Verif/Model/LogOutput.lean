import Verif.Model.Log
/-!
# src/uecho/util/log.c: what is printed

The time of day is the text `ts` that `strftime` makes of it.
-/
namespace Uecho.Log
open Uecho Uecho.CString

/-- `uEchoLogLevel` — include/uecho/util/log.h:22-29. -/
abbrev levelNone : Nat := 0x00
abbrev levelError : Nat := 0x01
abbrev levelWarn : Nat := 0x02
abbrev levelInfo : Nat := 0x04
abbrev levelDebug : Nat := 0x08
abbrev levelAll : Nat := 0xFF

/-- `uecho_log_type2string` — src/uecho/util/log.c:30-51, src/uecho/util/_log.h:27-30. -/
def typeText (type : Nat) : List Byte :=
  if type = levelError then [0x45#8, 0x52#8, 0x52#8, 0x4F#8, 0x52#8]
  else if type = levelWarn then [0x57#8, 0x41#8, 0x52#8, 0x4E#8]
  else if type = levelInfo then [0x49#8, 0x4E#8, 0x46#8, 0x4F#8]
  else if type = levelDebug then [0x44#8, 0x45#8, 0x42#8, 0x55#8, 0x47#8]
  else []

/-- `uecho_log_output` — src/uecho/util/log.c:58-83; `text` is what the format and its arguments give: the line that is printed, or nothing. -/
def logOutput (level severity : Nat) (ts text : List Byte) : Res (Option (List Byte)) :=
  if level < severity then .ok none else do
    let msg : Block := List.replicate 2048 none
    let head := ts ++ [0x20#8, 0x3A#8, 0x20#8] ++ typeText severity ++ [0x20#8]
    let msg ← snprintf msg 0 2048 head
    let prefixLen := head.length
    let msg ← snprintf msg prefixLen (szSub 2048 prefixLen) text
    let line ← readZ msg
    return some line

/-- `uecho_net_socket_log` with the call of the logger — src/uecho/util/logs.c:20-42: what is printed. The severity is an argument, and not used. -/
def socketTrace (level _severity : Nat) (ts pre frm to bytes : List Byte) : Res (Option (List Byte)) := do
  let text ← socketLog pre frm to bytes
  match text with
  | none => return none
  | some t => logOutput level levelDebug ts t

/-- `uecho_net_socket_error` — src/uecho/util/logs.c:53-56, which `uecho_net_datagram_packet_error` — src/uecho/util/logs.c:62-73 — and `uecho_message_error` —
src/uecho/util/logs.c:92-104 — amount to. -/
def socketError (level : Nat) (ts pre frm to bytes : List Byte) : Res (Option (List Byte)) := socketTrace level levelError ts pre frm to bytes

/-- `uecho_net_socket_debug` — src/uecho/util/logs.c:48-51. -/
def socketDebug (level : Nat) (ts pre frm to bytes : List Byte) : Res (Option (List Byte)) := socketTrace level levelDebug ts pre frm to bytes

end Uecho.Log
