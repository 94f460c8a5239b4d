import Verif.Model.Basic
/-!
# esv.c and the ESV functions of message.c

ESV constants: include/uecho/esv.h:31-50.
-/
namespace Uecho.Esv
open Uecho

/-- 0x60 `uEchoEsvWriteRequest` — include/uecho/esv.h:32. -/
abbrev writeRequest : Byte := 0x60#8
/-- 0x61 `uEchoEsvWriteRequestResponseRequired` — esv.h:33. -/
abbrev writeRequestRR : Byte := 0x61#8
/-- 0x62 `uEchoEsvReadRequest` — esv.h:34. -/
abbrev readRequest : Byte := 0x62#8
/-- 0x63 `uEchoEsvNotificationRequest` — esv.h:35. -/
abbrev notificationRequest : Byte := 0x63#8
/-- 0x6E `uEchoEsvWriteReadRequest` — esv.h:36. -/
abbrev writeReadRequest : Byte := 0x6E#8
/-- 0x71 `uEchoEsvWriteResponse` — esv.h:38. -/
abbrev writeResponse : Byte := 0x71#8
/-- 0x72 `uEchoEsvReadResponse` — esv.h:39. -/
abbrev readResponse : Byte := 0x72#8
/-- 0x73 `uEchoEsvNotification` — esv.h:40. -/
abbrev notification : Byte := 0x73#8
/-- 0x74 `uEchoEsvNotificationResponseRequired` — esv.h:41. -/
abbrev notificationRR : Byte := 0x74#8
/-- 0x7A `uEchoEsvNotificationResponse` — esv.h:42. -/
abbrev notificationResponse : Byte := 0x7A#8
/-- 0x7E `uEchoEsvWriteReadResponse` — esv.h:43. -/
abbrev writeReadResponse : Byte := 0x7E#8
/-- 0x50 `uEchoEsvWriteRequestError` — esv.h:45. -/
abbrev writeRequestError : Byte := 0x50#8
/-- 0x51 `uEchoEsvWriteRequestResponseRequiredError` — esv.h:46. -/
abbrev writeRequestRRError : Byte := 0x51#8
/-- 0x52 `uEchoEsvReadRequestError` — esv.h:47. -/
abbrev readRequestError : Byte := 0x52#8
/-- 0x53 `uEchoEsvNotificationRequestError` — esv.h:48. -/
abbrev notificationRequestError : Byte := 0x53#8
/-- 0x5E `uEchoEsvWriteReadRequestError` — esv.h:49. -/
abbrev writeReadRequestError : Byte := 0x5E#8

/-- `uecho_esv_isnotification` — src/uecho/esv.c:17-22. -/
def isNotification (e : Byte) : Bool := e == notification
/-- `uecho_esv_iswriterequest` — src/uecho/esv.c:28-33. -/
def isWriteRequest (e : Byte) : Bool :=
  e == writeRequest || e == writeRequestRR || e == writeReadRequest
/-- `uecho_esv_isreadrequest` — src/uecho/esv.c:39-44. -/
def isReadRequest (e : Byte) : Bool := e == readRequest || e == writeReadRequest
/-- `uecho_esv_isnotifyrequest` — src/uecho/esv.c:50-55. -/
def isNotifyRequest (e : Byte) : Bool := e == notificationRequest || e == notificationRR
/-- `uecho_esv_iswriteresponse` — src/uecho/esv.c:61-68 (0x51 is not listed). -/
def isWriteResponse (e : Byte) : Bool :=
  e == writeResponse || e == writeReadResponse ||
  e == writeRequestError || e == writeReadRequestError
/-- `uecho_esv_isreadresponse` — src/uecho/esv.c:74-81. -/
def isReadResponse (e : Byte) : Bool :=
  e == readResponse || e == writeReadResponse ||
  e == readRequestError || e == writeReadRequestError
/-- `uecho_esv_isnotifyresponse` — src/uecho/esv.c:87-94. -/
def isNotifyResponse (e : Byte) : Bool :=
  e == notification || e == notificationResponse || e == notificationRequestError
/-- `uecho_esv_isrequest` — src/uecho/esv.c:100-109. -/
def isRequest (e : Byte) : Bool := isWriteRequest e || isReadRequest e || isNotifyRequest e
/-- `uecho_esv_isresponse` — src/uecho/esv.c:115-124. -/
def isResponse (e : Byte) : Bool := isWriteResponse e || isReadResponse e || isNotifyResponse e

/-- `uecho_message_requestesv2responseesv` — src/uecho/message.c:346-369
(`none` = returns false). -/
def requestToResponse (e : Byte) : Option Byte :=
  if e = writeRequestRR then some writeResponse
  else if e = readRequest then some readResponse
  else if e = notificationRequest then some notification
  else if e = writeReadRequest then some writeReadResponse
  else if e = notificationRR then some notificationResponse
  else none

/-- `uecho_message_requestesv2errorresponseesv` — src/uecho/message.c:375-398
(`none` = returns false). -/
def requestToError (e : Byte) : Option Byte :=
  if e = writeRequest then some writeRequestError
  else if e = writeRequestRR then some writeRequestRRError
  else if e = readRequest then some readRequestError
  else if e = notificationRequest then some notificationRequestError
  else if e = writeReadRequest then some writeReadRequestError
  else none

/-- `uecho_message_isreadwritemessage` (on the ESV) — src/uecho/message.c:771-780. -/
def isReadWrite (e : Byte) : Bool :=
  e == writeReadRequest || e == writeReadResponse || e == writeReadRequestError

end Uecho.Esv
