import Verif.Model.Message
/-! # The fields of a message one by one, and what they say about it: src/uecho/message.c -/
namespace Uecho.Message
open Uecho

/-- `uecho_message_setehd1` — src/uecho/message.c:284-289. -/
def setEhd1 (m : Message) (b : Byte) : Message := { m with ehd1 := b }
/-- `uecho_message_getehd1` — src/uecho/message.c:293-298. -/
def getEhd1 (m : Message) : Byte := m.ehd1
/-- `uecho_message_setehd2` — src/uecho/message.c:302-307. -/
def setEhd2 (m : Message) (b : Byte) : Message := { m with ehd2 := b }
/-- `uecho_message_getehd2` — src/uecho/message.c:311-316. -/
def getEhd2 (m : Message) : Byte := m.ehd2
/-- `uecho_message_getesv` — src/uecho/message.c:334-340. -/
def getEsv (m : Message) : Byte := m.esv
/-- `uecho_message_getsourceaddress` — src/uecho/message.c:445-448. -/
def getSourceAddress (m : Message) : Option String := m.fromAddr
/-- `uecho_message_getdestinationaddress` — src/uecho/message.c:472-475. -/
def getDestinationAddress (m : Message) : Option String := m.toAddr
/-- `uecho_message_issourceaddress` — src/uecho/message.c:454-457, with `uecho_streq` (src/uecho/util/strings_function.c:141-147). -/
def isSourceAddress (m : Message) (a : Option String) : Bool := m.fromAddr.isSome && m.fromAddr == a
/-- `uecho_message_isdestinationaddress` — src/uecho/message.c:481-484. -/
def isDestinationAddress (m : Message) (a : Option String) : Bool := m.toAddr.isSome && m.toAddr == a
/-- `uecho_message_issourceobjectcode` — src/uecho/message.c:183-186. -/
def isSourceObjectCode (m : Message) (c : CInt) : Res Bool := do
  let d ← m.getSourceObjectCode
  return d == c
/-- `uecho_message_isdestinationobjectcode` — src/uecho/message.c:210-213. -/
def isDestinationObjectCode (m : Message) (c : CInt) : Res Bool := do
  let d ← m.getDestinationObjectCode
  return d == c
/-- `uecho_message_iswriterequest` — src/uecho/message.c:490-495. -/
def isWriteRequest (m : Message) : Bool := Esv.isWriteRequest m.esv
/-- `uecho_message_isreadrequest` — src/uecho/message.c:501-506. -/
def isReadRequest (m : Message) : Bool := Esv.isReadRequest m.esv
/-- `uecho_message_isnotifyrequest` — src/uecho/message.c:512-517. -/
def isNotifyRequest (m : Message) : Bool := Esv.isNotifyRequest m.esv
/-- `uecho_message_iswriteresponse` — src/uecho/message.c:523-528. -/
def isWriteResponse (m : Message) : Bool := Esv.isWriteResponse m.esv
/-- `uecho_message_isreadresponse` — src/uecho/message.c:534-539. -/
def isReadResponse (m : Message) : Bool := Esv.isReadResponse m.esv
/-- `uecho_message_isnotifyresponse` — src/uecho/message.c:545-550. -/
def isNotifyResponse (m : Message) : Bool := Esv.isNotifyResponse m.esv
/-- `uecho_message_isnotification` — src/uecho/message.c:556-561. -/
def isNotification (m : Message) : Bool := Esv.isNotification m.esv
/-- `uecho_message_isrequest` — src/uecho/message.c:567-572. -/
def isRequest (m : Message) : Bool := Esv.isRequest m.esv
/-- `uecho_message_isresponse` — src/uecho/message.c:578-583. -/
def isResponse (m : Message) : Bool := Esv.isResponse m.esv

end Uecho.Message
