import Verif.Model.ObjectFields
/-! # Histories of registrations of request handlers -/
namespace Uecho.Spec
open Uecho

/-- A registration: for one service, for all services that write, or for all that read. -/
inductive HandlerCall where
  | request (esv c : Byte) (h : Option Handler)
  | write (c : Byte) (h : Option Handler)
  | read (c : Byte) (h : Option Handler)

/-- The calls of the library. -/
def handlerStep (o : Obj) : HandlerCall → Obj
  | .request esv c h => o.setRequestHandler esv c h
  | .write c h => o.setWriteHandler c h
  | .read c h => o.setReadHandler c h

def handlerRun (o : Obj) (cs : List HandlerCall) : Obj := cs.foldl handlerStep o

/-- What a call says about service `esv` and property `c`: writing services are SetI (0x60), SetC (0x61) and SetGet (0x6E), reading ones
Get (0x62), INF_REQ (0x63) and SetGet. -/
def HandlerCall.saysOf (esv c : Byte) : HandlerCall → Option (Option Handler)
  | .request e k h => if e = esv ∧ k = c then some h else none
  | .write k h => if (esv = 0x60 ∨ esv = 0x61 ∨ esv = 0x6E) ∧ k = c then some h else none
  | .read k h => if (esv = 0x62 ∨ esv = 0x63 ∨ esv = 0x6E) ∧ k = c then some h else none

/-- The handler registered last for `esv` and `c`; none if there was no registration. -/
def registered (esv c : Byte) (cs : List HandlerCall) : Option Handler :=
  ((cs.filterMap (·.saysOf esv c)).getLast?).getD none

end Uecho.Spec
