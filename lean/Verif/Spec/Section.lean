import Verif.Model.Message
/-!
# The three property sections of a message, by name

Each section is accessed through its own family of API functions
(`uecho_message_addproperty`, `…addpropertyset`, `…addpropertyget` etc.); this is only a
dispatch table, so that a claim about all sections is stated once.
-/
namespace Uecho.Spec
open Uecho

inductive Sec where
  | plain
  | set
  | get
deriving DecidableEq, Repr

namespace Sec
/-- uecho_message_addproperty / addpropertyset / addpropertyget -/
def add : Sec → Message → Property → Res Message
  | plain => Message.addProperty
  | set => Message.addPropertySet
  | get => Message.addPropertyGet
/-- uecho_message_getproperty / getpropertyset / getpropertyget -/
def nth : Sec → Message → Nat → Res (Option Property)
  | plain => Message.getProperty
  | set => Message.getPropertySet
  | get => Message.getPropertyGet
/-- uecho_message_getopc / getopcset / getopcget -/
def count : Sec → Message → Nat
  | plain, m => m.getOpc.toNat
  | set, m => m.getOpcSet.toNat
  | get, m => m.getOpcGet.toNat
/-- uecho_message_getpropertybycode / …setbycode / …getbycode -/
def byCode : Sec → Message → Byte → Res (Option Property)
  | plain => Message.getPropertyByCode
  | set => Message.getPropertySetByCode
  | get => Message.getPropertyGetByCode
/-- uecho_message_setproperty / setpropertyset / setpropertyget -/
def put : Sec → Message → Byte → List Byte → Res Message
  | plain => Message.setProperty
  | set => Message.setPropertySet
  | get => Message.setPropertyGet

/-- Add properties one after the other; the first undefined call makes the result
undefined. -/
def addAll (s : Sec) : Message → List Property → Res Message
  | m, [] => .ok m
  | m, p :: ps => s.add m p >>= fun m' => s.addAll m' ps
end Sec
end Uecho.Spec
