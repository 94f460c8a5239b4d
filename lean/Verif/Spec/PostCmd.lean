import Verif.Model.PostCmd
import Verif.Spec.NodeApi
/-! # Specification for C149: the command line of uechopost -/
namespace Uecho.Spec
open Uecho

/-- The character stands for the hexadecimal digit, in lower or upper case. -/
def IsDigit (c : Char) (v : Nat) : Prop :=
  "0123456789abcdef".toList[v]? = some c ∨ "0123456789ABCDEF".toList[v]? = some c

/-- The text spells the bytes, two digits each. -/
inductive Spells : List Byte → List Char → Prop
  | nil : Spells [] []
  | cons {x a b xs s} : IsDigit a (x.toNat / 16) → IsDigit b (x.toNat % 16) → Spells xs s → Spells (x :: xs) (a :: b :: s)

/-- What a user types for properties: code, number of bytes of data, data. -/
def typed (ps : List Prop8) : List Byte := ps.flatMap fun q => q.1 :: BitVec.ofNat 8 q.2.length :: q.2

/-- What is sent to a node: one frame with the next transaction ID of the controller, from its profile. -/
def posted (e : Endian) (ctl : Node) (a : String) (dst : Byte × Byte × Byte) (esv : Byte) (body : Body) (eff : List Effect) : Prop :=
  ∃ tid, tidNat e tid = succTid ctl.lastTid.toNat ∧ eff = [sends (some a) ⟨tid, profileEoj, dst, esv, body⟩]

/-- The services whose requests are answered. -/
def Answered (esv : Byte) : Prop := esv = 0x61 ∨ esv = 0x62 ∨ esv = 0x63 ∨ esv = 0x6E ∨ esv = 0x74

end Uecho.Spec
