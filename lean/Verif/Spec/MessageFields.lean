import Verif.Model.MessageFields
/-!
# Histories of the setters of a message
-/
namespace Uecho.Spec
open Uecho

/-- A call of a setter. -/
inductive FieldOp where
  | tid (v : BitVec 32)
  | source (c : CInt)
  | destination (c : CInt)
  | ehd1 (b : Byte)
  | ehd2 (b : Byte)
  | esv (b : Byte)
  | sourceAddress (a : Option String)
  | destinationAddress (a : Option String)
deriving DecidableEq

/-- The setters of the library. -/
def fieldStep (e : Endian) (m : Message) : FieldOp → Res Message
  | .tid v => .ok (m.setTid e v)
  | .source c => m.setSourceObjectCode c
  | .destination c => m.setDestinationObjectCode c
  | .ehd1 b => .ok (m.setEhd1 b)
  | .ehd2 b => .ok (m.setEhd2 b)
  | .esv b => .ok (m.setEsv b)
  | .sourceAddress a => .ok (m.setSourceAddress a)
  | .destinationAddress a => .ok (m.setDestinationAddress a)

def fieldRun (e : Endian) : List FieldOp → Message → Res Message
  | [], m => .ok m
  | op :: ops, m => do
    let m ← fieldStep e m op
    fieldRun e ops m

/-- What was set last; `d` if nothing was. -/
def lastSet {α : Type} (sel : FieldOp → Option α) (d : α) : List FieldOp → α
  | [] => d
  | op :: ops => lastSet sel ((sel op).getD d) ops

def FieldOp.asTid : FieldOp → Option (BitVec 32) | .tid v => some v | _ => none
def FieldOp.asSource : FieldOp → Option CInt | .source c => some c | _ => none
def FieldOp.asDestination : FieldOp → Option CInt | .destination c => some c | _ => none
def FieldOp.asEhd1 : FieldOp → Option Byte | .ehd1 b => some b | _ => none
def FieldOp.asEhd2 : FieldOp → Option Byte | .ehd2 b => some b | _ => none
def FieldOp.asEsv : FieldOp → Option Byte | .esv b => some b | _ => none
/-- Setting NULL sets nothing. -/
def FieldOp.asSourceAddress : FieldOp → Option (Option String) | .sourceAddress (some a) => some (some a) | _ => none
def FieldOp.asDestinationAddress : FieldOp → Option (Option String) | .destinationAddress (some a) => some (some a) | _ => none

/-- The calls pass values that the fields can hold: 16 bits for the TID, 24 bits for object codes. -/
def InRange : FieldOp → Prop
  | .tid v => v.toNat < 2 ^ 16
  | .source c => c.toNat < 2 ^ 24
  | .destination c => c.toNat < 2 ^ 24
  | _ => True

end Uecho.Spec
