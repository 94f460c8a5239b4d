import Verif.Model.Property
/-!
# Specification: integers as bytes, property data as a byte string, ESV roles
-/
namespace Uecho.Spec
open Uecho

/-- Value of a byte string, most significant byte first. -/
def beValue (l : List Byte) : Nat := l.foldl (fun a b => a * 256 + b.toNat) 0

/-- Calls that change the data of a property (include/uecho/property.h). -/
inductive DataOp where
  | setData (d : List Byte)
  | addData (d : List Byte)
  | addByteData (b : Byte)
  | setByteData (b : Byte)
  | clearData
  | setCount (n : Nat)
deriving DecidableEq, Repr

/-- What the call does to the model of a property. -/
def DataOp.run (p : Property) : DataOp → Property
  | .setData d => (p.setData d).1
  | .addData d => (p.addData d).1
  | .addByteData b => (p.addByteData b).1
  | .setByteData b => (p.setByteData b).1
  | .clearData => p.clearData
  | .setCount n => p.setCount n

/-- What the call is supposed to do to the stored byte string. -/
def DataOp.spec (s : List Byte) : DataOp → List Byte
  | .setData d => d
  | .addData d => s ++ d
  | .addByteData b => s ++ [b]
  | .setByteData b => [b]
  | .clearData => []
  | .setCount n => List.replicate n 0

/-- ESVs of requests (ECHONET Lite spec, table 3-9, plus INFC 0x74, which asks for a response). -/
def requestEsvs : List Byte := [0x60, 0x61, 0x62, 0x63, 0x6E, 0x74]
/-- ESVs of responses, error responses and notifications. -/
def responseEsvs : List Byte := [0x71, 0x72, 0x73, 0x7A, 0x7E, 0x50, 0x51, 0x52, 0x53, 0x5E]

end Uecho.Spec
