import Verif.Model.Basic
/-!
# Specification: the trace line of a datagram

`<prefix> <from, 15 columns> -> <to, 15 columns> <bytes in hexadecimal>`, cut after 255 characters.
-/
namespace Uecho.Spec
open Uecho

/-- `s` in at least 15 columns. -/
def column15 (s : List Byte) : List Byte := s ++ List.replicate (15 - s.length) 32#8

/-- The part of the line before the bytes; a missing prefix takes no room. -/
def traceHeader (pre frm to : List Byte) : List Byte :=
  (if pre = [] then [] else pre ++ [32#8]) ++ column15 frm ++ [32#8, 45#8, 62#8, 32#8] ++ column15 to ++ [32#8]

/-- The sixteen digits `0123456789ABCDEF`. -/
def hexDigits : List Byte :=
  [48#8, 49#8, 50#8, 51#8, 52#8, 53#8, 54#8, 55#8, 56#8, 57#8, 65#8, 66#8, 67#8, 68#8, 69#8, 70#8]

def hexByte (b : Byte) : List Byte := [hexDigits.getD (b.toNat / 16) 0#8, hexDigits.getD (b.toNat % 16) 0#8]

def traceLine (pre frm to bytes : List Byte) : List Byte := traceHeader pre frm to ++ bytes.flatMap hexByte

end Uecho.Spec
