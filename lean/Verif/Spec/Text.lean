import Verif.Model.Basic
/-!
# Specification: what a string holds

A string holds nothing (NULL) or a sequence of bytes.
-/
namespace Uecho.Spec
open Uecho

/-- The calls on a string. Plain C strings contain no zero; with an explicit length any bytes. -/
inductive TextOp where
  | clear
  | set (v : Option (List Byte))
  | setN (v : Option (List Byte)) (len : Nat)
  | add (v : Option (List Byte))
  | addN (v : Option (List Byte)) (len : Nat)
  | addRep (v : Option (List Byte)) (times : Nat)
  | addRepN (v : Option (List Byte)) (len times : Nat)
  /-- take over a block that holds `v`, a terminator, and `rest` -/
  | setPointer (v : List Byte) (rest : List (Option Byte))

/-- The caller's buffer has the length they say. -/
def TextOp.Ok : TextOp → Prop
  | .setN (some v) len => len ≤ v.length
  | .addN (some v) len => len ≤ v.length
  | .addRepN (some v) len _ => len ≤ v.length
  | _ => True

/-- Appending: an empty addition leaves everything as it is. -/
def append (t : Option (List Byte)) (v : List Byte) : Option (List Byte) :=
  if v = [] then t else some (t.getD [] ++ v)

def TextOp.apply (t : Option (List Byte)) : TextOp → Option (List Byte)
  | .clear => none
  | .set none => t
  | .set (some v) => some v
  | .setN none _ => none
  | .setN (some v) len => some (v.take len)
  | .add none => t
  | .add (some v) => append t v
  | .addN none _ => t
  | .addN (some v) len => append t (v.take len)
  | .addRep none _ => t
  | .addRep (some v) n => append t (List.replicate n v).flatten
  | .addRepN none _ _ => t
  | .addRepN (some v) len n => append t (List.replicate n (v.take len)).flatten
  | .setPointer v _ => some v

end Uecho.Spec
