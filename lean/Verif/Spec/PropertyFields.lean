import Verif.Model.PropertyFields
/-!
# Histories of the setters of a property

What a property should hold after any calls, said without looking at the model: the value passed last to the setter of the field, and
for data the bytes set last followed by the bytes added since.
-/
namespace Uecho.Spec
open Uecho

/-- A call of a setter. -/
inductive PropSet where
  | code (c : Byte)
  | name (n : Option String)
  | attribute (a : CInt)
  | type (t : CInt)
  | data (d : List Byte)
  | add (d : List Byte)
  | byte (b : Byte)
  | addByte (b : Byte)
  | clear

/-- The setters of the library. -/
def propSetStep (p : Property) : PropSet → Property
  | .code c => p.setCode c
  | .name n => p.setName n
  | .attribute a => p.setAttribute a
  | .type t => p.setType t
  | .data d => (p.setData d).1
  | .add d => (p.addData d).1
  | .byte b => (p.setByteData b).1
  | .addByte b => (p.addByteData b).1
  | .clear => p.clearData

def propSetRun (p : Property) (ops : List PropSet) : Property := ops.foldl propSetStep p

/-- The last call that says something about the field decides; `d` if there is none. -/
def lastPassed {α : Type} (sel : PropSet → Option α) (d : α) (ops : List PropSet) : α :=
  ((ops.filterMap sel).getLast?).getD d

def PropSet.asCode : PropSet → Option Byte | .code c => some c | _ => none
/-- Passing NULL passes no name. -/
def PropSet.asName : PropSet → Option (Option String) | .name (some n) => some (some n) | _ => none
def PropSet.asAttribute : PropSet → Option CInt | .attribute a => some a | _ => none
def PropSet.asType : PropSet → Option CInt | .type t => some t | _ => none

/-- The bytes set last, followed by those added since. -/
def dataAfter : List Byte → List PropSet → List Byte
  | d, [] => d
  | _, .data x :: ops => dataAfter x ops
  | d, .add x :: ops => dataAfter (d ++ x) ops
  | _, .byte b :: ops => dataAfter [b] ops
  | d, .addByte b :: ops => dataAfter (d ++ [b]) ops
  | _, .clear :: ops => dataAfter [] ops
  | d, _ :: ops => dataAfter d ops

/-- Bits of the attribute word (include/uecho/property.h): read 0, write 1, announce 2, read required 4, write required 5, announce
required 6. -/
def hasBit (a : CInt) (i : Nat) : Prop := a.getLsbD i = true

end Uecho.Spec
