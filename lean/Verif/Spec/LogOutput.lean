import Verif.Model.Basic
/-! # Specification for C117: severities of messages of the library -/
namespace Uecho.Spec
open Uecho

/-- The characters of an ASCII text. -/
def ascii (s : String) : List Byte := s.toList.map fun c => BitVec.ofNat 8 c.toNat

/-- The severities (src/uecho/util/log.h): errors are 1, warnings 2, informations 4, debug messages 8; the names printed. -/
def severityName (severity : Nat) : List Byte :=
  match severity with
  | 1 => ascii "ERROR"
  | 2 => ascii "WARN"
  | 4 => ascii "INFO"
  | 8 => ascii "DEBUG"
  | _ => []

end Uecho.Spec
