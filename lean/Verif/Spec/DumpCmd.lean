import Verif.Model.DumpCmd
import Verif.Spec.PostCmd
import Verif.Spec.Service
/-! # Specification for C157: what uechodump shows -/
namespace Uecho.Spec
open Uecho

/-- The words of a line. -/
def words : List Char → List (List Char)
  | [] => [[]]
  | c :: s =>
    if c = ' ' then [] :: words s
    else match words s with
      | [] => [[c]]
      | w :: ws => (c :: w) :: ws

/-- The number that a word is in a base up to sixteen. -/
def number (base : Nat) (w : List Char) : Option Nat :=
  if w = [] then none
  else w.foldl (fun acc c => acc.bind fun a =>
    let d := "0123456789ABCDEF".toList.idxOf c
    if d < base then some (base * a + d) else none) (some 0)

/-- The property codes of a frame with one section. -/
def plainCodes (f : Frame) : List Byte :=
  match f.body with
  | .plain ps => ps.map (·.1)
  | .setGet _ _ => []

/-- A reader of the line finds the sender and what the frame says. -/
def Reads (e : Endian) (a : String) (f : Frame) (t : List Char) : Prop :=
  ∃ w1 w2 w3 w4 w5 w6 w7 w8, words t = [a.toList, w1, w2, w3, w4, w5, w6, w7, w8] ∧ number 16 w1 = some 0x10 ∧ number 16 w2 = some 0x81 ∧
    number 16 w3 = some (tidNat e f.tid) ∧ number 16 w4 = some (eojNat f.seoj) ∧ number 16 w5 = some (eojNat f.deoj) ∧
    number 16 w6 = some f.esv.toNat ∧ number 10 w7 = some (plainCodes f).length ∧ Spells (plainCodes f) w8

/-- A key asks for a search: `s` or `S`. -/
def asksSearch (k : Option Byte) : Bool := k = some 0x73#8 || k = some 0x53#8

/-- The inputs ask to quit: a `q`. -/
def asksQuit : DumpCmd.In → Bool
  | .key k => k = some 0x71#8
  | .datagram _ => false

/-- The inputs up to the first that asks to quit. -/
def untilQuit : List DumpCmd.In → List DumpCmd.In
  | [] => []
  | i :: is => if asksQuit i then [i] else i :: untilQuit is

/-- What is printed for inputs: for every frame one line, from which it can be read, for everything else that arrives nothing, and for a key that does
not ask for a search how the command is used. -/
inductive Prints (e : Endian) : List DumpCmd.In → List DumpCmd.Line → Prop
  | nil : Prints e [] []
  | frame {a is out} (f rest t) : Frame.WF f → a.data = encode f ++ rest → Reads e a.sender f t → Prints e is out →
      Prints e (.datagram a :: is) (.message t :: out)
  | other {a is out} : (∀ f rest, Frame.WF f → a.data ≠ encode f ++ rest) → Prints e is out → Prints e (.datagram a :: is) out
  | search {k is out} : asksSearch k = true → Prints e is out → Prints e (.key k :: is) out
  | nothing {is out} : Prints e is out → Prints e (.key none :: is) out
  | usage {k is out} : asksSearch (some k) = false → Prints e is out → Prints e (.key (some k) :: is) (.usage :: out)

/-- The searches that inputs ask for. -/
def searchesOf (is : List DumpCmd.In) : Nat :=
  is.countP fun i => match i with
    | .key k => asksSearch k
    | .datagram _ => false

end Uecho.Spec
