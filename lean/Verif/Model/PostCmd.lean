import Verif.Model.Controller
/-!
# examples/controller/uechopost: the command that posts one request

Texts are lists of characters. Finding the node, starting and stopping, and waiting for the response (`Model/Post`) are
not here.
-/
namespace Uecho.PostCmd
open Uecho

/-- The digits that `%x` takes (C11 7.21.6.2, 7.22.1.4). -/
def hexDigit (c : Char) : Option Nat :=
  if '0' ≤ c ∧ c ≤ '9' then some (c.toNat - 48)
  else if 'a' ≤ c ∧ c ≤ 'f' then some (c.toNat - 87)
  else if 'A' ≤ c ∧ c ≤ 'F' then some (c.toNat - 55)
  else none

/-- `isspace` in the C locale. -/
def isSpace (c : Char) : Bool := c = ' ' || c = '\t' || c = '\n' || c = '\x0b' || c = '\x0c' || c = '\r'

/-- The digits at the start of a text. -/
def digits : List Char → List Nat
  | [] => []
  | c :: s => match hexDigit c with
      | some v => v :: digits s
      | none => []

/-- The number of digits. -/
def value (ds : List Nat) : Nat := ds.foldl (fun a d => 16 * a + d) 0

/-- Digits after an optional `0x`; with the number of characters. C libraries differ on `0x` alone: `lenient` says that it is 0. -/
def scanDigits (lenient : Bool) : List Char → Option (Nat × Nat)
  | '0' :: x :: s =>
      if x = 'x' ∨ x = 'X' then
        if digits s = [] then (if lenient then some (0, 2) else none) else some (value (digits s), 2 + (digits s).length)
      else some (value (digits ('0' :: x :: s)), (digits ('0' :: x :: s)).length)
  | s => if digits s = [] then none else some (value (digits s), (digits s).length)

/-- An optional sign and digits: the number, negated if there is a minus, and the number of characters. A number that does not fit is
undefined (C11 7.21.6.2 p10). -/
def scanNumber (lenient : Bool) (s : List Char) : Res (Option (CInt × Nat)) :=
  let neg : Bool := s.head? = some '-'
  let k := if neg || s.head? = some '+' then 1 else 0
  match scanDigits lenient (s.drop k) with
  | none => .ok none
  | some (v, i) => if v < 2 ^ 32 then .ok (some (if neg then - BitVec.ofNat 32 v else BitVec.ofNat 32 v, k + i)) else .ub

/-- One `%x` or, with a width, `%02x` of `sscanf`: what is stored and what is left of the text. -/
def scanHex (lenient : Bool) (width : Option Nat) (s : List Char) : Res (Option (CInt × List Char)) := do
  let s := s.dropWhile isSpace
  match ← scanNumber lenient (match width with | none => s | some k => s.take k) with
  | none => return none
  | some (v, i) => return some (v, s.drop i)

/-- `sscanf` with one directive; the variable keeps what it had if nothing matches. -/
def scan1 (lenient : Bool) (width : Option Nat) (s : List Char) (old : CInt) : Res CInt := do
  match ← scanHex lenient width s with
  | none => return old
  | some (v, _) => return v

/-- `epc`, `pdc` and `edtByte`; uninitialised at first — examples/controller/uechopost/uechopost.c:95. -/
structure Vars where
  epc : CInt
  pdc : CInt
  edtByte : CInt

/-- `sscanf(edt, "%02x%02x", &epc, &pdc)` — examples/controller/uechopost/uechopost.c:204. -/
def scan2 (lenient : Bool) (s : List Char) (v : Vars) : Res Vars := do
  match ← scanHex lenient (some 2) s with
  | none => return v
  | some (x, r) =>
    match ← scanHex lenient (some 2) r with
    | none => return { v with epc := x }
    | some (y, _) => return { v with epc := x, pdc := y }

/-- The loop over the data — examples/controller/uechopost/uechopost.c:220-227, `k` bytes still to read. -/
def readData (lenient : Bool) : Nat → List Char → CInt → Res (List Byte × CInt)
  | 0, _, b => .ok ([], b)
  | k + 1, s, b => do
      let b ← scan1 lenient (some 2) s b
      let (ds, b') ← readData lenient k (s.drop 2) b
      return (b.setWidth 8 :: ds, b')

/-- The loop over the properties — examples/controller/uechopost/uechopost.c:203-230: `s` is the text from `edt` on, `pos` is
`edt - edata`, and the whole text has `pos + s.length` characters. Each round uses at least four characters, `k` is never less than
`s.length`. `pdc * 2` must fit in an `int`; the sum is compared as `size_t`. If `pdc` is negative, `calloc` of more than half of the address
space fails in `uecho_property_setcount`, and the property has no data. -/
def loop (lenient : Bool) : (k pos : Nat) → List Char → Vars → Message → Res Message
  | 0, _, _, _, m => .ok m
  | k + 1, pos, s, v, m =>
      if s.length < 4 then .ok m
      else do
        let v ← scan2 lenient s v
        let s' := s.drop 4
        if v.pdc = 0#32 then do
          let m ← m.setProperty (v.epc.setWidth 8) []
          loop lenient k (pos + 4) s' v m
        else if v.pdc.toInt * 2 < - 2 ^ 31 ∨ 2 ^ 31 ≤ v.pdc.toInt * 2 then .ub
        else
          let need : Int := pos + 4 + v.pdc.toInt * 2
          if need < 0 ∨ (pos : Int) + s.length < need then .ok m
          else if v.pdc.toInt < 0 then do
            let m ← m.setProperty (v.epc.setWidth 8) []
            loop lenient k (pos + 4) s' v m
          else do
            let (d, b) ← readData lenient v.pdc.toNat s' v.edtByte
            let m ← m.setProperty (v.epc.setWidth 8) d
            loop lenient k (pos + 4 + v.pdc.toNat * 2) (s'.drop (v.pdc.toNat * 2)) { v with edtByte := b } m

/-- The request — examples/controller/uechopost/uechopost.c:180-230, for the node `n`. `v`, `code0`, `esv0`: the uninitialised variables. If the
node has no such object, `dstObj` is NULL, which has the code 0: lines 184-188 look at the wrong variable. -/
def request (lenient : Bool) (v : Vars) (code0 esv0 : CInt) (n : Node) (obj esv props : List Char) : Res Message := do
  let code ← scan1 lenient none obj code0
  let dst := match n.getObject code with
    | none => 0#32
    | some o => o.getCode
  let esv ← scan1 lenient none esv esv0
  let m ← (Message.new.setEsv (esv.setWidth 8)).setDestinationObjectCode dst
  loop lenient props.length 0 props v m

/-- `main` — examples/controller/uechopost/uechopost.c:129-133, 162, 180-247, after the options: the node of the controller, what is sent, and
whether the command then waits for a response; `none`: it prints how it is used. `ctl` is the node of the controller, `n` the node found.
`uecho_controller_postmessage` and `uecho_controller_sendmessage` both send with `uecho_node_sendmessage`
(src/uecho/controller.c:351-356, 495). -/
def run (lenient : Bool) (e : Endian) (v : Vars) (code0 esv0 : CInt) (ctl n : Node) (args : List (List Char)) :
    Res (Option (Node × List Effect × Bool)) :=
  match args with
  | _ :: obj :: esv :: props :: _ => do
      let m ← request lenient v code0 esv0 n obj esv props
      let wait := m.isResponseRequired
      let (ctl, _, eff) ← ctl.sendMessage e n.address m
      return some (ctl, eff, wait)
  | _ => .ok none

/-- `%02X` of a number below 256. -/
def printByte (b : Nat) : List Char :=
  [Nat.digitChar (b / 16), Nat.digitChar (b % 16)].map Char.toUpper

/-- `%02X` of any number that is not negative. -/
def printNat (b : Nat) : List Char :=
  if b < 256 then printByte b else (Nat.toDigits 16 b).map Char.toUpper

/-- The properties of a response — examples/controller/uechopost/uechopost.c:62-75, after the header. The slots are there because the count
is that of the message. -/
def printProps (m : Message) : Res (List Char) := do
  let ps ← Message.slots m.opc m.ep
  return ps.flatMap fun p => printByte p.code.toNat ++ printNat p.data.length ++ p.data.flatMap (fun x => printByte x.toNat) ++ [' ']

/-- `%06X` of a number below 2^24, which every object code is: the last `k` digits. -/
def printDigits : Nat → Nat → List Char
  | 0, _ => []
  | k + 1, v => printDigits k (v / 16) ++ [(Nat.digitChar (v % 16)).toUpper]

/-- `uechopost_print_objectresponse` — examples/controller/uechopost/uechopost.c:51-78: the line that is printed for a response. `%s` of a null
pointer is undefined. -/
def printResponse (m : Message) : Res (List Char) := do
  let code ← m.getSourceObjectCode
  let ps ← printProps m
  match m.fromAddr with
  | none => .ub
  | some a => return a.toList ++ ' ' :: printDigits 6 code.toNat ++ ' ' :: printByte m.esv.toNat ++ ' ' :: ps ++ ['\n']

end Uecho.PostCmd
