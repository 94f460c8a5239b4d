import Verif.Model.Heap
/-!
# Applications that work on properties and messages

A small language of calls an application makes on properties and messages it holds. An application names what it holds by numbers. A
call that would break the rules of use is not made (`pure`), and the rules are only these: the handle exists; a new handle has a name
that is not in use; a message takes at most 255 properties in each of its three arrays; the number of properties is set on a message
whose array is empty; integers have one to four bytes; the number of bytes given to the parser is not more than there are.
A property added to a message belongs to the message from then on.
-/
namespace Uecho.Spec
open Uecho Uecho.Heap

/-- The block behind a pointer that may be NULL. -/
def ptr {α : Type} : Option (Nat × α) → List Nat
  | none => []
  | some (a, _) => [a]

/-- The blocks of a string. -/
def strF (s : HStr) : List Nat := [s.self] ++ ptr s.val

/-- The blocks of a property. -/
def propF (p : HProp) : List Nat := [p.self] ++ strF p.name ++ ptr p.data

/-- The blocks of a list of properties. -/
def propsF (l : List HProp) : List Nat := l.flatMap propF

/-- The blocks of an array of properties, with the properties. -/
def secF (s : HSec) : List Nat := ptr s.arr ++ propsF (slotsOf s.arr)

/-- The blocks of a message. -/
def msgF (m : HMsg) : List Nat := [m.self] ++ ptr m.bytes ++ ptr m.fromA ++ ptr m.toA ++ secF m.plain ++ secF m.set ++ secF m.get

/-- The three arrays of a message. -/
inductive MsgSec where
  | plain | set | get
deriving DecidableEq, Repr

/-- The array of a message. -/
def HMsg.sec (m : HMsg) : MsgSec → HSec
  | .plain => m.plain
  | .set => m.set
  | .get => m.get

/-- Calls of an application. `h`, `h'` are names of what it holds; a call that creates something says which name it gets. -/
inductive Call where
  | propNew (h : Nat)
  | propCode (h : Nat) (c : Byte)
  | propSetData (h : Nat) (d : List Byte)
  | propAddData (h : Nat) (d : List Byte)
  | propSetInteger (h : Nat) (v : CInt) (size : Nat)
  | propSetName (h : Nat) (v : Option String)
  | propRead (h : Nat)
  | propCopy (h h' : Nat)
  | propDelete (h : Nat)
  | msgNew (h : Nat)
  | msgSearch (h : Nat)
  | msgHeader (h : Nat) (f : Message → Message)
  | msgAdd (h : Nat) (s : MsgSec) (p : Nat)
  | msgSetProp (h : Nat) (s : MsgSec) (code : Byte) (d : List Byte)
  | msgSetOpc (h : Nat) (count : Byte)
  | msgParse (h : Nat) (data : List Byte) (len : Nat)
  | msgSource (h : Nat) (v : Option String)
  | msgDest (h : Nat) (v : Option String)
  | msgBytes (h : Nat)
  | msgSet (h src : Nat)
  | msgCopy (h h' : Nat)
  | msgEquals (h h' : Nat)
  | msgClear (h : Nat)
  | msgDelete (h : Nat)

/-- What the application holds. -/
structure Held where
  props : List (Nat × HProp)
  msgs : List (Nat × HMsg)

/-- All the blocks of what the application holds. -/
def Held.blocks (s : Held) : List Nat := s.props.flatMap (fun x => propF x.2) ++ s.msgs.flatMap (fun x => msgF x.2)

/-- It holds nothing. -/
def Held.empty : Held := ⟨[], []⟩

/-- Take what has the name out of the list. -/
def pick {α : Type} (h : Nat) : List (Nat × α) → Option (α × List (Nat × α))
  | [] => none
  | x :: l => if x.1 = h then some (x.2, l) else (pick h l).map fun r => (r.1, x :: r.2)

/-- The name is not in use. -/
def unused {α : Type} (h : Nat) (l : List (Nat × α)) : Bool := l.all fun x => x.1 != h

/-- A call on a property. -/
def onProp (s : Held) (h : Nat) (f : HProp → H HProp) : H Held :=
  match pick h s.props with
  | none => pure s
  | some (p, l) => do
      let q ← f p
      return { s with props := (h, q) :: l }

/-- A call on a message. -/
def onMsg (s : Held) (h : Nat) (f : HMsg → H HMsg) : H Held :=
  match pick h s.msgs with
  | none => pure s
  | some (m, l) => do
      let q ← f m
      return { s with msgs := (h, q) :: l }

/-- Adding a property to an array of a message. -/
def addTo (m : HMsg) (p : HProp) : MsgSec → H HMsg
  | .plain => Heap.msgAdd m p
  | .set => Heap.msgAddSet m p
  | .get => Heap.msgAddGet m p

/-- Setting the data of a property of an array of a message. -/
def setIn (m : HMsg) (code : Byte) (d : List Byte) : MsgSec → H HMsg
  | .plain => Heap.msgSetProp m code d
  | .set => Heap.msgSetPropSet m code d
  | .get => Heap.msgSetPropGet m code d

/-- One call. -/
def call (s : Held) : Call → H Held
  | .propNew h => if unused h s.props then do
      let p ← Heap.propNew
      return { s with props := (h, p) :: s.props }
      else pure s
  | .propCode h c => onProp s h fun p => do
      use p.self
      return { p with code := c }
  | .propSetData h d => onProp s h fun p => Heap.propSetData p d
  | .propAddData h d => onProp s h fun p => Heap.propAddData p d
  | .propSetInteger h v size => if 1 ≤ size ∧ size ≤ 4 then onProp s h fun p => Heap.propSetInteger p v size else pure s
  | .propSetName h v => onProp s h fun p => Heap.propSetName p v
  | .propRead h => onProp s h fun p => do
      let _ ← Heap.propRead p
      return p
  | .propCopy h h' => if unused h' s.props then
      match pick h s.props with
      | none => pure s
      | some (p, _) => do
          let q ← Heap.propCopy p
          return { s with props := (h', q) :: s.props }
      else pure s
  | .propDelete h =>
      match pick h s.props with
      | none => pure s
      | some (p, l) => do
          Heap.propDelete p
          return { s with props := l }
  | .msgNew h => if unused h s.msgs then do
      let m ← Heap.msgNew
      return { s with msgs := (h, m) :: s.msgs }
      else pure s
  | .msgSearch h => if unused h s.msgs then do
      let m ← Heap.searchNew
      return { s with msgs := (h, m) :: s.msgs }
      else pure s
  | .msgHeader h f => onMsg s h fun m => do
      use m.self
      return { m with hd := f m.hd }
  | .msgAdd h sec p =>
      match pick h s.msgs, pick p s.props with
      | some (m, l), some (q, l') =>
          if (HMsg.sec m sec).cnt.toNat < 255 then do
            let r ← addTo m q sec
            return { props := l', msgs := (h, r) :: l }
          else pure s
      | _, _ => pure s
  | .msgSetProp h sec code d =>
      match pick h s.msgs with
      | none => pure s
      | some (m, l) => if (HMsg.sec m sec).cnt.toNat < 255 then do
          let r ← setIn m code d sec
          return { s with msgs := (h, r) :: l }
        else pure s
  | .msgSetOpc h c =>
      match pick h s.msgs with
      | none => pure s
      | some (m, l) => if m.plain.arr.isNone then do
          let r ← Heap.msgSetOpc m c
          return { s with msgs := (h, r) :: l }
        else pure s
  | .msgParse h data len => if len ≤ data.length then onMsg s h fun m => do
      let r ← Heap.msgParse m data len
      return r.2
      else pure s
  | .msgSource h v => onMsg s h fun m => Heap.msgSetSource m v
  | .msgDest h v => onMsg s h fun m => Heap.msgSetDest m v
  | .msgBytes h => onMsg s h Heap.msgGetBytes
  | .msgSet h src =>
      match pick h s.msgs with
      | none => pure s
      | some (m, l) =>
        match pick src l with
        | none => pure s
        | some (n, l') => do
            let r ← Heap.msgSet m n
            return { s with msgs := (h, r) :: (src, n) :: l' }
  | .msgCopy h h' => if unused h' s.msgs then
      match pick h s.msgs with
      | none => pure s
      | some (m, _) => do
          let q ← Heap.msgCopy m
          return { s with msgs := (h', q) :: s.msgs }
      else pure s
  | .msgEquals h h' =>
      match pick h s.msgs with
      | none => pure s
      | some (m, l) =>
        match pick h' l with
        | none => pure s
        | some (n, l') => do
            let r ← Heap.msgEquals m n
            return { s with msgs := (h, r.1) :: (h', r.2) :: l' }
  | .msgClear h => onMsg s h Heap.msgClear
  | .msgDelete h =>
      match pick h s.msgs with
      | none => pure s
      | some (m, l) => do
          Heap.msgDelete m
          return { s with msgs := l }

/-- A sequence of calls. -/
def calls : List Call → Held → H Held
  | [], s => pure s
  | c :: cs, s => do
      let s ← call s c
      calls cs s

/-- No block is allocated twice, and new addresses are above those in use. -/
def Sound (m : Mem) : Prop := m.live.Nodup ∧ ∀ a ∈ m.live, a < m.next

end Uecho.Spec
