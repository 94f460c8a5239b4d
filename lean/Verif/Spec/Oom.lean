import Verif.Model.Oom
import Verif.Spec.Heap
import Verif.Spec.Frame
/-!
# Applications on a host whose memory runs out

Calls of an application on properties and messages it holds by name, with what each call reports, and what a report means. The rules of
use are those of `Spec/Heap`. A call that the rules forbid is not made, and reports `skipped`.
-/
namespace Uecho.Spec.Short
open Uecho Uecho.Oom

/-- The calls. -/
inductive Call where
  | propNew (h : Nat)
  | propCode (h : Nat) (c : Byte)
  | propSetData (h : Nat) (d : List Byte)
  | propAddData (h : Nat) (d : List Byte)
  | propSetInteger (h : Nat) (v : CInt) (size : Nat)
  | propSetName (h : Nat) (v : Option String)
  | propRead (h : Nat)
  | propCopy (h h' : Nat)
  | propDelete (h : Nat)
  | msgNew (h : Nat)
  | msgHeader (h : Nat) (f : Message → Message)
  | msgAdd (h : Nat) (s : MsgSec) (p : Nat)
  | msgSetProp (h : Nat) (s : MsgSec) (code : Byte) (d : List Byte)
  | msgParse (h : Nat) (data : List Byte) (len : Nat)
  | msgSource (h : Nat) (v : Option String)
  | msgDest (h : Nat) (v : Option String)
  | msgBytes (h : Nat)
  | msgSet (h src : Nat)
  | msgCopy (h h' : Nat)
  | msgClear (h : Nat)
  | msgDelete (h : Nat)

/-- What a call reports: the function returned a pointer that is not NULL, NULL, a truth value, bytes, or nothing. -/
inductive Reply where
  | skipped
  | made
  | null
  | done (b : Bool)
  | bytes (l : List (Option Byte))
  | nothing
deriving DecidableEq, Repr

/-- What the application holds. -/
structure Held where
  props : List (Nat × OProp)
  msgs : List (Nat × OMsg)

/-- Nothing. -/
def Held.empty : Held := ⟨[], []⟩

/-- What has the name. -/
def look {α : Type} (h : Nat) (l : List (Nat × α)) : Option α := (l.find? fun x => x.1 == h).map (·.2)

/-- A call on a property. -/
def onProp (s : Held) (h : Nat) (f : OProp → O (Reply × OProp)) : O (Reply × Held) :=
  match pick h s.props with
  | none => pure (.skipped, s)
  | some (p, l) => do
      let r ← f p
      return (r.1, { s with props := (h, r.2) :: l })

/-- A call on a message. -/
def onMsg (s : Held) (h : Nat) (f : OMsg → O (Reply × OMsg)) : O (Reply × Held) :=
  match pick h s.msgs with
  | none => pure (.skipped, s)
  | some (m, l) => do
      let r ← f m
      return (r.1, { s with msgs := (h, r.2) :: l })

/-- One of the three arrays of a message. -/
def secOf (m : OMsg) : MsgSec → OSec
  | .plain => m.plain
  | .set => m.set
  | .get => m.get

/-- Replacing it. -/
def putSec (m : OMsg) (s : OSec) : MsgSec → OMsg
  | .plain => { m with plain := s }
  | .set => { m with set := s }
  | .get => { m with get := s }

/-- One call. -/
def call (s : Held) : Call → O (Reply × Held)
  | .propNew h => if unused h s.props then do
      match ← Oom.propNew with
      | none => return (.null, s)
      | some p => return (.made, { s with props := (h, p) :: s.props })
      else pure (.skipped, s)
  | .propCode h c => onProp s h fun p => do
      use p.self
      return (.nothing, { p with code := c })
  | .propSetData h d => onProp s h fun p => do
      let r ← Oom.propSetData p d
      return (.done r.1, r.2)
  | .propAddData h d => onProp s h fun p => do
      let r ← Oom.propAddData p d
      return (.done r.1, r.2)
  | .propSetInteger h v size => if 1 ≤ size ∧ size ≤ 4 then onProp s h fun p => do
      let r ← Oom.propSetInteger p v size
      return (.done r.1, r.2)
      else pure (.skipped, s)
  | .propSetName h v => onProp s h fun p => do
      let p ← Oom.propSetName p v
      return (.nothing, p)
  | .propRead h => onProp s h fun p => do
      let d ← Oom.propRead p
      return (.bytes (d.map some), p)
  | .propCopy h h' => if unused h' s.props then
      match pick h s.props with
      | none => pure (.skipped, s)
      | some (p, _) => do
          match ← Oom.propCopy p with
          | none => return (.null, s)
          | some q => return (.made, { s with props := (h', q) :: s.props })
      else pure (.skipped, s)
  | .propDelete h =>
      match pick h s.props with
      | none => pure (.skipped, s)
      | some (p, l) => do
          Oom.propDelete p
          return (.done true, { s with props := l })
  | .msgNew h => if unused h s.msgs then do
      match ← Oom.msgNew with
      | none => return (.null, s)
      | some m => return (.made, { s with msgs := (h, m) :: s.msgs })
      else pure (.skipped, s)
  | .msgHeader h f => onMsg s h fun m => do
      use m.self
      return (.nothing, { m with hd := f m.hd })
  | .msgAdd h sec p =>
      match pick h s.msgs, pick p s.props with
      | some (m, l), some (q, l') =>
          if (secOf m sec).cnt.toNat < 255 then do
            use m.self
            let x ← Oom.secAdd (secOf m sec) q
            return (.done true, { props := l', msgs := (h, putSec m x sec) :: l })
          else pure (.skipped, s)
      | _, _ => pure (.skipped, s)
  | .msgSetProp h sec code d =>
      match pick h s.msgs with
      | none => pure (.skipped, s)
      | some (m, l) => if (secOf m sec).cnt.toNat < 255 then do
          use m.self
          let r ← Oom.secSetProp (secOf m sec) code d
          return (.done r.1, { s with msgs := (h, putSec m r.2 sec) :: l })
        else pure (.skipped, s)
  | .msgParse h data len => if len ≤ data.length then onMsg s h fun m => do
      let r ← Oom.msgParse m data len
      return (.done r.1, r.2)
      else pure (.skipped, s)
  | .msgSource h v => onMsg s h fun m => do
      let m ← Oom.msgSetSource m v
      return (.done v.isSome, m)
  | .msgDest h v => onMsg s h fun m => do
      let m ← Oom.msgSetDest m v
      return (.done v.isSome, m)
  | .msgBytes h => onMsg s h fun m => do
      let r ← Oom.msgGetBytes m
      return (.bytes r.1, r.2)
  | .msgSet h src =>
      match pick h s.msgs with
      | none => pure (.skipped, s)
      | some (m, l) =>
        match pick src l with
        | none => pure (.skipped, s)
        | some (n, l') => do
            let r ← Oom.msgSet m n
            return (.done true, { s with msgs := (h, r) :: (src, n) :: l' })
  | .msgCopy h h' => if unused h' s.msgs then
      match pick h s.msgs with
      | none => pure (.skipped, s)
      | some (m, _) => do
          match ← Oom.msgCopy m with
          | none => return (.null, s)
          | some q => return (.made, { s with msgs := (h', q) :: s.msgs })
      else pure (.skipped, s)
  | .msgClear h => onMsg s h fun m => do
      let m ← Oom.msgClear m
      return (.done true, m)
  | .msgDelete h =>
      match pick h s.msgs with
      | none => pure (.skipped, s)
      | some (m, l) => do
          Oom.msgDelete m
          return (.done true, { s with msgs := l })

/-- A sequence of calls, with the reports. -/
def calls : List Call → Held → O (List Reply × Held)
  | [], s => pure ([], s)
  | c :: cs, s => do
      let r ← call s c
      let t ← calls cs r.2
      return (r.1 :: t.1, t.2)

/-- The call is `uecho_property_adddata`. -/
def Call.isAppend : Call → Bool
  | .propAddData _ _ => true
  | _ => false

/-! ### What is held -/

/-- The blocks of a property. -/
def propF (p : OProp) : List Nat := [p.self] ++ strF p.name ++ ptr p.data
/-- The blocks of a slot. -/
def slotF : Option OProp → List Nat
  | none => []
  | some p => propF p
/-- The blocks of slots. -/
def slotsF (l : List (Option OProp)) : List Nat := l.flatMap slotF
/-- The blocks of an array. -/
def secF (s : OSec) : List Nat := ptr s.arr ++ slotsF (slotsOf s.arr)
/-- The blocks of a message. -/
def msgF (m : OMsg) : List Nat := [m.self] ++ ptr m.bytes ++ ptr m.fromA ++ ptr m.toA ++ secF m.plain ++ secF m.set ++ secF m.get
/-- All the blocks of what the application holds. -/
def Held.blocks (s : Held) : List Nat := s.props.flatMap (fun x => propF x.2) ++ s.msgs.flatMap (fun x => msgF x.2)

/-- The codes and data of the slots; `none` for a slot that is NULL. -/
def entries (s : OSec) : List (Option Prop8) := (slotsOf s.arr).map (Option.map fun p => (p.code, Heap.bytesOf p.data))

/-- The message holds the contents of the frame: the fields, and the properties in order. -/
def HoldsFrame (m : OMsg) (f : Frame) : Prop :=
  (m.hd.tid0, m.hd.tid1) = f.tid ∧ m.hd.seoj = f.seoj ∧ m.hd.deoj = f.deoj ∧ m.hd.esv = f.esv ∧
  match f.body with
  | .plain ps => entries m.plain = ps.map some ∧ entries m.set = [] ∧ entries m.get = []
  | .setGet a b => entries m.plain = [] ∧ entries m.set = a.map some ∧ entries m.get = b.map some

/-- The data of the first property with the code. -/
def firstData (code : Byte) (s : OSec) : Option (List Byte) :=
  ((entries s).find? fun o => o.any fun e => e.1 == code).bind fun o => o.map (·.2)

/-- What the report of a call means, for calls whose reports can be relied on. -/
def Means (s : Held) (c : Call) (r : Reply) (s' : Held) : Prop :=
  match c, r with
  | .propNew h, .made => ∃ p, look h s'.props = some p ∧ p.code = 0 ∧ Heap.bytesOf p.data = []
  | .propNew _, .null => s' = s
  | .propSetData h d, .done true => (look h s'.props).map (fun p => Heap.bytesOf p.data) = some d
  | .propSetData h _, .done false => (look h s'.props).map (fun p => Heap.bytesOf p.data) = some []
  | .propRead h, .bytes l => (look h s.props).map (fun p => (Heap.bytesOf p.data).map some) = some l
  | .propCopy _ _, .null => s' = s
  | .msgNew h, .made => ∃ m, look h s'.msgs = some m ∧ entries m.plain = [] ∧ entries m.set = [] ∧ entries m.get = []
  | .msgNew _, .null => s' = s
  | .msgCopy _ _, .null => s' = s
  | .msgParse h data len, .done true => ∃ m f rest, look h s'.msgs = some m ∧ data.take len = encode f ++ rest ∧ f.WF ∧ HoldsFrame m f
  | .msgSetProp h sec code d, .done true => ∃ m, look h s'.msgs = some m ∧ firstData code (secOf m sec) = some d
  | .msgBytes h, .bytes l => ∀ m f, look h s.msgs = some m → HoldsFrame m f → m.hd.ehd1 = 0x10 → m.hd.ehd2 = 0x81 →
      (IsSetGet f.esv ↔ ∃ a b, f.body = .setGet a b) → l = (encode f).map some
  | _, _ => True

/-- What a call reports when memory suffices. -/
def Expected (c : Call) (r : Reply) : Prop :=
  match c with
  | .propNew _ => r = .made
  | .propSetData _ _ => r = .done true
  | .propSetInteger _ _ _ => r = .done true
  | .propCopy _ _ => r = .made
  | .msgNew _ => r = .made
  | .msgSetProp _ _ _ _ => r = .done true
  | .msgParse _ data len => (∃ f rest, f.WF ∧ data.take len = encode f ++ rest) → r = .done true
  | .msgCopy _ _ => r = .made
  | _ => True

end Uecho.Spec.Short
