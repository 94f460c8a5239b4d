import Verif.Model.OomObj
import Verif.Spec.Oom
/-!
# Applications that make and use an object while memory runs out

The calls of an application on an object, what each reports, and what a report means.
-/
namespace Uecho.Spec.Short
open Uecho Uecho.Oom

/-- The calls. -/
inductive ObjCall where
  | setProperty (code : Byte) (attr : CInt)
  | setData (code : Byte) (d : List Byte)
  | setInteger (code : Byte) (v : CInt) (size : Nat)
  | setAttr (code : Byte) (attr : CInt)
  | setHandler (esv code : Byte)
  | read (code : Byte)

/-- The rules of use: integers of one to four bytes; every property can be read. -/
def ObjCall.Fair : ObjCall → Prop
  | .setProperty _ attr | .setAttr _ attr => attr &&& (Attr.read ||| Attr.readRequired) ≠ 0
  | .setInteger _ _ size => 1 ≤ size ∧ size ≤ 4
  | _ => True

/-- One call. -/
def objCall (o : OObj) : ObjCall → O (Reply × OObj)
  | .setProperty c a => do
      let r ← objSetProperty o c a
      return (.done r.1, r.2)
  | .setData c d => do
      let r ← objSetData o c d
      return (.done r.1, r.2)
  | .setInteger c v n => do
      let r ← objSetInteger o c v n
      return (.done r.1, r.2)
  | .setAttr c a => do
      let r ← objSetAttr o c a
      return (.done r.1, r.2)
  | .setHandler e c => do
      let r ← objSetHandler o e c
      return (.done r.1, r.2)
  | .read c => do
      let r ← objRead o c
      return (match r.1 with
        | none => .null
        | some d => .bytes (d.map some), r.2)

/-- The calls of a history, and what they report. -/
def objCalls : List ObjCall → OObj → O (List Reply × OObj)
  | [], o => pure ([], o)
  | c :: cs, o => do
      let r ← objCall o c
      let rs ← objCalls cs r.2
      return (r.1 :: rs.1, rs.2)

/-- What a property of the object is to the application: code, attribute and data. -/
def propView (p : OProp) : Byte × CInt × List Byte := (p.code, p.attr, Heap.bytesOf p.data)

/-- The properties of the object. -/
def objView (o : OObj) : List (Byte × CInt × List Byte) := o.props.map propView

/-- The services and codes for which there is a handler. -/
def handlersOf (o : OObj) : List (Byte × Byte) := o.obs.map fun x => (x.esv, x.code)

/-- The other properties: those with codes not in the list. -/
def others (cs : List Byte) (o : OObj) : List (Byte × CInt × List Byte) := (objView o).filter fun p => !cs.contains p.1

/-- Nothing changed. -/
def Unchanged (o o' : OObj) : Prop := objView o' = objView o ∧ handlersOf o' = handlersOf o

/-- At most the properties with these codes changed. -/
def OnlyProps (cs : List Byte) (o o' : OObj) : Prop := others cs o' = others cs o ∧ handlersOf o' = handlersOf o

/-- The codes of the three property maps. -/
def mapCodes : List Byte := [0x9D, 0x9E, 0x9F]

/-- What the report of a call on the object `o`, which is `o'` then, means. False: nothing changed; only a handler that was to be replaced
is gone. True: the property is there, with the attribute, or with the data unless there was no memory for them; the handler is there. Other
properties do not change, except for the property maps when a property is set. -/
def ObjMeans (o : OObj) : ObjCall → Reply → OObj → Prop
  | .setProperty _ _, .done false, o' => Unchanged o o'
  | .setProperty c a, .done true, o' =>
      OnlyProps (c :: mapCodes) o o' ∧ ((∃ p ∈ o'.props, propView p = (c, a, [])) ∨ c ∈ mapCodes)
  | .setAttr _ _, .done false, o' => Unchanged o o'
  | .setAttr c a, .done true, o' => OnlyProps [c] o o' ∧ ∃ p ∈ o'.props, p.code = c ∧ p.attr = a
  | .setData _ _, .done false, o' => Unchanged o o'
  | .setData c d, .done true, o' =>
      OnlyProps [c] o o' ∧ ∃ p ∈ o'.props, p.code = c ∧ (Heap.bytesOf p.data = d ∨ Heap.bytesOf p.data = [])
  | .setInteger c _ _, .done _, o' => OnlyProps [c] o o'
  | .setHandler e c, .done false, o' => objView o' = objView o ∧ handlersOf o' = (handlersOf o).erase (e, c)
  | .setHandler e c, .done true, o' => objView o' = objView o ∧ handlersOf o' = (handlersOf o).erase (e, c) ++ [(e, c)]
  | .read _, .null, o' => Unchanged o o'
  | .read c, .bytes l, o' => OnlyProps [c] o o' ∧ ∃ p ∈ o'.props, p.code = c ∧ l = (Heap.bytesOf p.data).map some
  | _, _, _ => False

/-- What the call reports if there is memory. -/
def ObjExpected : ObjCall → Reply → Prop
  | .read _, .bytes _ => True
  | .read _, _ => False
  | _, r => r = .done true

end Uecho.Spec.Short
