import Verif.Model.NodeFields
import Verif.Model.ObjectFields
import Verif.Spec.NodeApi
/-! # Specification for C145: what is registered stays registered -/
namespace Uecho.Spec
open Uecho

/-- The operation leaves the listener and the handlers of objects with the code `x`. -/
def KeepsHandlers (x : Byte × Byte × Byte) (f : Obj → Res Obj.Out) : Prop :=
  ∀ o o' a, objEoj o = x → f o = .ok (o', a) → o'.hasMessageListener = o.hasMessageListener ∧ o'.observers = o.observers

/-- The node is `d` some time after it was `n`: calls and datagrams came in between. `kept = none`: the listener of the node was not set; `kept = some x`:
the listener and the handlers of the object `x` were not set and the node was not cleared. -/
inductive NodeLater (e : Endian) (db : Db) (kept : Option (Byte × Byte × Byte)) (n : Node) : Node → Prop
  | same : NodeLater e db kept n n
  | addObject {d d' eff r} (o) : NodeLater e db kept n d → d.addObject e o = .ok (d', eff, r) → NodeLater e db kept n d'
  | setObject {d d' eff r} (junk c) : NodeLater e db kept n d → d.setObject e db junk c = .ok (d', eff, r) → NodeLater e db kept n d'
  | clear {d} : kept = none → NodeLater e db kept n d → NodeLater e db kept n d.clear
  | setAddress {d} (a) : NodeLater e db kept n d → NodeLater e db kept n (d.setAddress a)
  | setMessageListener {d} (b) : kept ≠ none → NodeLater e db kept n d → NodeLater e db kept n (d.setMessageListener b)
  | setLastTid {d} (t) : NodeLater e db kept n d → NodeLater e db kept n (d.setLastTid t)
  | nextTid {d} : NodeLater e db kept n d → NodeLater e db kept n d.nextTid
  | edit {d d' eff} (i f) : NodeLater e db kept n d → KeepsIdentity f → (∀ x, kept = some x → KeepsHandlers x f) →
      d.onObj e i f = .ok (d', eff) → NodeLater e db kept n d'
  | setManufacturerCode {d d' eff} (v is) : NodeLater e db kept n d → Node.setManufacturerCode e v is d = .ok (d', eff) →
      NodeLater e db kept n d'
  | announceMessage {d d' m' eff} (m) : NodeLater e db kept n d → d.announceMessage e m = .ok (d', m', eff) → NodeLater e db kept n d'
  | sendMessage {d d' m' eff} (a m) : NodeLater e db kept n d → d.sendMessage e a m = .ok (d', m', eff) → NodeLater e db kept n d'
  | start {d d' eff} (b) : NodeLater e db kept n d → d.start e b = .ok (d', eff) → NodeLater e db kept n d'
  | receive {d d' eff} (loc a x) : NodeLater e db kept n d → d.receive e loc a x = .ok (d', eff) → NodeLater e db kept n d'

/-- The listeners that were called, in order. -/
def listeners (eff : List Effect) : List Effect :=
  eff.filter fun x => match x with
    | .send _ _ => false
    | _ => true

end Uecho.Spec
