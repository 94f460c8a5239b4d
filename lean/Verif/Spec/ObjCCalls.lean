import Verif.Model.ObjCCalls
import Verif.Spec.Frame
/-! # Specification for C159: what an Objective-C message shows -/
namespace Uecho.Spec
open Uecho

/-- The properties that the three lists of a message show, with code and data. -/
def ShowsBody (m : Message) (plain set get : List Prop8) : Prop :=
  ∃ p s g, ObjC.properties m = .ok p ∧ ObjC.setproperties m = .ok s ∧ ObjC.getproperties m = .ok g ∧
    view p = plain ∧ view s = set ∧ view g = get

/-- The method of the observer for a status. -/
def methodFor : NodeStatus → ObjC.Selector
  | .added => .nodeAdded
  | .updated => .nodeUpdated
  | .announced => .nodeAnnounced
  | .responded => .nodeResponsed

/-- The destination that the wrapper gives a message: the code of the object, 0x000000 without one. -/
def destOf : Option Obj → Byte × Byte × Byte
  | some o => (o.grp, o.cls, o.ins)
  | none => (0x00#8, 0x00#8, 0x00#8)

end Uecho.Spec
