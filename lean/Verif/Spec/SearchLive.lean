import Verif.Spec.SearchVals
import Verif.Spec.Remote
/-! # Specification for C152 and C155: the values of a device that answers -/
namespace Uecho.Spec
open Uecho Uecho.SearchCmd

/-- The Get request for one property of an object, from a controller. -/
def getRequest (t : Byte × Byte) (x : Byte × Byte × Byte) (k : Byte) : Frame := ⟨t, profileEoj, x, 0x62, .plain [(k, [])]⟩

/-- The line shows this value: the bytes, or, for a manufacturer, the name in the list. -/
def ShowsValue (ms : List Std.Manufacture) (d : List Byte) : Line → Prop
  | .property _ _ _ v _ => v = some [d]
  | .node _ nm => nm = (ms.find? fun m => m.code.toNat = beValue d).map (·.name)
  | .object _ _ _ => False

end Uecho.Spec
