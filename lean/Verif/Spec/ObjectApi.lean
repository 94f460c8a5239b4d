import Verif.Model.Object
/-!
# Specification vocabulary for objects

`ObjReach db o`: the object `o` is obtained from `uecho_object_new` by some history of API calls
that stayed defined, with standard database `db`. `Refresh db o o'`: `o'` is obtained from `o`
by one of the calls that rebuild the property maps.
-/
namespace Uecho.Spec
open Uecho

/-- Objects reachable through the API (all public operations of object.h that change an object). -/
inductive ObjReach (db : Db) : Obj → Prop
  | new : ObjReach db Obj.new
  | setCode {o o' a} (junk v) : ObjReach db o → o.setCode db junk v = .ok (o', a) → ObjReach db o'
  | setGroupCode {o} (v) : ObjReach db o → ObjReach db (o.setGroupCode db v)
  | setClassCode {o} (v) : ObjReach db o → ObjReach db (o.setClassCode db v)
  | setInstanceCode {o} (v) : ObjReach db o → ObjReach db (o.setInstanceCode v)
  | addProperty {o} (p) : ObjReach db o → ObjReach db (o.addProperty p)
  | setProperty {o o' a} (junk c attr) : ObjReach db o →
      o.setProperty junk c attr = .ok (o', a) → ObjReach db o'
  | setPropertyData {o} (c d) : ObjReach db o → ObjReach db (o.setPropertyData c d).1
  | setPropertyIntegerData {o o' a} (c v size) : ObjReach db o →
      o.setPropertyIntegerData c v size = .ok (o', a) → ObjReach db o'
  | setPropertyByteData {o} (c b) : ObjReach db o → ObjReach db (o.setPropertyByteData c b).1
  | setPropertyAttribute {o} (c attr) : ObjReach db o → ObjReach db (o.setPropertyAttribute c attr)
  | getPropertyDataSize {o} (c) : ObjReach db o → ObjReach db (o.getPropertyDataSize c).1
  | getPropertyData {o} (c) : ObjReach db o → ObjReach db (o.getPropertyData c).1
  | getPropertyIntegerData {o o' v} (c) : ObjReach db o →
      o.getPropertyIntegerData c = .ok (o', v) → ObjReach db o'
  | getPropertyByteData {o o' v} (c) : ObjReach db o →
      o.getPropertyByteData c = .ok (o', v) → ObjReach db o'
  | clearProperties {o} : ObjReach db o → ObjReach db o.clearProperties
  | updatePropertyMaps {o o' a} (junk) : ObjReach db o →
      o.updatePropertyMaps junk = .ok (o', a) → ObjReach db o'
  | setName {o} (n) : ObjReach db o → ObjReach db (o.setName n)
  | setParentNode {o} (b) : ObjReach db o → ObjReach db (o.setParentNode b)
  | setMessageListener {o} (b) : ObjReach db o → ObjReach db (o.setMessageListener b)
  | setRequestHandler {o} (esv c h) : ObjReach db o → ObjReach db (o.setRequestHandler esv c h)

/-- One call that rebuilds the property maps. -/
inductive Refresh (db : Db) : Obj → Obj → Prop
  | setCode {o o' a} (junk v) : o.setCode db junk v = .ok (o', a) → Refresh db o o'
  | setProperty {o o' a} (junk c attr) : o.setProperty junk c attr = .ok (o', a) → Refresh db o o'
  | update {o o' a} (junk) : o.updatePropertyMaps junk = .ok (o', a) → Refresh db o o'

/-- The attribute has one of the two announcement bits (0x04 announce, 0x40 announce required). -/
def CanAnnounce (p : Property) : Prop := p.attr.getLsbD 2 = true ∨ p.attr.getLsbD 6 = true
/-- 0x01 read, 0x10 read required. -/
def CanRead (p : Property) : Prop := p.attr.getLsbD 0 = true ∨ p.attr.getLsbD 4 = true
/-- 0x02 write, 0x20 write required. -/
def CanWrite (p : Property) : Prop := p.attr.getLsbD 1 = true ∨ p.attr.getLsbD 5 = true

instance (p) : Decidable (CanAnnounce p) := by unfold CanAnnounce; infer_instance
instance (p) : Decidable (CanRead p) := by unfold CanRead; infer_instance
instance (p) : Decidable (CanWrite p) := by unfold CanWrite; infer_instance

end Uecho.Spec
