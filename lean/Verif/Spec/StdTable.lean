import Verif.Model.StdObjects
import Verif.Model.StdManufacturers
import Verif.Spec.ObjectApi
/-!
# Reading the standard table

What a reader of the table expects from it, without the library's code: the row that counts for a property code, and what a rule
allows.
-/
namespace Uecho.Spec
open Uecho Uecho.Std

/-- The last row for a property code. -/
def lastRow (rows : List StdRow) (epc : Nat) : Option StdRow := rows.reverse.find? (fun r => r.epc == epc)

/-- A rule other than "notApplicable" gives access to the property (for "required_c" and "required_o" the access is even mandatory
under a condition). -/
def Allows (r : Rule) : Prop := r ≠ .notApplicable

/-- The rule depends on a condition. -/
def Conditional (r : Rule) : Prop := r = .required_c ∨ r = .required_o

instance (r) : Decidable (Allows r) := by unfold Allows; infer_instance
instance (r) : Decidable (Conditional r) := by unfold Conditional; infer_instance

/-- The property is the one described by the row: its code and name, which accesses are possible and which are mandatory
(attribute bits 4, 5 and 6). -/
structure Follows (p : Property) (r : StdRow) : Prop where
  code : p.code.toNat = r.epc
  name : p.name = some r.name
  read : CanRead p ↔ Allows r.get
  write : CanWrite p ↔ Allows r.set
  announce : CanAnnounce p ↔ Allows r.anno
  mustRead : p.attr.getLsbD 4 = true ↔ r.get = .required
  mustWrite : p.attr.getLsbD 5 = true ↔ r.set = .required
  mustAnnounce : p.attr.getLsbD 6 = true ↔ r.anno = .required

/-- The object code `v` (24 bits: group, class, instance) belongs to the class. -/
def OfClass (v : CInt) (k : StdClass) : Prop := v.toNat / 65536 % 256 = k.grp ∧ v.toNat / 256 % 256 = k.cls

/-- The standard database of the library. -/
abbrev stdDb : Db := database classes

end Uecho.Spec
