import Verif.Model.Object
/-!
# std/objects_mra.c, std/manufacturers.c, std/database.c, manufacture.c, manufacture_list.c

The rows of the two tables are generated from the C files: `Model/StdObjects.lean`, `Model/StdManufacturers.lean`. Here is the code
that turns rows into the standard database. The rules are an enumeration instead of strings (the code only compares them).
-/
namespace Uecho.Std
open Uecho

/-- The rule strings that occur in src/uecho/std/objects_mra.c. -/
inductive Rule
  | required | optional | notApplicable | required_c | required_o
deriving DecidableEq, Repr

/-- The arguments of `uecho_standard_object_property_new` — src/uecho/std/objects_mra.c:29. -/
structure StdRow where
  epc : Nat
  name : String
  dataType : String
  dataSize : Nat
  get : Rule
  set : Rule
  anno : Rule
deriving DecidableEq, Repr

/-- The arguments of `uecho_standard_object_new` and the rows that follow the call. -/
structure StdClass where
  name : String
  grp : Nat
  cls : Nat
  rows : List StdRow
deriving DecidableEq, Repr

/-- One `attr |=` group of `uecho_standard_object_property_new` — src/uecho/std/objects_mra.c:38-49. -/
def ruleAttr (r : Rule) (req opt : CInt) : CInt :=
  (if r = .required then req else 0) ||| (if r = .optional then opt else 0)

/-- `uecho_standard_object_property_new` — src/uecho/std/objects_mra.c:29-53: data type and size are not used. -/
def StdRow.new (r : StdRow) : Property :=
  { Property.new with
    code := BitVec.ofNat 8 r.epc
    name := some r.name
    attr := ruleAttr r.get Attr.readRequired Attr.read ||| ruleAttr r.set Attr.writeRequired Attr.write |||
      ruleAttr r.anno Attr.annoRequired Attr.anno }

/-- `uecho_standard_object_new` — src/uecho/std/objects_mra.c:19-27 — and the calls of `uecho_object_addproperty` for its rows. -/
def StdClass.new (c : StdClass) : DbObj :=
  ⟨some c.name, BitVec.ofNat 8 c.grp, BitVec.ofNat 8 c.cls,
    c.rows.foldl (fun ps r => PropertyList.add ps (r.new.setParent true)) []⟩

/-- `uecho_database_addstandardobjects` — src/uecho/std/objects_mra.c:55 ff.: `uecho_database_addobject`
(src/uecho/std/database.c:74-79) adds at the end. -/
def database (cs : List StdClass) : Db := cs.map StdClass.new

/-- `uEchoManufacture` — src/uecho/_manufacture.h. -/
structure Manufacture where
  code : CInt
  name : String
deriving DecidableEq, Repr

/-- `uecho_database_getmanufacture` — src/uecho/std/database.c:85-90 with `uecho_manufacturelist_getbycode` —
src/uecho/manufacture_list.c:48-62. -/
def getManufacture (ms : List Manufacture) (code : CInt) : Option Manufacture := ms.find? (fun m => m.code == code)

end Uecho.Std
