import Verif.Spec.ControllerApi
import Verif.Spec.PropertyFields
/-! # Specification for C150: what a controller knows about the objects it found -/
namespace Uecho.Spec
open Uecho

/-- The properties that the database has for a class. -/
def classProps (db : Db) (g c : Byte) : List Property :=
  match db.find? (fun d => d.grp == g && d.cls == c) with
  | none => []
  | some d => d.props

/-- The name that the database has for a class. -/
def className (db : Db) (g c : Byte) : Option String := (db.find? (fun d => d.grp == g && d.cls == c)).bind (·.name)

/-- The standard properties of the objects of a class: those of the super class, then the others of the class. -/
def standardProps (db : Db) (g c : Byte) : List Property :=
  classProps db 0 0 ++ (classProps db g c).filter fun q => q.code ∉ (classProps db 0 0).map (·.code)

/-- The property of the object is the standard property: code, name and attribute are the same. The attributes of the three property maps may
have become "readable". -/
def IsStandard (q p : Property) : Prop :=
  p.code = q.code ∧ p.name = q.name ∧ (p.attr = q.attr ∨ (p.code = 0x9D ∨ p.code = 0x9E ∨ p.code = 0x9F) ∧ p.attr = 1#32)

/-- A property that the class does not have: it has no name, and nothing about it is required. -/
def IsExtra (p : Property) : Prop := p.name = none ∧ ¬ hasBit p.attr 4 ∧ ¬ hasBit p.attr 5 ∧ ¬ hasBit p.attr 6

/-- The list has the standard properties, in their order, and then only extra ones. -/
inductive Knows : List Property → List Property → Prop
  | rest {ps} : (∀ p ∈ ps, IsExtra p) → Knows [] ps
  | cons {q qs p ps} : IsStandard q p → Knows qs ps → Knows (q :: qs) (p :: ps)

/-- No class of the database has two properties with the same code. -/
def DbCodes (db : Db) : Prop := ∀ d ∈ db, (d.props.map (·.code)).Nodup

end Uecho.Spec
