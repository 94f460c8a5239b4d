import Verif.Model.SearchCmd
import Verif.Spec.Found
import Verif.Spec.Service
/-!
# Specification for C152: what `uechosearch -v` asks for, and what it prints
-/
namespace Uecho.Spec
open Uecho Uecho.SearchCmd

/-- A question: whom, which object, which property. -/
structure Ask where
  addr : Option String
  eoj : Byte × Byte × Byte
  epc : Byte
deriving DecidableEq

/-- What was sent is a Get request, for this property only, from the profile of the controller. -/
def IsAsk (x : CEvent) (a : Ask) : Prop :=
  ∃ t, x = .node (sends a.addr ⟨t, profileEoj, a.eoj, 0x62, .plain [(a.epc, [])]⟩)

/-- The line is about this question: for the manufacturer the address of the node, else the code and the name in the database. -/
def IsTold (db : Db) : Line → Ask → Prop
  | .node addr _, a => a = ⟨addr, profileEoj, 0x8A⟩
  | .object _ _ _, _ => False
  | .property _ _ code _ name, a => code = a.epc ∧ ∃ q ∈ standardProps db a.eoj.1 a.eoj.2.1, q.code = code ∧ q.name = some name

/-- Two lists, related element by element. -/
inductive Pairs {α β : Type} (r : α → β → Prop) : List α → List β → Prop
  | nil : Pairs r [] []
  | cons {x a xs as} : r x a → Pairs r xs as → Pairs r (x :: xs) (a :: as)

/-- The line is the head of an object; its code. -/
def objectLine : Line → Option CInt
  | .object _ c _ => some c
  | _ => none

/-- The codes of the three property maps. -/
def IsMap (c : Byte) : Prop := c = 0x9D ∨ c = 0x9E ∨ c = 0x9F

instance (c : Byte) : Decidable (IsMap c) := by unfold IsMap; infer_instance

/-- The properties of a class that the standard requires to be readable. -/
def requiredOf (db : Db) (x : Byte × Byte × Byte) : List Byte :=
  ((standardProps db x.1 x.2.1).filter fun q => q.attr.getLsbD 4).map (·.code)

/-- The questions to one node, with the address and the objects given: its manufacturer, and for every object what the standard requires. -/
def questions (db : Db) (v : Option String × List (Byte × Byte × Byte)) : List Ask :=
  ⟨v.1, profileEoj, 0x8A⟩ :: v.2.flatMap fun x => (requiredOf db x).map fun k => ⟨v.1, x, k⟩

/-- The nodes and objects `vs` have all that the controller `c` knows, at the same places, and nothing that `c'` does not know. -/
def Between (c c' : Ctrl) (vs : List (Option String × List (Byte × Byte × Byte))) : Prop :=
  vs.length = c'.nodes.length ∧
  (∀ (i : Nat) n, c.nodes[i]? = some n → ∃ os, vs[i]? = some (n.address, os) ∧ eojs n <+: os) ∧
  ∀ (i : Nat) (v : Option String × List (Byte × Byte × Byte)), vs[i]? = some v → ∃ n, c'.nodes[i]? = some n ∧ n.address = v.1 ∧ v.2 <+: eojs n

/-- If the datagram has one property, its value has at most three bytes. -/
def ShortOne (d : List Byte) : Prop :=
  ∀ f rest k v, f.WF → d = encode f ++ rest → f.body = .plain [(k, v)] → v.length ≤ 3

end Uecho.Spec
