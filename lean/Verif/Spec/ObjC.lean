import Verif.Model.ObjC
/-! # Specification for C158: the memory behind the Objective-C objects -/
namespace Uecho.Spec
open Uecho Uecho.ObjC

/-- The memory is allocated. -/
def Alive (s : St) (r : Nat) : Prop := ∃ k, s.regions[r]? = some ⟨k, true⟩

/-- The program holds an object that is responsible for this memory. -/
def Owned (s : St) (r : Nat) : Prop := ∃ (i : Nat) (w : Wrap), s.wraps[i]? = some w ∧ w.held = true ∧ w.weak = false ∧ (w.region = r ∨ w.table = some r)

/-- The objects that a step uses, other than letting go of them. -/
def usedBy : Op → List Nat
  | .call i | .part i | .node i | .start i | .arrives i => [i]
  | .post i n o m _ => [i, n, o, m]
  | _ => []

/-- The step is meant to end the life of this memory: letting go of the object responsible for it, starting the controller whose nodes it
holds, the return of the observer to which it was handed. -/
def Ends (s : St) (r : Nat) : Op → Prop
  | .release i => ∃ w : Wrap, s.wraps[i]? = some w ∧ w.weak = false ∧ (w.region = r ∨ w.table = some r)
  | .start i => ∃ w : Wrap, s.wraps[i]? = some w ∧ w.table = some r
  | .returned x => x = r
  | _ => False

/-- No step of a program that starts here ends the life of this memory. -/
def NeverEnds (r : Nat) : List Op → St → Prop
  | [], _ => True
  | o :: os, s => ¬ Ends s r o ∧ ∀ s', step s o = .ok s' → NeverEnds r os s'

/-- The state before a program. -/
def noObjects : St := ⟨[], []⟩

end Uecho.Spec
