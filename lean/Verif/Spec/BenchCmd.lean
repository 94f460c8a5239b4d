import Verif.Model.BenchCmd
import Verif.Spec.SearchCmd
/-!
# Specification for C155: what `uechobench -v` asks for
-/
namespace Uecho.Spec
open Uecho Uecho.SearchCmd

/-- The questions to one node, with the address and the objects given: for every object what the standard requires. -/
def benchQuestions (db : Db) (v : Option String × List (Byte × Byte × Byte)) : List Ask :=
  v.2.flatMap fun x => (requiredOf db x).map fun k => ⟨v.1, x, k⟩

/-- The nodes and objects `vs` have all that the controller `c` knows, at the same places, and nothing that `c'` does not know. -/
def Covers (c c' : Ctrl) (vs : List (Option String × List (Byte × Byte × Byte))) : Prop :=
  (∀ (i : Nat) n, c.nodes[i]? = some n → ∃ os, vs[i]? = some (n.address, os) ∧ eojs n <+: os) ∧
  ∀ (i : Nat) (v : Option String × List (Byte × Byte × Byte)), vs[i]? = some v → ∃ n, c'.nodes[i]? = some n ∧ n.address = v.1 ∧ v.2 <+: eojs n

/-- From some request on, nothing arrives any more. -/
def Quiet (w : Nat → List Arrival) : Prop := ∃ K, ∀ k, K ≤ k → w k = []

end Uecho.Spec
