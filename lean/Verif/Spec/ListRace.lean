import Verif.Model.ListRace
/-!
# Specification vocabulary for threads that use one list
-/
namespace Uecho.Spec
open Uecho Uecho.ListRace

/-- Reachable from the new list with head `hd` by the choices `ls`. -/
inductive ListRun (hd : Nat) : List Label → ListRace.Sys → Prop
  | nil : ListRun hd [] (.init hd)
  | snoc {ls s s'} (l) : ListRun hd ls s → ListRace.step hd s l = .ok (some s') → ListRun hd (ls ++ [l]) s'

/-- Nobody but the thread `t0` adds. -/
def OneAdder (t0 : Nat) (ls : List Label) : Prop := ∀ t x, Label.add t x ∈ ls → t = t0

/-- The elements added, in order. -/
def addedIn : List ListRace.Ev → List Nat
  | [] => []
  | .added _ x :: l => x :: addedIn l
  | _ :: l => addedIn l

/-- Every completed iteration got exactly the elements that were in the list when it ended, in the order of the list. -/
def IterationsOK (log : List ListRace.Ev) : Prop := ∀ l1 l2 t seen, log = l1 ++ .ended t seen :: l2 → seen = addedIn l1

end Uecho.Spec
