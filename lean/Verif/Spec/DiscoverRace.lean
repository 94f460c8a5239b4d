import Verif.Model.DiscoverRace
/-!
# Specification vocabulary for discovery by several threads and for the creation of the database
-/
namespace Uecho.Spec
open Uecho

/-- Runs of the receiver threads in which every choice is allowed by `ok`. -/
inductive DiscoverRun (ok : DiscoverRace.Sys → DiscoverRace.Label → Prop) : List DiscoverRace.Label → DiscoverRace.Sys → Prop
  | nil : DiscoverRun ok [] .init
  | snoc {ls s s'} (l) : DiscoverRun ok ls s → ok s l → DiscoverRace.step s l = some s' → DiscoverRun ok (ls ++ [l]) s'

/-- The thread handles an answer from `a`. -/
def Handles (x : DiscoverRace.Thread) (a : String) : Prop := x = .look a ∨ x = .add a

/-- No two answers from the same address are handled at the same time. -/
def OneAtATime (s : DiscoverRace.Sys) : DiscoverRace.Label → Prop
  | .arrive _ a => ∀ t, ¬ Handles (s.thr t) a
  | .step _ => True

/-- Runs of threads that ask for the standard database with the entries `tables`. -/
inductive DbRun (tables : List (List Nat)) (ok : DbRace.Sys → DbRace.Label → Prop) : List DbRace.Label → DbRace.Sys → Prop
  | nil : DbRun tables ok [] .init
  | snoc {ls s s'} (l) : DbRun tables ok ls s → ok s l → DbRace.step tables s l = some s' → DbRun tables ok (ls ++ [l]) s'

/-- The first call returns before another one begins; after that any interleaving. -/
def FirstAlone (s : DbRace.Sys) : DbRace.Label → Prop
  | .call _ => s.log ≠ [] ∨ ∀ t, s.thr t = .idle
  | .step _ => True

end Uecho.Spec
