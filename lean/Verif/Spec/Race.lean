import Verif.Model.Race
/-!
# Specification vocabulary for threads that use one property
-/
namespace Uecho.Spec
open Uecho Uecho.Race

/-- Runs in which every choice is allowed by `ok` (which may look at the state). -/
inductive RaceRun (ok : Sys → Label → Prop) : Sys → List Label → Sys → Prop
  | nil (s) : RaceRun ok s [] s
  | snoc {s s1 s2 ls} (l) : RaceRun ok s ls s1 → ok s1 l → Race.step s1 l = .ok (some s2) → RaceRun ok s (ls ++ [l]) s2

/-- Any interleaving. -/
def AnyOrder (_ : Sys) (_ : Label) : Prop := True

def Writing (s : Sys) (t : Nat) : Prop := ∃ d pc, s.thr t = .writer d pc

/-- What a lock held by the application around its calls would give: a write begins only while nobody uses the property, a read only
while nobody writes it. -/
def Locked (s : Sys) : Label → Prop
  | .write _ _ => ∀ t, s.thr t = .idle
  | .read _ => ∀ t, ¬ Writing s t
  | .step _ _ => True

/-- The value of the property after these events: the last value written. -/
def lastWritten (d0 : List Byte) : List Ev → List Byte
  | [] => d0
  | .wrote _ d :: l => lastWritten d l
  | .read _ _ :: l => lastWritten d0 l

/-- Every read returned the value of the property at that moment. -/
def ReadsAgree (d0 : List Byte) (log : List Ev) : Prop :=
  ∀ l1 l2 t v, log = l1 ++ .read t v :: l2 → v = lastWritten d0 l1

end Uecho.Spec
