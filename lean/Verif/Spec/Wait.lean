import Verif.Model.Wait
/-!
# Specification vocabulary for waiting
-/
namespace Uecho.Spec
open Uecho

/-- What is known does not become unknown, and does not change. -/
def Stays {α : Type} (known : Nat → Option α) : Prop := ∀ t t' p, t ≤ t' → known t = some p → known t' = some p

/-- A wait of `w` milliseconds for what becomes `known` (times in microseconds from the call on) that returned `r` at the time `t`. -/
structure Waited {α : Type} (known : Nat → Option α) (late : Nat → Nat) (w : Nat) (r : Option α) (t : Nat) : Prop where
  /-- The result is what is known at the return. -/
  current : r = known t
  /-- Without a result, the wait lasted for the whole time, but for less than 20 milliseconds. -/
  patient : r = none → 1000 * w < t + 20000
  /-- What becomes known within this time is found. -/
  found : Stays known → ∀ T p, known T = some p → T + 20000 ≤ 1000 * (w + 1) → r = some p
  /-- It is found within a twentieth of the waiting time, besides the delay `d` of the system. -/
  prompt : ∀ d, (∀ x, late x ≤ d) → Stays known → ∀ T p, known T = some p → r = some p → 20 * t ≤ 20 * T + 1000 * w + 20 * d
  /-- The wait is not longer than it was asked for, besides the delays of the system. -/
  bounded : ∀ d, (∀ x, late x ≤ d) → t ≤ 1000 * w + 20 * d

end Uecho.Spec
