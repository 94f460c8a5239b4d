import Verif.Model.Esp32Cond
/-!
# Executions with a mutex and a condition variable on ESP32
-/
namespace Uecho.Spec
open Uecho Uecho.Esp32Cond

/-- Reachable from the new mutex and condition variable by the choices `ls`. -/
inductive CondRun : List Esp32Cond.Label → Esp32Cond.Sys → Prop
  | nil : CondRun [] .init
  | snoc {ls s s'} (l) : CondRun ls s → Esp32Cond.step s l = .ok (some s') → CondRun (ls ++ [l]) s'

/-- The calls of `uecho_cond_signal` that succeeded. -/
def signals (log : List Esp32Cond.Ev) : Nat := log.count (.signal true)

/-- The waits that were woken. -/
def wakes (log : List Esp32Cond.Ev) : Nat := log.countP fun e => match e with
  | .woken _ => true
  | _ => false

/-- The task `t` began to wait after the events `a`; the events `c` happened since, and the wait has not returned. -/
def WaitsSince (log : List Esp32Cond.Ev) (t : Nat) (a c : List Esp32Cond.Ev) : Prop := log = a ++ .waits t :: c ∧ (∀ b, Ev.returns t b ∉ c) ∧ Ev.waits t ∉ c

end Uecho.Spec
