import Verif.Model.Signals
/-!
# Histories of a process that gets signals
-/
namespace Uecho.Spec
open Uecho Uecho.Signals

/-- What happens in the process. -/
inductive SigOp where
  /-- the application sets what a signal does -/
  | action (sig : Nat) (a : Act)
  /-- the application makes a thread of its own, or ends one, or changes what one blocks -/
  | thread (blocks : Nat → Bool)
  | exit (i : Nat)
  | mask (i : Nat) (blocks : Nat → Bool)
  /-- a thread of the application starts a receiver -/
  | start (i : Nat)
  /-- a receiver does its next step -/
  | step (i : Nat)
  /-- a receiver is stopped -/
  | stop (i : Nat)
  /-- a signal arrives; the operating system chooses the thread -/
  | signal (sig i : Nat)

/-- One event; what is not possible has no effect. The application does not use the library's handler, and touches only its own threads. -/
def sigStep (op : SigOp) (s : St) : St :=
  match op with
  | .action sig a => if a = .lib then s else sigaction sig a s
  | .thread b => { s with th := s.th ++ [setMask b ⟨false, .running, fun _ => false⟩] }
  | .exit i => update i (fun t => if t.receiver then t else { t with phase := .ended }) s
  | .mask i b => update i (fun t => if t.receiver then t else setMask b t) s
  | .start i => Signals.start i s
  | .step i => Signals.step i s
  | .stop i => Signals.stop i s
  | .signal sig i =>
    match deliver sig i s with
    | some (_, s) => s
    | none => s

def sigRun : List SigOp → St → St
  | [], s => s
  | op :: ops, s => sigRun ops (sigStep op s)

/-- A process with one thread, which blocks `blocks`; `disp` is what signals do. -/
def sigInit (disp : Nat → Act) (blocks : Nat → Bool) : St := ⟨disp, [setMask blocks ⟨false, .running, fun _ => false⟩]⟩

/-- What `disp` may be: SIGKILL and SIGSTOP have their default, and there is no handler of the library. -/
def PlainSignals (disp : Nat → Act) : Prop := disp kill = .dfl ∧ disp halt = .dfl ∧ ∀ n, disp n ≠ .lib

/-- What the application last set a signal to, `d` if it did not. -/
def lastAction (sig : Nat) : List SigOp → Act → Act
  | [], d => d
  | .action n a :: ops, d => lastAction sig ops (if n = sig ∧ a ≠ .lib then a else d)
  | _ :: ops, d => lastAction sig ops d

end Uecho.Spec
