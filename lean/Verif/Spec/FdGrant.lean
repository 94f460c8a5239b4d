import Verif.Spec.Fd
/-! # What the operating system granted: specification for C103 -/
namespace Uecho.Spec
open Uecho.Fd

/-- How many of the calls `a`, `a + 1`, …, `b - 1` a system answers with yes. -/
def yes (f : Nat → Bool) (a b : Nat) : Nat := ((List.range' a (b - a)).filter f).length

/-- Between the two states the system granted at least so many memberships of a group, addresses for a socket, and threads. -/
structure Granted (os : Os) (p p' : Proc) (joins binds threads : Nat) : Prop where
  later : p.calls ≤ p'.calls
  join : joins ≤ yes os.join p.calls p'.calls
  bind : binds ≤ yes os.bind p.calls p'.calls
  thread : threads ≤ yes os.thread p.calls p'.calls

end Uecho.Spec
