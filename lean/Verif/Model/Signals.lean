import Verif.Model.Basic
/-!
# Signals: `posix_thread_proc` of src/uecho/util/thread.c, and what a signal does to a receiver

The signal state of a process with receivers (`uecho_udp_server_action`, src/uecho/frame/udp_server.c:139-184, `uecho_mcast_server_action`,
src/uecho/frame/mcast_server.c:134-179): what each signal does, and which threads block it. Linux numbers, POSIX branch. SIGPIPE is in
`Model/Fd.lean`. Errors of `recvfrom(2)` other than EINTR are in `Model/Thread.lean`. A signal with the default action leaves the state as it
is: if that action ends the process, there is no later state.
-/
namespace Uecho.Signals
open Uecho

/-- SIGQUIT, SIGKILL, SIGSTOP. -/
def quit : Nat := 3
def kill : Nat := 9
def halt : Nat := 19

/-- What a signal does: the default, nothing, a handler of the application, or `uecho_sig_handler` (src/uecho/util/thread.c:241-243), which is
empty. `restart` is SA_RESTART; the library's handler is without (src/uecho/util/thread.c:49). -/
inductive Act where
  | dfl
  | ign
  | app (h : Nat) (restart : Bool)
  | lib
deriving DecidableEq

/-- Where a thread is. -/
inductive Phase where
  /-- made by `pthread_create`; `pthread_sigmask` is next — src/uecho/util/thread.c:126, 43-45 -/
  | created
  /-- `sigaction` is next — src/uecho/util/thread.c:47-51 -/
  | masked
  /-- in the loop of the action — src/uecho/util/thread.c:53-54, src/uecho/frame/udp_server.c:154 -/
  | running
  /-- blocked in `recvfrom` — src/uecho/net/socket.c:594 -/
  | waiting
  | ended
deriving DecidableEq

/-- A thread of the process: whether it is a receiver, where it is (of a thread of the application only `ended` counts), and which signals it
blocks. -/
structure Th where
  receiver : Bool
  phase : Phase
  blocks : Nat → Bool

structure St where
  disp : Nat → Act
  th : List Th

/-- `sigaction(2)`; it fails for SIGKILL and SIGSTOP. -/
def sigaction (sig : Nat) (a : Act) (s : St) : St :=
  if sig = kill ∨ sig = halt then s else { s with disp := fun n => if n = sig then a else s.disp n }

/-- Changing one thread. -/
def update (i : Nat) (f : Th → Th) (s : St) : St := { s with th := s.th.modify i f }

/-- `pthread_sigmask(3)`; SIGKILL and SIGSTOP are not blocked. -/
def setMask (blocks : Nat → Bool) (t : Th) : Th :=
  { t with blocks := fun n => if n = kill ∨ n = halt then false else blocks n }

/-- `uecho_thread_start` — src/uecho/util/thread.c:102-137, called by thread `i`: a thread has the mask of the one that makes it. -/
def start (i : Nat) (s : St) : St :=
  match s.th[i]? with
  | some t => if t.phase = .ended then s else { s with th := s.th ++ [⟨true, .created, t.blocks⟩] }
  | none => s

/-- The next step of a receiver — src/uecho/util/thread.c:37-57, src/uecho/frame/udp_server.c:139-184: its mask (`sigfillset`,
`sigdelset(SIGQUIT)`), its handler, the first `recvfrom`, a datagram and the next `recvfrom`. -/
def step (i : Nat) (s : St) : St :=
  match s.th[i]? with
  | none => s
  | some t =>
    if t.receiver then
      match t.phase with
      | .created => update i (fun t => { setMask (fun n => decide (n ≠ quit)) t with phase := .masked }) s
      | .masked => update i (fun t => { t with phase := .running }) (sigaction quit .lib s)
      | .running => update i (fun t => { t with phase := .waiting }) s
      | .waiting => update i (fun t => { t with phase := .running }) s
      | .ended => s
    else s

/-- The receiver is stopped: its socket is closed and its flag is false — src/uecho/frame/udp_server.c:213-227, 154, 165-168. -/
def stop (i : Nat) (s : St) : St := update i (fun t => if t.receiver then { t with phase := .ended } else t) s

/-- Whether a handler interrupts a system call that waits. -/
def interrupts : Act → Bool
  | .app _ r => !r
  | .lib => true
  | _ => false

/-- The operating system gives the signal to thread `i`, which must be there and not block it: what happens, and the state afterwards. A
`recvfrom` that is interrupted answers -1, and the receiver ends — src/uecho/frame/udp_server.c:159-163. -/
def deliver (sig i : Nat) (s : St) : Option (Act × St) :=
  match s.th[i]? with
  | none => none
  | some t =>
    if t.phase = .ended ∨ t.blocks sig = true then none
    else if t.receiver = true ∧ t.phase = .waiting ∧ interrupts (s.disp sig) = true then
      some (s.disp sig, update i (fun t => { t with phase := .ended }) s)
    else some (s.disp sig, s)

end Uecho.Signals
