import Verif.Model.Basic
/-!
# The ESP32 port: mutexes and condition variables — lib/esp32/mutex.c, lib/esp32/cond.c

A condition variable is a binary semaphore. Any number of tasks lock one mutex, wait for one condition variable and signal it. A step is one call to FreeRTOS; of
the tasks that block the one that came first is woken (all have the same priority). The arguments are not NULL. A task that unlocks a mutex it does not hold is an
assertion that fails: undefined here.
-/
namespace Uecho.Esp32Cond
open Uecho

/-- Where a task is. -/
inductive Pc where
  /-- outside -/
  | out
  /-- holds the mutex -/
  | inside
  /-- in `uecho_cond_wait`, has unlocked the mutex — lib/esp32/cond.c:64 -/
  | unlocked (forever : Bool)
  /-- in `uecho_cond_wait`, blocks on the semaphore — lib/esp32/cond.c:67 -/
  | blocked (forever : Bool)
  /-- in `uecho_cond_wait`, has the answer of the semaphore and locks the mutex again — lib/esp32/cond.c:70 -/
  | relock (woken : Bool)
deriving DecidableEq

/-- What happened. -/
inductive Ev where
  /-- the task calls `uecho_cond_wait` -/
  | waits (t : Nat)
  /-- a call of `uecho_cond_signal` returned `ok` -/
  | signal (ok : Bool)
  /-- the semaphore is given to the waiting task -/
  | woken (t : Nat)
  /-- the time of the waiting task has passed -/
  | timesOut (t : Nat)
  /-- `uecho_cond_wait` returned -/
  | returns (t : Nat) (woken : Bool)
deriving DecidableEq

structure Sys where
  /-- the holder of the mutex -/
  owner : Option Nat
  /-- the semaphore has been given and not taken -/
  given : Bool
  /-- the tasks that block on the semaphore, first come first -/
  queue : List Nat
  pc : Nat → Pc
  log : List Ev

/-- `uecho_mutex_new` and `uecho_cond_new` — lib/esp32/mutex.c:20-36, lib/esp32/cond.c:21-37: a mutex begins unlocked, a binary semaphore not given. -/
def Sys.init : Sys := ⟨none, false, [], fun _ => .out, []⟩

def Sys.goto (s : Sys) (t : Nat) (x : Pc) : Sys := { s with pc := fun u => if u = t then x else s.pc u }
def Sys.emit (s : Sys) (x : Ev) : Sys := { s with log := s.log ++ [x] }

/-- The choices of the scheduler and of the users. -/
inductive Label where
  /-- `uecho_mutex_lock` by a task outside — lib/esp32/mutex.c:57-67 -/
  | lock (t : Nat)
  /-- `uecho_mutex_unlock` — lib/esp32/mutex.c:73-83 -/
  | unlock (t : Nat)
  /-- `uecho_cond_wait` with this number of milliseconds begins: up to the unlocking — lib/esp32/cond.c:58-64 -/
  | wait (t : Nat) (ms : Nat)
  /-- takes the semaphore, or blocks — lib/esp32/cond.c:66-67 -/
  | take (t : Nat)
  /-- the time of a blocked task has passed -/
  | timeout (t : Nat)
  /-- locks the mutex again and returns — lib/esp32/cond.c:70-72 -/
  | back (t : Nat)
  /-- `uecho_cond_signal` by whichever task — lib/esp32/cond.c:79-85 -/
  | signal
deriving DecidableEq

/-- One step of the system; `none`: not possible (the task is elsewhere, or blocks). A task inside may also call `uecho_cond_signal`. -/
def step (s : Sys) : Label → Res (Option Sys)
  | .lock t => match s.pc t, s.owner with
    | .out, none => .ok (some ({ s with owner := some t }.goto t .inside))
    | _, _ => .ok none
  | .unlock t => match s.pc t with
    | .inside => if s.owner = some t then .ok (some ({ s with owner := none }.goto t .out)) else .ub
    | _ => .ok none
  | .wait t ms => match s.pc t with
    | .inside => if s.owner = some t then .ok (some (({ s with owner := none }.goto t (.unlocked (ms = 0))).emit (.waits t))) else .ub
    | _ => .ok none
  | .take t => match s.pc t with
    | .unlocked f => if s.given then .ok (some (({ s with given := false }.goto t (.relock true)).emit (.woken t)))
        else .ok (some ({ s with queue := s.queue ++ [t] }.goto t (.blocked f)))
    | _ => .ok none
  | .timeout t => match s.pc t with
    | .blocked false => .ok (some (({ s with queue := s.queue.filter (· ≠ t) }.goto t (.relock false)).emit (.timesOut t)))
    | _ => .ok none
  | .back t => match s.pc t, s.owner with
    | .relock b, none => .ok (some (({ s with owner := some t }.goto t .inside).emit (.returns t b)))
    | _, _ => .ok none
  | .signal => match s.queue with
    | t :: q => .ok (some ((({ s with queue := q }.goto t (.relock true)).emit (.signal true)).emit (.woken t)))
    | [] => if s.given then .ok (some (s.emit (.signal false)))
        else .ok (some ({ s with given := true }.emit (.signal true)))

end Uecho.Esp32Cond
