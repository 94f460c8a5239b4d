import Verif.Model.Controller
/-!
# Waiting for a property or an object to become known

The object and the controller change while the caller waits: they are functions of the time, in microseconds since the call. `late t` is how much longer than it was
asked to, beginning at the time `t`, the operating system lets the thread sleep, and how long the search takes. Waiting times are not negative and fit `clock_t`.
-/
namespace Uecho.Wait
open Uecho

/-- `uecho_wait` — src/uecho/util/timer.c:27-34, the part for Unix: the number of microseconds passed to `usleep`. The product is computed in `clock_t` (64 bits, signed) and
converted to `useconds_t` (32 bits). -/
def sleepTime (mtime : Nat) : Res Nat :=
  if mtime * 1000 < 2 ^ 63 then .ok (mtime * 1000 % 2 ^ 32) else .ub

/-- The loops of `uecho_object_getpropertywait` — src/uecho/object.c:528-533 — and `uecho_controller_getobjectbycodewithwait` — src/uecho/controller.c:257-262 — with the
remaining number of rounds and the time: the result and the time of the return. -/
def pollLoop {α : Type} (search : Nat → Option α) (late : Nat → Nat) (slice : Nat) : Nat → Nat → Res (Option α × Nat)
  | 0, now => .ok (none, now)
  | k + 1, now => do
      let us ← sleepTime slice
      let now := now + us + late now
      match search now with
      | some p => return (some p, now)
      | none => pollLoop search late slice k now

/-- `uecho_object_getpropertywait` — src/uecho/object.c:523-536. `uEchoWaitRetryCount` is 20 (src/uecho/_const.h:19). -/
def getPropertyWait (o : Nat → Obj) (late : Nat → Nat) (code : Byte) (w : Nat) : Res (Option Property × Nat) :=
  pollLoop (fun t => (o t).getProperty code) late (w / 20) 20 0

/-- `uecho_controller_getobjectbycodewithwait` — src/uecho/controller.c:252-265. -/
def getObjectWait (c : Nat → Ctrl) (late : Nat → Nat) (code : CInt) (w : Nat) : Res (Option Obj × Nat) :=
  pollLoop (fun t => (c t).getObject code) late (w / 20) 20 0

end Uecho.Wait
