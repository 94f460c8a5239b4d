import Verif.Model.CList
/-!
# The ESP32 port: threads — lib/esp32/thread.c

A thread object and the FreeRTOS tasks that run its action. Unlike the POSIX branch (`Model/ThreadCtl.lean`) a stop ends the task from outside, wherever
it is. A task ends by itself when its action returns: when it sees that it is to stop, or after a failure (src/uecho/frame/udp_server.c:154-168). The
memory of a task that has ended is freed; `vTaskDelete` on its handle is undefined behaviour. A task that stops its own thread object is left out.
-/
namespace Uecho.Esp32
open Uecho

/-- A `uEchoThread` — src/uecho/util/thread.h:44-60: the flag and the handle; `live` are the tasks that run its action, newest first, and `next` is the
handle of the next one (a simplification: FreeRTOS may use the memory, and so the handle, of an ended task again). -/
structure Th where
  runnable : Bool
  task : Option Nat
  live : List Nat
  next : Nat
deriving DecidableEq

/-- `uecho_thread_new` — lib/esp32/thread.c:34-51. -/
def new : Th := ⟨false, none, [], 0⟩

/-- `uecho_thread_start` — lib/esp32/thread.c:77-98. `ok`: `xTaskCreate` answers `pdPASS`; it writes the handle only then. -/
def start (ok : Bool) (t : Th) : Bool × Th :=
  let t := { t with runnable := true }
  if ok then (true, { t with task := some t.next, live := t.next :: t.live, next := t.next + 1 })
  else (false, { t with runnable := false })

/-- `vTaskDelete` of another task, which must not have ended. -/
def taskDelete (i : Nat) (t : Th) : Res Th :=
  if i ∈ t.live then .ok { t with live := t.live.filter (· ≠ i) } else .ub

/-- `uecho_thread_stop` — lib/esp32/thread.c:104-118. -/
def stop (t : Th) : Res (Bool × Th) :=
  if t.runnable = true then
    let t := { t with runnable := false }
    match t.task with
    | some i => do
        let t ← taskDelete i t
        return (true, { t with task := none })
    | none => .ok (true, t)
  else .ok (true, t)

/-- `uecho_thread_restart` — lib/esp32/thread.c:124-128. -/
def restart (ok : Bool) (t : Th) : Res (Bool × Th) := do
  let (_, t) ← stop t
  return start ok t

/-- `uecho_thread_isrunning` — lib/esp32/thread.c:146-152. -/
def isRunning (t : Th) : Bool := t.runnable

/-- The action of task `i` returns: `uecho_freertos_thread_proc` deletes the task — lib/esp32/thread.c:21-28. The object is not told. -/
def finish (i : Nat) (t : Th) : Th := { t with live := t.live.filter (· ≠ i) }

/-- Task `i` asks `uecho_thread_isrunnable` (lib/esp32/thread.c:134-140) and its action returns if the answer is no. -/
def ask (i : Nat) (t : Th) : Th := if t.runnable then t else finish i t

/-- `uecho_list_insert` — src/uecho/util/list.c:88-101 — by a task that is deleted after the first `n` of the four assignments. -/
def insertCut (n : Nat) (h : CList.Mem) (prevList list : Nat) : Res CList.Mem := do
  if n = 0 then return h
  let c ← CList.cell h list
  let h := CList.put h list { c with prev := some prevList }
  if n = 1 then return h
  let p ← CList.cell h prevList
  let c ← CList.cell h list
  let h := CList.put h list { c with next := p.next }
  if n = 2 then return h
  let p ← CList.cell h prevList
  let q ← CList.deref p.next
  let d ← CList.cell h q
  let h := CList.put h q { d with prev := some list }
  if n = 3 then return h
  let p ← CList.cell h prevList
  return CList.put h prevList { p with next := some list }

/-- `uecho_list_add` — src/uecho/util/list.c:107-120 — by such a task. -/
def addCut (n : Nat) (h : CList.Mem) (head list : Nat) : Res CList.Mem := do
  let c ← CList.cell h head
  match c.prev with
  | none => return h
  | some p => insertCut n h p list

end Uecho.Esp32
