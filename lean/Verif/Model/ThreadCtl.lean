import Verif.Model.Basic
/-!
# Starting and stopping threads: src/uecho/util/thread.c, src/uecho/util/thread_list.c

A thread object and the threads of the operating system that run its action. The action asks `uecho_thread_isrunnable` again and again, as those of
the library do, and ends when the answer is no; in between it may block for any time, and the sleep of `uecho_thread_stop` is no bound for that. What
the actions do besides is left out (`Model/Thread.lean` has it for one receiver). POSIX branch; nothing cancels the threads.
-/
namespace Uecho.ThreadCtl
open Uecho

/-- A `uEchoThread` — src/uecho/util/thread.h:36-49: the flag; `live` are the threads of the operating system that run its action, newest
first, and `next` is the number of the next one. -/
structure Th where
  runnable : Bool
  live : List Nat
  next : Nat
deriving DecidableEq

/-- `uecho_thread_new` — src/uecho/util/thread.c:64-80. -/
def new : Th := ⟨false, [], 0⟩

/-- `uecho_thread_start` — src/uecho/util/thread.c:106-137. `ok`: the attributes can be set and `pthread_create` answers 0. The flag is set in either
case before, and cleared if it fails; whether there is a thread already is not asked. -/
def start (ok : Bool) (t : Th) : Bool × Th :=
  let t := { t with runnable := true }
  if ok then (true, { t with live := t.next :: t.live, next := t.next + 1 })
  else (false, { t with runnable := false })

/-- `uecho_thread_stop` — src/uecho/util/thread.c:143-161. -/
def stop (t : Th) : Bool × Th := (true, if t.runnable = true then { t with runnable := false } else t)

/-- `uecho_thread_restart` — src/uecho/util/thread.c:167-171. -/
def restart (ok : Bool) (t : Th) : Bool × Th := start ok (stop t).2

/-- `uecho_thread_isrunning` — src/uecho/util/thread.c:193-199. -/
def isRunning (t : Th) : Bool := t.runnable

/-- Thread `i` of the operating system asks `uecho_thread_isrunnable` (src/uecho/util/thread.c:177-187) and ends if the answer is no. -/
def ask (i : Nat) (t : Th) : Th := if t.runnable then t else { t with live := t.live.filter (· ≠ i) }

/-- `uecho_threadlist_start` — src/uecho/util/thread_list.c:51-63: `oks` are the answers of the operating system for the threads, in their order. -/
def listStart : List (Bool × Th) → Bool × List Th
  | l => (true, l.map fun (ok, t) => (start ok t).2)

/-- `uecho_threadlist_stop` — src/uecho/util/thread_list.c:69-80. -/
def listStop (l : List Th) : Bool × List Th := (true, l.map fun t => (stop t).2)

end Uecho.ThreadCtl
