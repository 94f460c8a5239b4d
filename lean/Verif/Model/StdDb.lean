import Verif.Model.Basic
/-!
# The life of the standard database: src/uecho/std/standard.c

`Model/Database.lean` says what the standard database holds; here is when it is made and freed. Any number of threads call
`uecho_standard_getdatabase`, in any interleaving of the steps below; a step is one access to the static `gSharedStdDatabase`, or one call
with it. A call of `uecho_database_addstandardmanufactures` or `uecho_database_addstandardobjects` is one step (in the code it is
hundreds). The operating system decides whether there is memory. Using freed memory is `ub`.
-/
namespace Uecho.StdDb
open Uecho

/-- A database: how often the standard manufacturers and the standard objects were added, and whether it is allocated. -/
structure Db where
  mans : Nat
  objs : Nat
  live : Bool
deriving DecidableEq

/-- Where a thread is in `uecho_standard_getdatabase` — src/uecho/std/standard.c:28-39. -/
inductive Pc where
  /-- no call yet -/
  | idle
  /-- line 30 is next -/
  | check
  /-- line 31 is next -/
  | make
  /-- line 32 is next -/
  | recheck
  /-- line 34 is next -/
  | addMans
  /-- line 35 is next -/
  | addObjs
  /-- line 36 is next -/
  | register
  /-- line 38 is next -/
  | result
  /-- returned -/
  | got (a : Option Nat)
deriving DecidableEq

/-- What the threads share: the static pointer, the databases that were made (the address of a database is its place in the list), and how
often the handler was registered with `atexit`. -/
structure Sys where
  ptr : Option Nat
  dbs : List Db
  handlers : Nat
  pc : Nat → Pc

/-- The start of the program — src/uecho/std/standard.c:15. -/
def init : Sys := ⟨none, [], 0, fun _ => .idle⟩

def Sys.at (s : Sys) (t : Nat) (c : Pc) : Sys := { s with pc := fun u => if u = t then c else s.pc u }

/-- Change the database at an address; it must be allocated. -/
def touch (s : Sys) (a : Nat) (f : Db → Db) : Res Sys :=
  match s.dbs[a]? with
  | some d => if d.live then .ok { s with dbs := s.dbs.set a (f d) } else .ub
  | none => .ub

/-- A function of the database called with the static pointer; it does nothing for NULL (src/uecho/std/database.c:60, 71). -/
def touchShared (s : Sys) (f : Db → Db) : Res Sys :=
  match s.ptr with
  | some a => touch s a f
  | none => .ok s

/-- The next line of `uecho_standard_getdatabase` in thread `t` — src/uecho/std/standard.c:28-39; `mem`: there is memory. -/
def step (s : Sys) (t : Nat) (mem : Bool) : Res Sys :=
  match s.pc t with
  | .idle => .ok s
  | .check => .ok (s.at t (if s.ptr = none then .make else .result))
  | .make =>
    if mem then .ok (Sys.at { s with ptr := some s.dbs.length, dbs := s.dbs ++ [⟨0, 0, true⟩] } t .recheck)
    else .ok (Sys.at { s with ptr := none } t .recheck)
  | .recheck => .ok (s.at t (if s.ptr = none then .got none else .addMans))
  | .addMans => do
    let s ← touchShared s fun d => { d with mans := d.mans + 1 }
    return s.at t .addObjs
  | .addObjs => do
    let s ← touchShared s fun d => { d with objs := d.objs + 1 }
    return s.at t .register
  | .register => .ok (Sys.at { s with handlers := s.handlers + 1 } t .result)
  | .result => .ok (s.at t (.got s.ptr))
  | .got _ => .ok s

/-- `uecho_standard_freedatabase` — src/uecho/std/standard.c:17-22: the pointer stays. -/
def free (s : Sys) : Res Sys := touchShared s fun d => { d with live := false }

/-- `exit(3)` calls the handler as often as it was registered. -/
def atExit : Nat → Sys → Res Sys
  | 0, s => .ok s
  | n + 1, s => do
    let s ← free s
    atExit n s

/-- What happens. -/
inductive Ev where
  /-- thread `t`, which is not in a call, calls `uecho_standard_getdatabase` -/
  | call (t : Nat)
  /-- thread `t` goes on in its call -/
  | step (t : Nat) (mem : Bool)
  /-- thread `t` looks something up in the database that it got -/
  | use (t : Nat)
  /-- the main thread leaves `main`; the other threads go on for a while -/
  | exit
deriving DecidableEq

def ev (s : Sys) : Ev → Res Sys
  | .call t =>
    match s.pc t with
    | .idle => .ok (s.at t .check)
    | .got _ => .ok (s.at t .check)
    | _ => .ok s
  | .step t mem => step s t mem
  | .use t =>
    match s.pc t with
    | .got (some a) => touch s a id
    | _ => .ok s
  | .exit => do
    let s ← atExit s.handlers s
    return { s with handlers := 0 }

def run : List Ev → Sys → Res Sys
  | [], s => .ok s
  | e :: es, s => do
    let s ← ev s e
    run es s

end Uecho.StdDb
