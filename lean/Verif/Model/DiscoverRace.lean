import Verif.Model.Basic
/-!
# Receiver threads that discover nodes, and threads that create the standard database

Part 1: `uecho_controller_handlesearchmessage` — src/uecho/controller_listener.c:44-57 — looks for the sender in the list of nodes and, if it
is not there, adds a new node. Several receiver threads of one controller run it at the same time. Looking and adding are one step each here
(their inner steps are `Model/ListRace.lean`), so every behaviour of this model is one of the code.

Part 2: `uecho_standard_getdatabase` — src/uecho/std/standard.c:28-39 — creates the database at the first call. A step is an access to the
global pointer or the addition of one entry.
-/
namespace Uecho.DiscoverRace
open Uecho

/-- Where a thread is that handles an answer from the address `a`. -/
inductive Thread where
  | idle
  /-- `uecho_controller_getnodebyaddress` — src/uecho/controller_listener.c:49-50 -/
  | look (a : String)
  /-- `uecho_node_new`, `uecho_node_setaddress`, `uecho_controller_addnode` — src/uecho/controller_listener.c:51-55 -/
  | add (a : String)
deriving DecidableEq

structure Sys where
  nodes : List String
  thr : Nat → Thread

def Sys.init : Sys := ⟨[], fun _ => .idle⟩
def Sys.goto (s : Sys) (t : Nat) (x : Thread) : Sys := { s with thr := fun u => if u = t then x else s.thr u }

inductive Label where
  /-- an answer from `a` is handed to the idle receiver thread `t` -/
  | arrive (t : Nat) (a : String)
  | step (t : Nat)

/-- One step; `none`: not possible. -/
def step (s : Sys) : Label → Option Sys
  | .arrive t a => if s.thr t = .idle then some (s.goto t (.look a)) else none
  | .step t => match s.thr t with
    | .idle => none
    | .look a => some (if a ∈ s.nodes then s.goto t .idle else s.goto t (.add a))
    | .add a => some ({ s with nodes := s.nodes ++ [a] }.goto t .idle)

end Uecho.DiscoverRace

namespace Uecho.DbRace
open Uecho

/-- Inside `uecho_standard_getdatabase` — src/uecho/std/standard.c:28-39. -/
inductive Pc where
  | idle
  /-- `if (!gSharedStdDatabase)` — line 30 -/
  | test
  /-- `gSharedStdDatabase = uecho_database_new()` — line 31 -/
  | create
  /-- about to read the global pointer, to add the next of the batches — lines 34, 35 -/
  | pass (todo : List (List Nat))
  /-- inside `uecho_database_addstandardmanufactures` or `uecho_database_addstandardobjects`, with the database `p`; `rest` are still to be
  added -/
  | fill (p : Nat) (rest : List Nat) (todo : List (List Nat))
  /-- `return gSharedStdDatabase` — line 38 -/
  | ret
deriving DecidableEq

/-- The databases created so far, as lists of entries; the global pointer; what each call returned, and the content of that database at this
moment. -/
structure Sys where
  dbs : List (List Nat)
  ptr : Option Nat
  thr : Nat → Pc
  log : List (Nat × List Nat)

def Sys.init : Sys := ⟨[], none, fun _ => .idle, []⟩
def Sys.goto (s : Sys) (t : Nat) (x : Pc) : Sys := { s with thr := fun u => if u = t then x else s.thr u }

inductive Label where
  | call (t : Nat)
  | step (t : Nat)

/-- One step; `tables` are the entries of the standard tables: those of the manufacturers and those of the objects. The pointer is never reset while the program runs. -/
def step (tables : List (List Nat)) (s : Sys) : Label → Option Sys
  | .call t => if s.thr t = .idle then some (s.goto t .test) else none
  | .step t => match s.thr t with
    | .idle => none
    | .test => some (s.goto t (if s.ptr.isNone then .create else .ret))
    | .create => some ({ s with dbs := s.dbs ++ [[]], ptr := some s.dbs.length }.goto t (.pass tables))
    | .pass [] => some (s.goto t .ret)
    | .pass (b :: todo) => match s.ptr with
      | none => none
      | some p => some (s.goto t (.fill p b todo))
    | .fill _ [] todo => some (s.goto t (.pass todo))
    | .fill p (x :: rest) todo => some ({ s with dbs := s.dbs.modify p (· ++ [x]) }.goto t (.fill p rest todo))
    | .ret => match s.ptr with
      | none => none
      | some p => some { s.goto t .idle with log := s.log ++ [(p, s.dbs.getD p [])] }

end Uecho.DbRace
