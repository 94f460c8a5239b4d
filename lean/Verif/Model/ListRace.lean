import Verif.Model.CList
/-!
# Threads that use one list: src/uecho/util/list.c

The receiver threads of a controller add nodes to its list while the user's threads iterate over it (`uecho_controller_getnodes`,
`uecho_node_next`); no lock protects the list. A step is one access to a field of a list cell; the memory is sequentially consistent.
The head flag of a cell does not change once the cell has been initialised; reading it together with the pointer to it is one step.
-/
namespace Uecho.ListRace
open Uecho Uecho.CList

/-- Inside `uecho_list_add` — src/uecho/util/list.c:107-120, with `uecho_list_insert` — src/uecho/util/list.c:88-101; `x` is the new
cell, `p` the cell after which it is inserted. -/
inductive APc where
  /-- `if (!headList->prev)` — src/uecho/util/list.c:114 -/
  | test
  /-- reads `headList->prev` for the call — src/uecho/util/list.c:117 -/
  | arg
  /-- `list->prev = prevList` — src/uecho/util/list.c:95 -/
  | setPrev (p : Nat)
  /-- reads `prevList->next` — src/uecho/util/list.c:96 -/
  | getNext (p : Nat)
  /-- `list->next = …` — src/uecho/util/list.c:96 -/
  | setNext (p : Nat) (q : Option Nat)
  /-- reads `prevList->next` — src/uecho/util/list.c:97 -/
  | again (p : Nat)
  /-- `prevList->next->prev = list` — src/uecho/util/list.c:97 -/
  | back (p : Nat) (q : Option Nat)
  /-- `prevList->next = list` — src/uecho/util/list.c:98 -/
  | link (p : Nat)
deriving DecidableEq

/-- Inside `uecho_list_next` — src/uecho/util/list.c:214-226. -/
inductive NPc where
  /-- `if (!list->next)` — src/uecho/util/list.c:219 -/
  | test
  /-- `if (list->next->headFlag)` — src/uecho/util/list.c:222 -/
  | flag
  /-- `return list->next` — src/uecho/util/list.c:225 -/
  | ret
deriving DecidableEq

inductive Thread where
  | idle
  /-- adds the cell `x` -/
  | adder (x : Nat) (pc : APc)
  /-- iterates: the cells it has got so far, and the cell it is at -/
  | reader (seen : List Nat) (at_ : Nat) (pc : NPc)
deriving DecidableEq

/-- What happened. -/
inductive Ev where
  /-- thread `t` has added the cell `x` -/
  | added (t x : Nat)
  /-- thread `t` has come to the end; the cells it got -/
  | ended (t : Nat) (seen : List Nat)
deriving DecidableEq

structure Sys where
  mem : Mem
  thr : Nat → Thread
  log : List Ev

/-- The list with the head `hd`, just initialised (`uecho_list_header_init`). -/
def Sys.init (hd : Nat) : Sys := ⟨fun q => if q = hd then some ⟨true, some hd, some hd⟩ else none, fun _ => .idle, []⟩

def Sys.goto (s : Sys) (t : Nat) (x : Thread) : Sys := { s with thr := fun u => if u = t then x else s.thr u }
def Sys.emit (s : Sys) (x : Ev) : Sys := { s with log := s.log ++ [x] }
def Sys.put (s : Sys) (p : Nat) (c : Cell) : Sys := { s with mem := CList.put s.mem p c }

/-- One step of `uecho_list_add(hd, x)`. -/
def addStep (hd : Nat) (s : Sys) (t x : Nat) : APc → Res Sys
  | .test => do
      let c ← cell s.mem hd
      match c.prev with
      | none => return s.goto t .idle
      | some _ => return s.goto t (.adder x .arg)
  | .arg => do
      let c ← cell s.mem hd
      match c.prev with
      | none => return s.goto t .idle
      | some p => return s.goto t (.adder x (.setPrev p))
  | .setPrev p => do
      let c ← cell s.mem x
      return (s.put x { c with prev := some p }).goto t (.adder x (.getNext p))
  | .getNext p => do
      let c ← cell s.mem p
      return s.goto t (.adder x (.setNext p c.next))
  | .setNext p q => do
      let c ← cell s.mem x
      return (s.put x { c with next := q }).goto t (.adder x (.again p))
  | .again p => do
      let c ← cell s.mem p
      return s.goto t (.adder x (.back p c.next))
  | .back p q => do
      let q ← deref q
      let c ← cell s.mem q
      return (s.put q { c with prev := some x }).goto t (.adder x (.link p))
  | .link p => do
      let c ← cell s.mem p
      return ((s.put p { c with next := some x }).goto t .idle).emit (.added t x)

/-- One step of an iteration `for (x = gets(hd); x; x = next(x))`, which calls `uecho_list_next` on the head and then on each cell it
gets. -/
def readStep (s : Sys) (t : Nat) (seen : List Nat) (p : Nat) : NPc → Res Sys
  | .test => do
      let c ← cell s.mem p
      match c.next with
      | none => return (s.goto t .idle).emit (.ended t seen)
      | some _ => return s.goto t (.reader seen p .flag)
  | .flag => do
      let c ← cell s.mem p
      let q ← deref c.next
      let d ← cell s.mem q
      if d.head then return (s.goto t .idle).emit (.ended t seen)
      else return s.goto t (.reader seen p .ret)
  | .ret => do
      let c ← cell s.mem p
      match c.next with
      | none => return (s.goto t .idle).emit (.ended t seen)
      | some q => return s.goto t (.reader (seen ++ [q]) q .test)

/-- The choices of the scheduler and of the users. -/
inductive Label where
  /-- an idle thread allocates the cell `x`, initialises it (`uecho_list_node_init`) and begins to add it -/
  | add (t x : Nat)
  /-- an idle thread begins to iterate -/
  | iterate (t : Nat)
  | step (t : Nat)

/-- One step of the system; `none`: not possible. -/
def step (hd : Nat) (s : Sys) : Label → Res (Option Sys)
  | .add t x => match s.thr t, s.mem x with
    | .idle, none => .ok (some ((s.put x ⟨false, some x, some x⟩).goto t (.adder x .test)))
    | _, _ => .ok none
  | .iterate t => match s.thr t with
    | .idle => .ok (some (s.goto t (.reader [] hd .test)))
    | _ => .ok none
  | .step t => match s.thr t with
    | .idle => .ok none
    | .adder x pc => do
        let s ← addStep hd s t x pc
        return some s
    | .reader seen p pc => do
        let s ← readStep s t seen p pc
        return some s

end Uecho.ListRace
