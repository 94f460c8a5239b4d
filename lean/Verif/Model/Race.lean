import Verif.Model.Basic
/-!
# Threads that use one property: src/uecho/property.c

Every receiver of a server is a thread (src/uecho/frame/udp_server.c, src/uecho/frame/mcast_server.c), and the user's threads call the API;
no lock protects the objects of a node. A step is one access to the structure `uEchoProperty`, one call of the allocator, or one
`memcpy`; the memory is sequentially consistent. The threads write with `uecho_property_setdata` (src/uecho/property.c:149-169, without
the announcement) and read as the request handler and `uecho_message_addproperty` callers do: pointer, size, copy
(src/uecho/node_listener.c:91; C leaves the order of the first two open, the model takes the pointer first).
-/
namespace Uecho.Race
open Uecho

/-- Inside `uecho_property_setdata`. -/
inductive WPc where
  /-- `prop->data_size = 0` — src/uecho/property.c:373 -/
  | size0
  /-- `if (prop->data)` — src/uecho/property.c:375 -/
  | test
  /-- `free(prop->data)` — src/uecho/property.c:376 -/
  | free
  /-- `prop->data = NULL` — src/uecho/property.c:377 -/
  | null
  /-- `prop->data = calloc(1, dataSize)` — src/uecho/property.c:112 -/
  | alloc
  /-- `prop->data_size = dataSize` — src/uecho/property.c:116 -/
  | count
  /-- `memcpy(prop->data, data, dataSize)` — src/uecho/property.c:160 -/
  | copy
deriving DecidableEq

/-- Inside a read. -/
inductive RPc where
  /-- `uecho_property_getdata` — src/uecho/property.c:449-454 -/
  | ptr
  /-- `uecho_property_getdatasize` — src/uecho/property.c:460-465 -/
  | size (p : Option Nat)
  /-- `memcpy` of that many bytes — src/uecho/property.c:160, in the property that gets the copy -/
  | copy (p : Option Nat) (n : Nat)
deriving DecidableEq

inductive Thread where
  | idle
  | writer (d : List Byte) (pc : WPc)
  | reader (pc : RPc)
deriving DecidableEq

/-- What happened: a write or a read of thread `t` was completed. -/
inductive Ev where
  | wrote (t : Nat) (d : List Byte)
  | read (t : Nat) (d : List Byte)
deriving DecidableEq

/-- The allocated blocks, the two fields of the property, the threads, the history. -/
structure Sys where
  heap : Nat → Option (List Byte)
  data : Option Nat
  size : Nat
  thr : Nat → Thread
  log : List Ev

/-- A property with the data `d`, in the block at `p`; all threads idle. -/
def Sys.init (p : Nat) (d : List Byte) : Sys :=
  if d = [] then ⟨fun _ => none, none, 0, fun _ => .idle, []⟩
  else ⟨fun q => if q = p then some d else none, some p, d.length, fun _ => .idle, []⟩

def Sys.goto (s : Sys) (t : Nat) (x : Thread) : Sys := { s with thr := fun u => if u = t then x else s.thr u }
def Sys.emit (s : Sys) (x : Ev) : Sys := { s with log := s.log ++ [x] }
def Sys.setBlock (s : Sys) (p : Nat) (b : Option (List Byte)) : Sys := { s with heap := fun q => if q = p then b else s.heap q }

/-- The end of `uecho_property_setdata`. -/
def wrote (s : Sys) (t : Nat) (d : List Byte) : Sys := (s.goto t .idle).emit (.wrote t d)

/-- After the old data are gone: `if (dataSize == 0) return true` — src/uecho/property.c:109-110, 157-158. -/
def cleared (s : Sys) (t : Nat) (d : List Byte) : Sys := if d = [] then wrote s t d else s.goto t (.writer d .alloc)

/-- One step of `uecho_property_setdata` with the data `d` — src/uecho/property.c:100-119, 149-160, 368-381. `a` is the address
`calloc` returns: memory that is not in use. -/
def writeStep (s : Sys) (t : Nat) (d : List Byte) (a : Nat) : WPc → Res (Option Sys)
  | .size0 => .ok (some ({ s with size := 0 }.goto t (.writer d .test)))
  | .test => match s.data with
    | none => .ok (some (cleared s t d))
    | some _ => .ok (some (s.goto t (.writer d .free)))
  | .free => match s.data with
    | none => .ok (some (s.goto t (.writer d .null)))
    | some p => match s.heap p with
      | none => .ub
      | some _ => .ok (some ((s.setBlock p none).goto t (.writer d .null)))
  | .null => .ok (some (cleared { s with data := none } t d))
  | .alloc => match s.heap a with
    | some _ => .ok none
    | none => .ok (some ({ s.setBlock a (some (List.replicate d.length 0#8)) with data := some a }.goto t (.writer d .count)))
  | .count => .ok (some ({ s with size := d.length }.goto t (.writer d .copy)))
  | .copy => match s.data with
    | none => .ub
    | some p => match s.heap p with
      | none => .ub
      | some b => if b.length < d.length then .ub else .ok (some (wrote (s.setBlock p (some (d ++ b.drop d.length))) t d))

/-- One step of a read. -/
def readStep (s : Sys) (t : Nat) : RPc → Res (Option Sys)
  | .ptr => .ok (some (s.goto t (.reader (.size s.data))))
  | .size p => .ok (some (s.goto t (.reader (.copy p s.size))))
  | .copy p n =>
    if n = 0 then .ok (some ((s.goto t .idle).emit (.read t [])))
    else match p with
      | none => .ub
      | some p => match s.heap p with
        | none => .ub
        | some b => if b.length < n then .ub else .ok (some ((s.goto t .idle).emit (.read t (b.take n))))

/-- The choices of the scheduler and of the users. -/
inductive Label where
  /-- an idle thread begins to write `d` -/
  | write (t : Nat) (d : List Byte)
  /-- an idle thread begins to read -/
  | read (t : Nat)
  /-- a thread makes a step; `a` is the address the allocator returns if it is called -/
  | step (t : Nat) (a : Nat)

/-- One step of the system; `none`: not possible. -/
def step (s : Sys) : Label → Res (Option Sys)
  | .write t d => match s.thr t with
    | .idle => .ok (some (s.goto t (.writer d .size0)))
    | _ => .ok none
  | .read t => match s.thr t with
    | .idle => .ok (some (s.goto t (.reader .ptr)))
    | _ => .ok none
  | .step t a => match s.thr t with
    | .idle => .ok none
    | .writer d pc => writeStep s t d a pc
    | .reader pc => readStep s t pc

end Uecho.Race
