import Verif.Model.Basic
/-!
# The linked list of src/uecho/util/list.c

A memory of list cells, addressed by numbers; `none` is memory that is not allocated (any access is undefined
behaviour), a pointer is `Option Nat` with `none` for NULL. Arguments of the functions are not NULL. The loops
have a step bound `k`; outcome `none`: not finished within `k` steps.
-/
namespace Uecho.CList
open Uecho

/-- `uEchoList` — src/uecho/util/list.h:31-36. -/
structure Cell where
  head : Bool
  prev : Option Nat
  next : Option Nat
deriving DecidableEq

abbrev Mem := Nat → Option Cell

/-- Read the cell at `p`. -/
def cell (h : Mem) (p : Nat) : Res Cell :=
  match h p with
  | some c => .ok c
  | none => .ub

/-- Write the cell at `p` (which was read before). -/
def put (h : Mem) (p : Nat) (c : Cell) : Mem := fun q => if q = p then some c else h q

/-- Dereference of a pointer. -/
def deref : Option Nat → Res Nat
  | some p => .ok p
  | none => .ub

/-- `malloc` of a structure that begins with a list cell: the content is arbitrary. -/
def alloc (h : Mem) (p : Nat) (junk : Cell) : Mem := put h p junk

/-- `free` -/
def free (h : Mem) (p : Nat) : Res Mem := do
  let _ ← cell h p
  return fun q => if q = p then none else h q

/-- `uecho_list_header_init` — src/uecho/util/list.c:17-26. -/
def headerInit (h : Mem) (p : Nat) : Res Mem := do
  let _ ← cell h p
  return put h p ⟨true, some p, some p⟩

/-- `uecho_list_node_init` — src/uecho/util/list.c:32-41. -/
def nodeInit (h : Mem) (p : Nat) : Res Mem := do
  let _ ← cell h p
  return put h p ⟨false, some p, some p⟩

/-- `uecho_list_next` — src/uecho/util/list.c:214-226. -/
def next (h : Mem) (p : Nat) : Res (Option Nat) := do
  let c ← cell h p
  match c.next with
  | none => return none
  | some q => do
      let d ← cell h q
      return if d.head then none else some q

/-- `uecho_list_prev` — src/uecho/util/list.c:164-177. -/
def prev (h : Mem) (p : Nat) : Res (Option Nat) := do
  let c ← cell h p
  match c.prev with
  | none => return none
  | some q => do
      let d ← cell h q
      return if d.head then none else some q

/-- `uecho_list_next_circular` — src/uecho/util/list.c:183-196. -/
def nextCircular (h : Mem) (p : Nat) : Res (Option Nat) := do
  let c ← cell h p
  match c.next with
  | none => return none
  | some q => do
      let d ← cell h q
      return if d.head then d.next else some q

/-- `uecho_list_prev_circular` — src/uecho/util/list.c:145-158. -/
def prevCircular (h : Mem) (p : Nat) : Res (Option Nat) := do
  let c ← cell h p
  match c.prev with
  | none => return none
  | some q => do
      let d ← cell h q
      return if d.head then d.prev else some q

/-- `uecho_list_gets` — src/uecho/util/list.c:202-208. -/
def gets (h : Mem) (p : Nat) : Res (Option Nat) := next h p

/-- The loop of `uecho_list_size`; `listCnt` is an `int`. -/
def sizeLoop (h : Mem) : Nat → Option Nat → Nat → Res (Option Nat)
  | _, none, cnt => .ok (some cnt)
  | 0, some _, _ => .ok none
  | k + 1, some p, cnt => if cnt = 2147483647 then .ub else do
      let q ← next h p
      sizeLoop h k q (cnt + 1)

/-- `uecho_list_size` — src/uecho/util/list.c:47-60. -/
def size (k : Nat) (h : Mem) (p : Nat) : Res (Option Nat) := do
  let q ← next h p
  sizeLoop h k q 0

/-- The loop of `uecho_list_get`: `n` rounds are left. -/
def getLoop (h : Mem) : Nat → Option Nat → Res (Option Nat)
  | 0, p => .ok p
  | _ + 1, none => .ok none
  | n + 1, some p => do
      let q ← next h p
      getLoop h n q

/-- `uecho_list_get` — src/uecho/util/list.c:66-82; an `index` below 0 is like 0. -/
def get (h : Mem) (p : Nat) (index : Int) : Res (Option Nat) := do
  let q ← next h p
  getLoop h index.toNat q

/-- The iteration `for (x = gets(head); x; x = next(x))` used everywhere in the library, e.g.
src/uecho/object_list.c:56: the visited cells in order. -/
def iterLoop (h : Mem) : Nat → Option Nat → List Nat → Res (Option (List Nat))
  | _, none, acc => .ok (some acc)
  | 0, some _, _ => .ok none
  | k + 1, some p, acc => do
      let q ← next h p
      iterLoop h k q (acc ++ [p])

def iterate (k : Nat) (h : Mem) (p : Nat) : Res (Option (List Nat)) := do
  let q ← gets h p
  iterLoop h k q []

/-- `uecho_list_insert` — src/uecho/util/list.c:88-101: `list` after `prevList`. -/
def insert (h : Mem) (prevList list : Nat) : Res Mem := do
  let c ← cell h list
  let h := put h list { c with prev := some prevList }
  let p ← cell h prevList
  let c ← cell h list
  let h := put h list { c with next := p.next }
  let p ← cell h prevList
  let n ← deref p.next
  let d ← cell h n
  let h := put h n { d with prev := some list }
  let p ← cell h prevList
  return put h prevList { p with next := some list }

/-- `uecho_list_add` — src/uecho/util/list.c:107-120. -/
def add (h : Mem) (head list : Nat) : Res (Mem × Bool) := do
  let c ← cell h head
  match c.prev with
  | none => return (h, false)
  | some p => do
      let h ← insert h p list
      return (h, true)

/-- `uecho_list_remove` — src/uecho/util/list.c:126-139. -/
def remove (h : Mem) (list : Nat) : Res (Mem × Bool) := do
  let c ← cell h list
  match c.prev, c.next with
  | some p, some n => do
      let d ← cell h p
      let h := put h p { d with next := some n }
      let c ← cell h list
      let n ← deref c.next
      let d ← cell h n
      let h := put h n { d with prev := c.prev }
      let c ← cell h list
      return (put h list { c with prev := some list, next := some list }, true)
  | _, _ => return (h, false)

/-- The loop of `uecho_list_clear`. The destructor is taken to end with `free`, and to leave other cells alone. -/
def clearLoop : Nat → Mem → Option Nat → Res (Option Mem)
  | _, h, none => .ok (some h)
  | 0, _, some _ => .ok none
  | k + 1, h, some p => do
      let q ← next h p
      let (h, _) ← remove h p
      let h ← free h p
      clearLoop k h q

/-- `uecho_list_clear` — src/uecho/util/list.c:232-253. -/
def clear (k : Nat) (h : Mem) (p : Nat) : Res (Option Mem) := do
  let q ← next h p
  clearLoop k h q

end Uecho.CList
