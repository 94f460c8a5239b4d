import Verif.Model.Fd
/-!
# What happens to the descriptors of a process that uses the library

A history of a process: it starts and stops a node, the node announces and sends, and the application opens and closes descriptors of its
own and sets its SIGPIPE handling in between.
-/
namespace Uecho.Spec
open Uecho Uecho.Fd

/-- The operating system gives a descriptor that is not in use. -/
def Fresh (os : Os) : Prop := ∀ n l fd, os.socket n l = some fd → fd ∉ l

/-- What happens in the process. -/
inductive FdOp where
  | start
  | stop
  /-- an announcement -/
  | announce
  /-- a datagram to a node -/
  | send
  | appOpen
  | appClose (fd : Nat)
  | appSignal (d : Pipe)
deriving DecidableEq

/-- The process and the server of its node; `app` are the descriptors that the application opened and did not close. -/
structure FdSt where
  srv : Srv
  proc : Proc
  app : List Nat

/-- One event. The application closes only descriptors that are its own. -/
def fdStep (os : Os) (op : FdOp) (s : FdSt) : Res FdSt :=
  match op with
  | .start => do
    let (_, v, p) ← start os s.srv s.proc
    return { s with srv := v, proc := p }
  | .stop => do
    let (v, p) ← stop s.srv s.proc
    return { s with srv := v, proc := p }
  | .announce => do
    let (_, v, p) ← postAnnounce os s.srv s.proc
    return { s with srv := v, proc := p }
  | .send => do
    let (_, v, p) ← postResponse os s.srv s.proc
    return { s with srv := v, proc := p }
  | .appOpen =>
    match os.socket s.proc.calls s.proc.fds with
    | some fd => .ok { s with proc := { tick s.proc with fds := fd :: s.proc.fds }, app := fd :: s.app }
    | none => .ok { s with proc := tick s.proc }
  | .appClose fd =>
    if fd ∈ s.app then .ok { s with proc := { s.proc with fds := s.proc.fds.erase fd }, app := s.app.erase fd } else .ok s
  | .appSignal d => .ok { s with proc := { s.proc with pipe := d } }

def fdRun (os : Os) : List FdOp → FdSt → Res FdSt
  | [], s => .ok s
  | op :: ops, s => do
    let s ← fdStep os op s
    fdRun os ops s

/-- A process that has the descriptors `app`, handles SIGPIPE by `d`, and has a new node. -/
def fdInit (app : List Nat) (d : Pipe) : FdSt := ⟨Fd.new, ⟨app, 0, 0, d, 0⟩, app⟩

/-- The descriptors of the sockets of a list of servers. -/
def heldBy : List Sub → List Nat
  | [] => []
  | b :: l =>
    match b.sock with
    | some s => s.id.toList ++ heldBy l
    | none => heldBy l

/-- The descriptors that a node holds. -/
def held (v : Srv) : List Nat := heldBy v.mcast ++ heldBy v.udp

/-- POSIX gives the lowest descriptor that is not in use. -/
def lowest (l : List Nat) : Option Nat := (List.range (l.length + 1)).find? (fun n => decide (n ∉ l))

/-- An operating system on which every call works; the host has the interfaces `ifs`. -/
def workingOs (ifs : List String) : Os where
  addrinfo _ := true
  socket _ l := lowest l
  setsockopt _ := true
  bind _ := true
  join _ := true
  thread _ := true
  ifaces _ := ifs
  sendto _ := true

/-- No call of the operating system fails. -/
structure Willing (os : Os) : Prop where
  addrinfo : ∀ n, os.addrinfo n = true
  socket : ∀ n l, os.socket n l ≠ none
  setsockopt : ∀ n, os.setsockopt n = true
  bind : ∀ n, os.bind n = true
  join : ∀ n, os.join n = true
  thread : ∀ n, os.thread n = true
  ifaces : ∀ n, os.ifaces n ≠ []

/-- Each of the receivers has a socket with a descriptor and one of the addresses, in this order. -/
def Receives (t : Bool) (l : List Sub) (as : List String) : Prop :=
  l.map (fun b => b.sock.map (·.addr)) = as.map some ∧ ∀ b ∈ l, b.thread = t ∧ ∃ s fd, b.sock = some s ∧ s.id = some fd

end Uecho.Spec
