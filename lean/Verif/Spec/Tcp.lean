import Verif.Model.Tcp
import Verif.Spec.Fd
/-!
# Histories of an application with stream sockets
-/
namespace Uecho.Spec
open Uecho Uecho.Fd Uecho.Tcp
open Uecho.Server (Kind)

/-- What the application does; sockets are numbered in the order in which they were made, those deleted left out. -/
inductive TcpOp where
  | new
  | bind (i : Nat) (k : Kind) (addr : String)
  /-- socket `i` accepts a connection into socket `j` -/
  | accept (i j : Nat)
  | connect (i : Nat)
  | close (i : Nat)
  | delete (i : Nat)
deriving DecidableEq

structure TcpSt where
  socks : List Sock
  proc : Proc

/-- A call; nothing happens if there is no such socket. -/
def tcpStep (os : StreamOs) (op : TcpOp) (s : TcpSt) : Res TcpSt :=
  match op with
  | .new => do
    let (k, p) ← sockNew s.proc
    return ⟨s.socks ++ [k], p⟩
  | .bind i k a =>
    match s.socks[i]? with
    | some x => do
      let (_, x, p) ← Fd.bind os.base k a x s.proc
      return ⟨s.socks.set i x, p⟩
    | none => .ok s
  | .accept i j =>
    match s.socks[i]?, s.socks[j]? with
    | some v, some x =>
      let (_, x, p) := Tcp.accept os v x s.proc
      .ok ⟨s.socks.set j x, p⟩
    | _, _ => .ok s
  | .connect i =>
    match s.socks[i]? with
    | some x => do
      let (_, x, p) ← Tcp.connect os x s.proc
      return ⟨s.socks.set i x, p⟩
    | none => .ok s
  | .close i =>
    match s.socks[i]? with
    | some x =>
      let (x, p) := Fd.close x s.proc
      .ok ⟨s.socks.set i x, p⟩
    | none => .ok s
  | .delete i =>
    match s.socks[i]? with
    | some x => do
      let p ← sockDelete x s.proc
      return ⟨s.socks.eraseIdx i, p⟩
    | none => .ok s

def tcpRun (os : StreamOs) : List TcpOp → TcpSt → Res TcpSt
  | [], s => .ok s
  | op :: ops, s => do
    let s ← tcpStep os op s
    tcpRun os ops s

/-- Socket `i` holds no descriptor. -/
def Closed (s : TcpSt) (i : Nat) : Prop := ∀ x, s.socks[i]? = some x → x.id = none

/-- The call binds, or accepts into, a socket that holds no descriptor. -/
def TidyOp : TcpOp → TcpSt → Prop
  | .bind i _ _, s => Closed s i
  | .accept _ j, s => Closed s j
  | _, _ => True

/-- The application binds, and accepts into, sockets that hold no descriptor. -/
def Tidy (os : StreamOs) : List TcpOp → TcpSt → Prop
  | [], _ => True
  | op :: ops, s => TidyOp op s ∧ ∀ s', tcpStep os op s = .ok s' → Tidy os ops s'

/-- The descriptors that the sockets hold. -/
def socksHold : List Sock → List Nat
  | [] => []
  | s :: l => s.id.toList ++ socksHold l

/-- The operating system gives descriptors that are not in use. -/
def FreshStream (os : StreamOs) : Prop := Fresh os.base ∧ ∀ n l fd, os.accept n l = some fd → fd ∉ l

/-- A process that has the descriptors `app` and no sockets. -/
def tcpInit (app : List Nat) (d : Pipe) : TcpSt := ⟨[], ⟨app, 0, 0, d, 0⟩⟩

/-- Every call works. -/
def workingStream : StreamOs := ⟨workingOs ["192.168.0.2"], fun _ l => lowest l, fun _ => true⟩

end Uecho.Spec
