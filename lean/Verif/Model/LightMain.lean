import Verif.Model.Server
/-!
# examples/device/uecholight/main.c: the light as a process

The loop of `main` and the signals that reach it. The receivers are `Model/Server.lean`, the node and its light `Model/Light.lean`. The threads of
the library block every signal but SIGQUIT (`Model/Signals.lean`), so the signals here reach the thread of `main`. Linux: POSIX leaves
`sigwait(2)` on a signal that is not blocked undefined; there the signal has its own effect first, and `sigwait` gets only what is blocked.
SIGQUIT, the signals whose effect is a core dump and those that suspend the process are left out.
-/
namespace Uecho.LightMain
open Uecho Uecho.Server

/-- The signals of the `switch` — examples/device/uecholight/main.c:99-109 — and all others. -/
inductive Sig where
  | hup
  | int
  | term
  | kill
  | other (n : Nat)
deriving DecidableEq

/-- What a signal does to the process: it stays pending as the process blocks it, it ends the process, or it is dropped. The process has this from
the one that made it; `main` changes nothing of it. -/
inductive Fate where
  | blocked
  | ends
  | dropped
deriving DecidableEq

/-- SIGKILL is neither blocked nor ignored. -/
def fateOf (fate : Sig → Fate) : Sig → Fate
  | .kill => .ends
  | s => fate s

/-- The operating system and the network at the `k`-th call of `uecho_node_start`, and the announcement that is made then. -/
structure World where
  os : Nat → Os
  net : Nat → SendTo
  msg : Nat → List Byte

/-- How the process ended. -/
inductive End where
  | success
  | failure
  | killed (s : Sig)
deriving DecidableEq

structure Proc where
  server : Server
  /-- how many calls of `uecho_node_start` there were -/
  starts : Nat
  /-- the announcements that went out -/
  sent : List Out
  pending : List Sig
  ended : Option End

/-- `uecho_server_addobserver` in `uecho_node_new` — src/uecho/node.c:37-38. -/
def nodeServer : Server := { Server.new with observers := addObserver Server.new.observers (some 0) (some 0) }

/-- `uecho_node_start` — src/uecho/node.c:370-380: the announcement is made whatever the server said. -/
def nodeStart (w : World) (p : Proc) : Proc × Bool :=
  let (s, ok1) := Server.start (w.os p.starts) p.server
  let (ok2, out) := postAnnounce (w.net p.starts) s (w.msg p.starts)
  ({ p with server := s, starts := p.starts + 1, sent := p.sent ++ out }, ok1 && ok2)

/-- `uecho_node_stop` — src/uecho/node.c:386-396. -/
def nodeStop (p : Proc) : Proc := { p with server := (Server.stop p.server).1 }

/-- The condition of the loop — examples/device/uecholight/main.c:90; behind it `uecho_node_delete` and the end with success (main.c:112-114).
`uecho_node_delete` is in `Model/Mem.lean`. -/
def loop (p : Proc) : Proc := if Server.isRunning p.server then p else { p with ended := some .success }

/-- `main` to its first `sigwait` — examples/device/uecholight/main.c:66-96; the light and the options are in `Model/Light.lean`. -/
def launch (w : World) : Proc :=
  let (p, ok) := nodeStart w ⟨nodeServer, 0, [], [], none⟩
  if ok then loop p else { p with ended := some .failure }

/-- The `switch` — examples/device/uecholight/main.c:99-109. -/
def act (w : World) (s : Sig) (p : Proc) : Proc :=
  match s with
  | .term => nodeStop p
  | .int => nodeStop p
  | .kill => nodeStop p
  | .hup => (nodeStart w (nodeStop p)).1
  | .other _ => p

/-- A signal is sent to the process, or `sigwait` takes one that is pending. -/
inductive Ev where
  | arrive (s : Sig)
  | take (s : Sig)

/-- What happens then — examples/device/uecholight/main.c:90-110. Signals of one kind are pending once. -/
def step (fate : Sig → Fate) (w : World) (p : Proc) : Ev → Proc
  | .arrive s =>
    if p.ended.isSome then p else
      match fateOf fate s with
      | .blocked => if s ∈ p.pending then p else { p with pending := p.pending ++ [s] }
      | .ends => { p with ended := some (.killed s) }
      | .dropped => p
  | .take s =>
    if p.ended.isSome then p
    else if s ∈ p.pending then loop (act w s { p with pending := p.pending.erase s })
    else p

/-- The process after events. -/
def run (fate : Sig → Fate) (w : World) (es : List Ev) : Proc := es.foldl (step fate w) (launch w)

end Uecho.LightMain
