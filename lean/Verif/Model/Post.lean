import Verif.Model.Controller
/-!
# Interleavings of `uecho_controller_postmessage` and the message listener

Any number of threads. A thread is idle, inside `uecho_controller_postmessage`, inside another function that
sends through the local node, or a receive thread of the server that runs the message listener of the
controller. Each step is one access to memory shared between the threads (the post pointers, the TID counter,
a message object), one operation on the mutex or the condition variable, or the hand-over of the request to the
socket. The scheduler and the environment choose the next `Label`.

Simplifications: accesses are sequentially consistent; the copy of a message (`uecho_message_set`), the
store of a TID (two bytes) and the comparison of two messages are one step each; `uecho_cond_t`'s own mutex
(src/uecho/util/cond.c:80-82, 98-100) makes entering the wait atomic and signalling atomic; the part of
the listener after the post handling is not in this model (`Model/Controller.lean` has it). Time is not
modelled: a waiting thread may time out at any moment (for when it may: `condDeadline`).
-/
namespace Uecho.Post
open Uecho

/-- Inside `uecho_node_getnexttid` — src/uecho/node.c:441-453: before the comparison, before the load of the
increment, before the store of `v`, before the load of the returned value. -/
inductive TidPc where
  | cmp | inc | store (v : BitVec 32) | ret
deriving DecidableEq

/-- Arguments of one call of `uecho_controller_postmessage`: the addresses of the two message objects and the IP
address of the node. -/
structure Job where
  req : Nat
  res : Nat
  dst : String
deriving DecidableEq

/-- Inside `uecho_controller_postmessage` — src/uecho/controller.c:482-519: the next thing to do. `r` is
`isResponceReceived`. -/
inductive PostPc where
  /-- line 490 -/
  | lock
  /-- line 492 -/
  | setReq
  /-- line 493 -/
  | setRes
  /-- line 495, src/uecho/node.c:509 -/
  | tid (pc : TidPc)
  /-- line 495, src/uecho/node.c:509-514: TID and source object code are stored -/
  | setTid (v : BitVec 32)
  /-- line 495, src/uecho/node.c:516 -/
  | send
  /-- line 510, src/uecho/util/cond.c:80-81: before waiting -/
  | condWait
  /-- line 510, src/uecho/util/cond.c:81: in the set of waiting threads, or woken -/
  | waiting
  /-- line 513 -/
  | clearReq (r : Bool)
  /-- line 514 -/
  | clearRes (r : Bool)
  /-- lines 496, 516 and the return -/
  | unlock (r : Bool)
deriving DecidableEq

/-- Inside the post part of `uecho_controller_servermessagelistener` — src/uecho/controller_listener.c:201-203. -/
inductive RecvPc where
  /-- first load in `uecho_controller_ispostresponsewaiting` — src/uecho/controller.c:448 -/
  | waitReq
  /-- second load there -/
  | waitRes
  /-- load in `uecho_controller_haspostrequestmessage` from src/uecho/controller.c:421 -/
  | hasReq
  /-- load and comparison — src/uecho/controller.c:424, src/uecho/message.c:418-430 -/
  | compare
  /-- load of the response pointer — src/uecho/controller_listener.c:154 -/
  | getRes
  /-- `uecho_message_set` — src/uecho/controller_listener.c:154 -/
  | copy (p : Option Nat)
  /-- src/uecho/controller_listener.c:155 -/
  | signal
  | done
deriving DecidableEq

inductive Thread where
  | idle
  | post (j : Job) (pc : PostPc)
  /-- `uecho_node_announcemessage` or `uecho_node_sendmessage` with a message of its own —
  src/uecho/node.c:481-517; `some v`: the TID is `v` and the frame is about to be sent -/
  | sender (pc : TidPc ⊕ BitVec 32)
  | recv (m : Message) (pc : RecvPc)

/-- What happened, in order. -/
inductive Ev where
  /-- thread `t` handed a frame with this TID to the socket, which accepted it or not -/
  | sent (t : Nat) (tid : BitVec 32) (ok : Bool)
  /-- a message was handed to the listener -/
  | arrived (m : Message)
  /-- the post returned; contents of the request and response object at that moment -/
  | returned (t : Nat) (j : Job) (ok : Bool) (req res : Option Message)

/-- The shared memory, the threads and the history. `waiters`: the threads blocked on the condition variable. -/
structure Sys where
  mutex : Option Nat
  postReq : Option Nat
  postRes : Option Nat
  lastTid : BitVec 32
  heap : Heap
  waiters : List Nat
  thr : Nat → Thread
  log : List Ev

/-- `uecho_controller_new` — src/uecho/controller.c:20-47: `postReqMsg` is not initialised. -/
def Sys.init (req0 : Option Nat) (tid0 : BitVec 32) : Sys :=
  ⟨none, req0, none, tid0, fun _ => none, [], fun _ => .idle, []⟩

def Sys.goto (s : Sys) (t : Nat) (x : Thread) : Sys := { s with thr := fun u => if u = t then x else s.thr u }
def Sys.emit (s : Sys) (x : Ev) : Sys := { s with log := s.log ++ [x] }

/-- One step of `uecho_node_getnexttid` — src/uecho/node.c:441-453: the counter afterwards and what
is next (or the value returned). -/
def tidStep (last : BitVec 32) : TidPc → BitVec 32 × (TidPc ⊕ BitVec 32)
  | .cmp => (last, .inl (if 65535#32 ≤ last then .store 1#32 else .inc))
  | .inc => (last, .inl (.store (last + 1#32)))
  | .store v => (v, .inl .ret)
  | .ret => (last, .inr last)

/-- One step of the listener, except signalling: see `RecvPc`. -/
def recvStep (e : Endian) (s : Sys) (m : Message) : RecvPc → Res (Sys × RecvPc)
  | .waitReq => .ok (s, if s.postReq.isSome then .waitRes else .done)
  | .waitRes => .ok (s, if s.postRes.isSome then .hasReq else .done)
  | .hasReq => .ok (s, if s.postReq.isSome then .compare else .done)
  | .compare =>
      match s.postReq with
      | none => .ok (s, .done)
      | some r =>
        match s.heap r with
        | none => .ub
        | some req => .ok (s, if req.isResponseMessage e m then .getRes else .done)
  | .getRes => .ok (s, .copy s.postRes)
  | .copy none => .ok (s, .signal)
  | .copy (some p) =>
      match s.heap p with
      | none => .ub
      | some old => do
          let res ← Message.setFrom e old m
          return ({ s with heap := s.heap.set p res }, .signal)
  | .signal => .ok ({ s with waiters := s.waiters.tail }, .done)
  | .done => .ok (s, .done)

/-- One step of `uecho_controller_postmessage`, see `PostPc`; `none`: blocked. -/
def postStep (e : Endian) (s : Sys) (t : Nat) (j : Job) : PostPc → Res (Option Sys)
  | .lock => .ok (if s.mutex = none then some ({ s with mutex := some t }.goto t (.post j .setReq)) else none)
  | .setReq => .ok (some ({ s with postReq := some j.req }.goto t (.post j .setRes)))
  | .setRes => .ok (some ({ s with postRes := some j.res }.goto t (.post j (.tid .cmp))))
  | .tid pc =>
      match tidStep s.lastTid pc with
      | (l, .inl pc') => .ok (some ({ s with lastTid := l }.goto t (.post j (.tid pc'))))
      | (l, .inr v) => .ok (some ({ s with lastTid := l }.goto t (.post j (.setTid v))))
  | .setTid v =>
      match s.heap j.req with
      | none => .ub
      | some m =>
        .ok (some ({ s with heap := s.heap.set j.req { m.setTid e v with seoj := (0x0E#8, 0xF0#8, 0x01#8) } }.goto t
          (.post j .send)))
  | .send =>
      match s.heap j.req with
      | none => .ub
      | some m => .ok (some ((s.emit (.sent t (m.getTid e) true)).goto t (.post j .condWait)))
  | .condWait => .ok (some ({ s with waiters := s.waiters ++ [t] }.goto t (.post j .waiting)))
  | .waiting => .ok (if t ∈ s.waiters then none else some (s.goto t (.post j (.clearReq true))))
  | .clearReq r => .ok (some ({ s with postReq := none }.goto t (.post j (.clearRes r))))
  | .clearRes r => .ok (some ({ s with postRes := none }.goto t (.post j (.unlock r))))
  | .unlock r =>
      .ok (some ((({ s with mutex := none }).emit (.returned t j r (s.heap j.req) (s.heap j.res))).goto t .idle))

/-- A choice of the scheduler or the environment. -/
inductive Label where
  /-- an idle thread calls `uecho_controller_postmessage` -/
  | callPost (t : Nat) (j : Job)
  /-- an idle thread calls another sending function -/
  | callSend (t : Nat)
  /-- an idle receive thread gets a message and calls the listener -/
  | arrive (t : Nat) (m : Message)
  /-- the thread does its next step -/
  | step (t : Nat)
  /-- the socket refuses the request: line 495 is false -/
  | sendFail (t : Nat)
  /-- the wait ends with ETIMEDOUT -/
  | timeout (t : Nat)
  /-- the wait ends without a signal, which POSIX allows -/
  | spurious (t : Nat)
  /-- a message arrives and a receive thread does the whole listener without being interrupted -/
  | deliver (m : Message)
  /-- the user creates or changes a message object -/
  | store (p : Nat) (m : Message)
  /-- the user deletes a message object -/
  | free (p : Nat)

/-- The whole post part of the listener. -/
def deliver (e : Endian) (s : Sys) (m : Message) : Res Sys := do
  let (s, pc) ← recvStep e (s.emit (.arrived m)) m .waitReq
  let (s, pc) ← recvStep e s m pc
  let (s, pc) ← recvStep e s m pc
  let (s, pc) ← recvStep e s m pc
  let (s, pc) ← recvStep e s m pc
  let (s, pc) ← recvStep e s m pc
  let (s, _) ← recvStep e s m pc
  return s

/-- The next step of thread `t`. -/
def threadStep (e : Endian) (s : Sys) (t : Nat) : Res (Option Sys) :=
  match s.thr t with
  | .idle => .ok none
  | .post j pc => postStep e s t j pc
  | .sender (.inl pc) =>
      let r := tidStep s.lastTid pc
      .ok (some ({ s with lastTid := r.1 }.goto t (.sender r.2)))
  | .sender (.inr v) => .ok (some ((s.emit (.sent t v true)).goto t .idle))
  | .recv m pc => do
      let (s, pc) ← recvStep e s m pc
      return some (s.goto t (if pc = .done then .idle else .recv m pc))

/-- What a label does; `none` if it is not possible. -/
def step (e : Endian) (s : Sys) : Label → Res (Option Sys)
  | .callPost t j =>
      match s.thr t with
      | .idle => .ok (some (s.goto t (.post j .lock)))
      | _ => .ok none
  | .callSend t =>
      match s.thr t with
      | .idle => .ok (some (s.goto t (.sender (.inl .cmp))))
      | _ => .ok none
  | .arrive t m =>
      match s.thr t with
      | .idle => .ok (some ((s.emit (.arrived m)).goto t (.recv m .waitReq)))
      | _ => .ok none
  | .step t => threadStep e s t
  | .sendFail t =>
      match s.thr t with
      | .post j .send =>
        match s.heap j.req with
        | none => .ub
        | some m => .ok (some ((s.emit (.sent t (m.getTid e) false)).goto t (.post j (.unlock false))))
      | _ => .ok none
  | .timeout t =>
      match s.thr t with
      | .post j .waiting =>
        if t ∈ s.waiters then .ok (some ({ s with waiters := s.waiters.erase t }.goto t (.post j (.clearReq false))))
        else .ok none
      | _ => .ok none
  | .spurious t =>
      match s.thr t with
      | .post j .waiting =>
        if t ∈ s.waiters then .ok (some ({ s with waiters := s.waiters.erase t }.goto t (.post j (.clearReq true))))
        else .ok none
      | _ => .ok none
  | .deliver m => do
      let s ← deliver e s m
      return some s
  | .store p m => .ok (some { s with heap := s.heap.set p m })
  | .free p => .ok (some { s with heap := fun q => if q = p then none else s.heap q })

/-- The deadline passed to `pthread_cond_timedwait` — src/uecho/util/cond.c:77-78, in nanoseconds: `now` is the time of
the call in nanoseconds, `mtime` the waiting time in clock ticks (`CLOCKS_PER_SEC` is 1000000). For times
that are not negative. -/
def condDeadline (now mtime : Nat) : Nat := (now / 1000000000 + mtime / 1000000) * 1000000000

end Uecho.Post
