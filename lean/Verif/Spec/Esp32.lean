import Verif.Model.Esp32
/-!
# Histories of a thread object on ESP32
-/
namespace Uecho.Spec
open Uecho Uecho.Esp32

/-- What happens to a thread object. -/
inductive EspEv where
  /-- the application starts it; `ok`: the operating system makes a task -/
  | start (ok : Bool)
  | stop
  | restart (ok : Bool)
  /-- a running action looks whether it should go on -/
  | ask (i : Nat)
  /-- a running action ends for another reason, such as a socket that fails -/
  | fails (i : Nat)
deriving DecidableEq

def espStep : EspEv → Esp32.Th → Res Esp32.Th
  | .start ok, t => .ok (Esp32.start ok t).2
  | .stop, t => do let r ← Esp32.stop t; return r.2
  | .restart ok, t => do let r ← Esp32.restart ok t; return r.2
  | .ask i, t => .ok (Esp32.ask i t)
  | .fails i, t => .ok (Esp32.finish i t)

def espRun : List EspEv → Esp32.Th → Res Esp32.Th
  | [], t => .ok t
  | e :: es, t => do
      let t ← espStep e t
      espRun es t

/-- No action ends before the application stops it. -/
def NoFailure (es : List EspEv) : Prop := ∀ i, EspEv.fails i ∉ es

/-- In the history `es` after `t` the object is started only when no action runs (a restart stops the old one first). -/
def EspStartsIdle : List EspEv → Esp32.Th → Prop
  | [], _ => True
  | e :: es, t => (∀ ok, e = .start ok → t.live = []) ∧ ∀ t', espStep e t = .ok t' → EspStartsIdle es t'

/-- Elements are added to the list `p`, one after the other; all succeed. -/
def addAll (p : Nat) : List Nat → CList.Mem → Res CList.Mem
  | [], h => .ok h
  | y :: ys, h => do
      let (h, ok) ← CList.add h p y
      if ok then addAll p ys h else .ub

end Uecho.Spec
