import Verif.Model.ThreadCtl
/-!
# Histories of a thread object
-/
namespace Uecho.Spec
open Uecho Uecho.ThreadCtl

/-- What happens to a thread object. -/
inductive ThEv where
  /-- the application starts it; `ok`: the operating system makes a thread -/
  | start (ok : Bool)
  | stop
  | restart (ok : Bool)
  /-- a running action looks whether it should go on -/
  | ask (i : Nat)
deriving DecidableEq

def thStep : ThEv → Th → Th
  | .start ok, t => (start ok t).2
  | .stop, t => (stop t).2
  | .restart ok, t => (restart ok t).2
  | .ask i, t => ask i t

def thRun (es : List ThEv) (t : Th) : Th := es.foldl (fun t e => thStep e t) t

/-- In the history `es` after `t` the object is started only when no action runs. -/
def StartsIdle : List ThEv → Th → Prop
  | [], _ => True
  | e :: es, t =>
    (match e with
      | .start _ | .restart _ => t.live = []
      | _ => True) ∧ StartsIdle es (thStep e t)

end Uecho.Spec
