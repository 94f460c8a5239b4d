import Verif.Model.Post
import Verif.Spec.MessageApi
/-!
# Specification vocabulary for posts

`Run e s ls s'`: the scheduler's and environment's choices `ls` lead from `s` to `s'`, with defined behaviour,
and the user keeps to the rules of the API (`UserOK`): message objects passed to a post are valid, distinct, not
shared with another post that has not returned, and not changed or deleted before it returns.
-/
namespace Uecho.Spec
open Uecho Uecho.Post

/-- The message object belongs to a post that has not returned. -/
def InUse (s : Sys) (p : Nat) : Prop := ∃ t j pc, s.thr t = .post j pc ∧ (p = j.req ∨ p = j.res)

/-- A message object the API can produce is at `p`. -/
def ValidMsg (e : Endian) (s : Sys) (p : Nat) : Prop := ∃ m, s.heap p = some m ∧ Reachable e m

/-- The rules for the user, and that what arrives is a message object made by the API (the parser). -/
def UserOK (e : Endian) (s : Sys) : Label → Prop
  | .callPost _ j => ValidMsg e s j.req ∧ ValidMsg e s j.res ∧ j.req ≠ j.res ∧ ¬ InUse s j.req ∧ ¬ InUse s j.res
  | .store p m => Reachable e m ∧ ¬ InUse s p
  | .free p => ¬ InUse s p
  | .arrive _ m => Reachable e m
  | .deliver m => Reachable e m
  | _ => True

inductive Run (e : Endian) : Sys → List Label → Sys → Prop
  | nil (s) : Run e s [] s
  | snoc {s s1 s2 ls} (l) : Run e s ls s1 → UserOK e s1 l → step e s1 l = .ok (some s2) → Run e s (ls ++ [l]) s2

/-- Reachable by the choices `ls` from a new controller. -/
def RunFromNew (e : Endian) (ls : List Label) (s : Sys) : Prop := ∃ req0 tid0, Run e (Sys.init req0 tid0) ls s

/-- No receive thread is interrupted while it is in the listener. -/
def AtomicListener (ls : List Label) : Prop := ∀ t m, Label.arrive t m ∉ ls
/-- The condition variable wakes nobody without a signal. -/
def NoSpurious (ls : List Label) : Prop := ∀ t, Label.spurious t ∉ ls
/-- The socket accepts every request. -/
def NoSendFailure (ls : List Label) : Prop := ∀ t, Label.sendFail t ∉ ls
/-- Nothing but posts sends through the local node. -/
def OnlyPosts (ls : List Label) : Prop := ∀ t, Label.callSend t ∉ ls

/-- TID and ESV of `a` are those of an answer to `q`: the same TID, another ESV. -/
def Answers (q a : Message) : Prop := a.tid0 = q.tid0 ∧ a.tid1 = q.tid1 ∧ a.esv ≠ q.esv
instance (q a) : Decidable (Answers q a) := by unfold Answers; infer_instance

/-- The post of this thread has taken the lock and not released it. -/
def Inside (s : Sys) (t : Nat) (j : Job) : Prop := ∃ pc, s.thr t = .post j pc ∧ pc ≠ .lock

/-- The thread is blocked in the wait for the response. -/
def Waiting (s : Sys) (t : Nat) (j : Job) : Prop := s.thr t = .post j .waiting ∧ t ∈ s.waiters

/-- The TIDs of the frames handed to the socket, in order. -/
def sentTids (log : List Ev) : List Nat :=
  log.filterMap fun x => match x with
    | .sent _ v _ => some v.toNat
    | _ => none

/-- The result of the first post of thread `t` that returns in this part of the history. -/
def firstReturn (t : Nat) (log : List Ev) : Option Bool :=
  log.findSome? fun x => match x with
    | .returned u _ r _ _ => if u = t then some r else none
    | _ => none

end Uecho.Spec
