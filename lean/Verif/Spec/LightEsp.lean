import Verif.Model.LightEsp
/-!
# Specification for C163: the light on an ESP32 and its network

The system around the program. The station joins the network only when it is asked to; it may fail, or lose the network at any time. While it
is connected it may be given an address, also more than once: the event comes again when the lease changes.
-/
namespace Uecho.Spec
open Uecho Uecho.LightEsp

inductive Link
  | idle
  | trying
  | up
  deriving DecidableEq

structure Station where
  started : Bool
  link : Link
  lights : Nat

/-- `esp_wifi_start` was just called. -/
def station0 : Station := ⟨false, .idle, 0⟩

inductive Happens
  | started
  | joined
  | lost
  | address
  | other (id : Nat)
  deriving DecidableEq

/-- The system does what a handler asks for. -/
def espPerform (s : Station) : Action → Station
  | .connect => { s with link := if s.link = .idle then .trying else s.link }
  | .startLight => { s with lights := s.lights + 1 }

/-- What can espHappen, and what the program makes of it. -/
def espHappen (s : Station) : Happens → Option Station
  | .started => if s.started then none else some ((wifiHandler .staStart).foldl espPerform { s with started := true })
  | .joined => if s.link = .trying then some ((wifiHandler (.other 4)).foldl espPerform { s with link := .up }) else none
  | .lost => if s.link = .idle then none else some ((wifiHandler .staDisconnected).foldl espPerform { s with link := .idle })
  | .address => if s.link = .up then some (gotIpHandler.foldl espPerform s) else none
  | .other id => some ((wifiHandler (.other id)).foldl espPerform s)

def espHistory (s : Station) : List Happens → Option Station
  | [] => some s
  | x :: xs => (espHappen s x).bind fun s => espHistory s xs

end Uecho.Spec
