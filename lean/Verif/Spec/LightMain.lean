import Verif.Model.LightMain
/-! # Specification for C160: the light as a process -/
namespace Uecho.Spec
open Uecho Uecho.Server Uecho.LightMain

/-- The host has an interface, and each yields a socket and a thread of both kinds. -/
def HostGrants (os : Os) : Prop :=
  os.ifaces ≠ [] ∧ ∀ k, ∀ a ∈ os.ifaces, os.openOk k a = true ∧ os.threadOk k a = true

/-- One running receiver for each interface, bound to its address. -/
def Hears (os : Os) (l : List Sub) : Prop := l.map (fun x => (x.socket, x.thread)) = os.ifaces.map fun a => (some a, true)

/-- The process hears requests and notifications on every interface. -/
def Listens (os : Os) (s : Server) : Prop := Hears os s.mcast ∧ Hears os s.udp

/-- Nothing is open. -/
def Silent (s : Server) : Prop := s.mcast = [] ∧ s.udp = []

/-- The signals by which the process is told to end. -/
def ToldToEnd (s : Sig) : Prop := s = .term ∨ s = .int

/-- A signal is sent and taken at once. -/
def sendTake (s : Sig) : List Ev := [.arrive s, .take s]

end Uecho.Spec
