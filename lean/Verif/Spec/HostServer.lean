import Verif.Model.HostServer
import Verif.Spec.Interface
/-! # Specification for C161: where a node can be reached -/
namespace Uecho.Spec
open Uecho Uecho.Net Uecho.Server

/-- The host has this IPv4 address, with a netmask, on an interface that is in use and is not the loopback interface. -/
def HasAddr (l : List IfAddr) (a : BitVec 32) : Prop :=
  ∃ i ∈ l, i.addr = some (.in4 a) ∧ (∃ k, i.mask = some (.in4 k)) ∧ i.up = true ∧ i.loopback = false

/-- The host has this address, and it is not that of a point-to-point connection. -/
def HasLanAddr (l : List IfAddr) (a : BitVec 32) : Prop :=
  ∃ i ∈ l, i.addr = some (.in4 a) ∧ (∃ k, i.mask = some (.in4 k)) ∧ i.up = true ∧ i.loopback = false ∧ i.pointToPoint = false

/-- A running receiver is bound to the address. -/
def HeardAt (l : List Sub) (a : BitVec 32) : Prop := ∃ x ∈ l, x.socket = some (ntoa a) ∧ x.thread = true

end Uecho.Spec
