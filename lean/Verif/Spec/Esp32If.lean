import Verif.Model.Esp32If
/-!
# Specification for C156: the addresses of this host, on ESP32
-/
namespace Uecho.Spec
open Uecho Uecho.Net Uecho.Esp32If

/-- What should be listed for an interface: in use, with an address that is not the loopback address. -/
def espListed (i : EspIf) : Option NetIf :=
  match i.info with
  | some (ip, mask) => if i.up && decide (ip ≠ 0x7F000001#32) then some ⟨i.key.getD "", ntoa ip, ntoa mask⟩ else none
  | none => none

/-- The interface has this address. -/
def EspHas (i : EspIf) (ip : BitVec 32) : Prop := ∃ mask, i.info = some (ip, mask)

/-- The addresses in use by which the sender `r` can be reached on its own network. -/
def espNear (ifs : List EspIf) (r : BitVec 32) : List String :=
  ifs.filterMap fun i =>
    match i.info with
    | some (ip, mask) => if i.up && ip &&& mask == r &&& mask then some (ntoa ip) else none
    | none => none

end Uecho.Spec
