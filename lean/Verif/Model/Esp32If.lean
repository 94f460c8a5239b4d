import Verif.Model.Interface
/-!
# lib/esp32/interface_function.c: which addresses this host has, on ESP32

What ESP-IDF answers is a list of interfaces. Allocations succeed. The MAC address is left out.
-/
namespace Uecho.Esp32If
open Uecho Uecho.Net

/-- `esp_netif_t`: the address and the netmask if `esp_netif_get_ip_info` succeeds, as the bytes of the network from the first on; whether it is up;
`esp_netif_get_ifkey`. -/
structure EspIf where
  info : Option (BitVec 32 × BitVec 32)
  up : Bool
  key : Option String
deriving DecidableEq, Repr

/-- `ip_info.ip.addr`: the four bytes of the network read as a number by the processor, which is little-endian. -/
def stored (a : BitVec 32) : BitVec 32 :=
  (a.extractLsb' 0 8 ++ a.extractLsb' 8 8) ++ (a.extractLsb' 16 8 ++ a.extractLsb' 24 8)

/-- `IPADDR_LOOPBACK` of lwIP: 127.0.0.1 in the byte order of the host. -/
def ipaddrLoopback : BitVec 32 := 0x7F000001#32

/-- `uecho_net_gethostinterfaces` — lib/esp32/interface_function.c:20-69: the list made so far. -/
def ifLoop : List EspIf → List NetIf → List NetIf
  | [], l => l
  | i :: is, l =>
      match i.info with
      | none => ifLoop is l
      | some (ip, mask) =>
          if i.up == false || stored ip == ipaddrLoopback then ifLoop is l
          else ifLoop is (l ++ [⟨i.key.getD "", ntoa ip, ntoa mask⟩])

/-- `uecho_net_gethostinterfaces` — lib/esp32/interface_function.c:20-69; the result of the function is the size. `count` is what
`esp_netif_get_nr_of_ifs` answers, in every round. -/
def getHostInterfaces (count : Nat) (ifs : List EspIf) : List NetIf := ifLoop (ifs.take count) []

/-- `uecho_net_selectaddr` — lib/esp32/interface_function.c:71-95: the sender is not looked at. -/
def selectAddr (count : Nat) (ifs : List EspIf) (_raddr : BitVec 32) : String :=
  let l := getHostInterfaces count ifs
  if l.length ≤ 0 then "127.0.0.1"
  else
    match l with
    | [] => "127.0.0.1"
    | i :: _ => i.addr

end Uecho.Esp32If
