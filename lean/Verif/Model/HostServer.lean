import Verif.Model.Server
import Verif.Model.Esp32If
/-!
# The servers of a node on a host

`uecho_mcast_serverlist_open` and `uecho_udp_serverlist_open` ask for the interfaces themselves; here both get the same answer.
-/
namespace Uecho.HostServer
open Uecho Uecho.Net Uecho.Server

/-- The addresses that are opened — src/uecho/frame/mcast_server_list.c:54-82, src/uecho/frame/udp_server_list.c:54-82: `uecho_net_gethostinterfaces`, and
`uecho_net_interface_getaddress` of each. -/
def hostOs (answer : Option (List IfAddr)) (openOk threadOk : Kind → String → Bool) : Os :=
  ⟨(getHostInterfaces answer).map fun i => i.addr, openOk, threadOk⟩

/-- The same on ESP32, with lib/esp32/interface_function.c:20-69. -/
def espOs (count : Nat) (ifs : List Esp32If.EspIf) (openOk threadOk : Kind → String → Bool) : Os :=
  ⟨(Esp32If.getHostInterfaces count ifs).map fun i => i.addr, openOk, threadOk⟩

end Uecho.HostServer
