import Verif.Model.Interface
/-!
# Specification vocabulary for the addresses of this host
-/
namespace Uecho.Spec
open Uecho Uecho.Net

/-- What the library should list for an entry of the operating system: IPv4, in use, not the loopback interface, with a netmask. -/
def listed (i : IfAddr) : Option NetIf :=
  match i.addr, i.mask with
  | some (.in4 a), some (.in4 k) => if i.up && !i.loopback then some ⟨i.name, ntoa a, ntoa k⟩ else none
  | _, _ => none

/-- An address and a netmask, by which hosts on the local network are reached. -/
def lan (i : IfAddr) : Option (BitVec 32 × BitVec 32) :=
  match i.addr, i.mask with
  | some (.in4 a), some (.in4 k) => if i.up && !i.loopback && !i.pointToPoint then some (a, k) else none
  | _, _ => none

/-- No entry that is in use has an address of another family. -/
def Ipv4Only (l : List IfAddr) : Prop :=
  ∀ i ∈ l, i.up = true → i.loopback = false → i.pointToPoint = false → ∀ a k, i.addr = some a → i.mask = some k →
    (∃ x, a = .in4 x) ∧ ∃ x, k = .in4 x

/-- The sender `r` is on the network of the address. -/
def onNet (r : BitVec 32) (p : BitVec 32 × BitVec 32) : Bool := p.1 &&& p.2 == r &&& p.2

/-- The network of the address is 169.254.0.0. -/
def linkLocal (p : BitVec 32 × BitVec 32) : Bool := p.1 &&& p.2 == 0xa9fe0000

/-- The address of this host to be named for a datagram from `r`: the first on the network of the sender; if there is none, the last one that is not link-local;
if there is none, the last one; without a network the loopback address. -/
def bestAddr (l : List (BitVec 32 × BitVec 32)) (r : BitVec 32) : String :=
  match l.find? (onNet r), (l.filter fun p => !linkLocal p).getLast?, (l.filter linkLocal).getLast? with
  | some p, _, _ => ntoa p.1
  | none, some p, _ => ntoa p.1
  | none, none, some p => ntoa p.1
  | none, none, none => "127.0.0.1"

/-- The value of a decimal number. -/
def decimal (ds : List (Fin 10)) : Nat := ds.foldl (fun n d => 10 * n + d.val) 0

/-- Its digits as text. -/
def digitText (ds : List (Fin 10)) : List Byte := ds.map fun d => BitVec.ofNat 8 (0x30 + d.val)

end Uecho.Spec
