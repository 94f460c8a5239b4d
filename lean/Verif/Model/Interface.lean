import Verif.Model.Heap
import Verif.Model.Strings
/-!
# src/uecho/net/interface_function.c and net_function.c: which addresses this host has

The parts for Unix with `getifaddrs`. What the operating system answers is the list of entries, or `none` for an error.
-/
namespace Uecho.Net
open Uecho Uecho.Heap

/-- `struct sockaddr`, by family: an IPv4 address; an IPv6 address, of which only the flow label (the four bytes at the place of the IPv4 address) is kept; another
family (for example `AF_PACKET`), of which only these four bytes are kept. In the byte order of the host. -/
inductive SockAddr where
  | in4 (a : BitVec 32)
  | in6 (flow : BitVec 32)
  | other (word : BitVec 32)
deriving DecidableEq, Repr

/-- `ntohl(((struct sockaddr_in*)a)->sin_addr.s_addr)`: the family is not looked at. -/
def SockAddr.sin : SockAddr → BitVec 32
  | .in4 a => a
  | .in6 w => w
  | .other w => w

/-- `struct ifaddrs`, with the three flags that are looked at. -/
structure IfAddr where
  name : String
  addr : Option SockAddr
  mask : Option SockAddr
  up : Bool
  loopback : Bool
  pointToPoint : Bool
deriving DecidableEq, Repr

/-- `inet_ntoa`, and `getnameinfo` with `NI_NUMERICHOST` for an IPv4 address. -/
def ntoa (a : BitVec 32) : String :=
  toString (a.toNat / 2 ^ 24) ++ "." ++ toString (a.toNat / 2 ^ 16 % 2 ^ 8) ++ "." ++ toString (a.toNat / 2 ^ 8 % 2 ^ 8) ++ "." ++ toString (a.toNat % 2 ^ 8)

/-- `getnameinfo` with the size of a `struct sockaddr`, which is too small for IPv6. -/
def getnameinfo : SockAddr → Option String
  | .in4 a => some (ntoa a)
  | _ => none

/-- `uEchoNetworkInterface` — src/uecho/net/interface.h:44-52, without the MAC address and the index. -/
structure NetIf where
  name : String
  addr : String
  mask : String
deriving DecidableEq, Repr

/-- The loop of `uecho_net_gethostinterfaces` — src/uecho/net/interface_function.c:242-279, with the list made so far. -/
def ifLoop : List IfAddr → List NetIf → List NetIf
  | [], l => l
  | i :: is, l =>
      match i.addr, i.mask with
      | some a, some k =>
          match a with
          | .in4 _ =>
              if !i.up then ifLoop is l
              else if i.loopback then ifLoop is l
              else
                match getnameinfo a with
                | none => ifLoop is l
                | some addr =>
                    match getnameinfo k with
                    | none => ifLoop is l
                    | some mask => ifLoop is (l ++ [⟨i.name, addr, mask⟩])
          | _ => ifLoop is l
      | _, _ => ifLoop is l

/-- `uecho_net_gethostinterfaces` — src/uecho/net/interface_function.c:221-283: the list; the result of the function is its size. -/
def getHostInterfaces (answer : Option (List IfAddr)) : List NetIf :=
  match answer with
  | none => []
  | some l => ifLoop l []

/-- `UECHO_NET_SOCKET_AUTO_IP_NET` — src/uecho/net/socket.h:50: 169.254.0.0. -/
def autoIpNet : BitVec 32 := 0xa9fe0000

/-- A string in place of another one: `if (p) free(p); p = uecho_strdup(inet_ntoa(a))`. -/
def replaceText (p : Option (Nat × String)) (a : BitVec 32) : H (Option (Nat × String)) := do
  freeOpt p
  let b ← malloc
  return some (b, ntoa a)

/-- The loop of `uecho_net_selectaddr` — src/uecho/net/interface_function.c:416-455; the two candidates. -/
def selectLoop (raddr : BitVec 32) : List IfAddr → Option (Nat × String) → Option (Nat × String) → H (Option (Nat × String) × Option (Nat × String))
  | [], cand, auto => pure (cand, auto)
  | i :: is, cand, auto =>
      match i.addr with
      | none => selectLoop raddr is cand auto
      | some a =>
          if !i.up then selectLoop raddr is cand auto
          else if i.loopback then selectLoop raddr is cand auto
          else if i.pointToPoint then selectLoop raddr is cand auto
          else
            match i.mask with
            | none => selectLoop raddr is cand auto
            | some k =>
                if a.sin &&& k.sin == raddr &&& k.sin then do
                  let cand ← replaceText cand a.sin
                  return (cand, auto)
                else if a.sin &&& k.sin == autoIpNet then do
                  let auto ← replaceText auto a.sin
                  selectLoop raddr is cand auto
                else do
                  let cand ← replaceText cand a.sin
                  selectLoop raddr is cand auto

/-- `uecho_net_selectaddr` — src/uecho/net/interface_function.c:405-472, for the sender `raddr`: a new string, or NULL. -/
def selectAddr (answer : Option (List IfAddr)) (raddr : BitVec 32) : H (Option (Nat × String)) :=
  match answer with
  | none => pure none
  | some l => do
      let r ← selectLoop raddr l none none
      match r with
      | (some c, auto) => do
          freeOpt auto
          return some c
      | (none, some a) => pure (some a)
      | (none, none) => do
          let b ← malloc
          return some (b, "127.0.0.1")

/-- `uecho_net_isipv6address` — src/uecho/net/net_function.c:43-52. -/
def isIpv6Address (addr : Option (List Byte)) : Res Bool :=
  match addr with
  | none => .ok false
  | some s => do
      let i ← Strings.strchr (some s) (some [0x3A#8]) 1
      return decide (0 < i)

/-- `atoi(3)`, decimal digits: the value of those at the start. -/
def digits : List Byte → Nat → Nat
  | [], n => n
  | c :: cs, n => if 0x30 ≤ c.toNat ∧ c.toNat ≤ 0x39 then digits cs (10 * n + (c.toNat - 0x30)) else n

/-- `atoi(3)`: a sign, then digits. -/
def signed (s : List Byte) : Int :=
  match s with
  | 0x2D :: cs => - (digits cs 0 : Int)
  | 0x2B :: cs => digits cs 0
  | cs => digits cs 0

/-- `atoi(3)`: white space, a sign, digits. A value outside `int` is undefined. -/
def atoi (s : List Byte) : Res Int :=
  let v := signed (s.dropWhile fun c => c == 0x20 || (decide (9 ≤ c.toNat) && decide (c.toNat ≤ 13)))
  if -2 ^ 31 ≤ v ∧ v < 2 ^ 31 then .ok v else .ub

/-- `uecho_net_getipv6scopeid` — src/uecho/net/net_function.c:58-75. -/
def getIpv6ScopeId (addr : Option (List Byte)) : Res Int := do
  let six ← isIpv6Address addr
  if !six then return 0
  match addr with
  | none => return 0
  | some s => do
      let i ← Strings.strchr (some s) (some [0x25#8]) 1
      if i < 0 then return 0
      let buf ← Strings.strncpyAt (List.replicate 9 0xFF#8) 0 (s.drop (i.toNat + 1)) 8
      let buf ← wrN buf 8 [0#8]
      let t ← Strings.cstr buf
      atoi t

end Uecho.Net
