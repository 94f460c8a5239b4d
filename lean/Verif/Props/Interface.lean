import Verif.Lemmas.Interface
import Verif.Spec.Heap
/-! # C112–C114: the addresses of this host -/
namespace Uecho.Props
open Uecho Uecho.Spec Uecho.Lemmas Uecho.Net Uecho.Heap Uecho.Lemmas.Blocks

/-- A host as an operating system describes it: loopback, a wired network with its hardware, IPv4 and IPv6 entries, a wireless network that is down, a tunnel. -/
def hostEntries : List IfAddr :=
  [⟨"lo", some (.in4 0x7F000001), some (.in4 0xFF000000), true, true, false⟩,
   ⟨"eth0", some (.other 0x00155D01), none, true, false, false⟩,
   ⟨"eth0", some (.in4 0xC0A80105), some (.in4 0xFFFFFF00), true, false, false⟩,
   ⟨"wlan0", some (.in4 0xC0A80205), some (.in4 0xFFFFFF00), false, false, false⟩,
   ⟨"tun0", some (.in4 0x0A080001), some (.in4 0xFFFFFFFF), true, false, true⟩]

/-- The IPv6 address of the wired network. -/
def sixEntry : IfAddr := ⟨"eth0", some (.in6 0), some (.in6 0), true, false, false⟩

/-- **C112.** The list of interfaces holds, in the order of the operating system, exactly its IPv4 entries that have a netmask, are in use and are not the loopback
interface; on an error it is empty. -/
theorem C112_interfaces (l : List IfAddr) : getHostInterfaces (some l) = l.filterMap listed ∧ getHostInterfaces none = [] :=
  ⟨by rw [getHostInterfaces, ifLoop_eq]; rfl, rfl⟩

example : getHostInterfaces (some (hostEntries ++ [sixEntry])) = [⟨"eth0", "192.168.1.5", "255.255.255.0"⟩, ⟨"tun0", "10.8.0.1", "255.255.255.255"⟩] := by
  decide +kernel

/-- **C112.** Different IPv4 addresses have different texts, of at most 15 characters: nodes are told apart by these texts. -/
theorem C112_address_text (a b : BitVec 32) : (ntoa a = ntoa b ↔ a = b) ∧ (ntoa a).toList.length ≤ 15 :=
  ⟨⟨ntoa_inj, congrArg ntoa⟩, ntoa_short a⟩

example : ntoa 0xC0A80105 = "192.168.1.5" ∧ (ntoa 0xFFFFFFFF).toList.length = 15 := by decide +kernel

/-- **C113**, for a host whose entries in use are all IPv4: the address chosen for a datagram from `r` is the best one. It is a new string; every string made on the
way has been released, and no other memory is touched. Missing: hosts with IPv6 addresses, see `C113_ipv6_violated`. -/
theorem C113_local_address_partial (l : List IfAddr) (r : BitVec 32) (h : Ipv4Only l) (m : Mem) (hm : Sound m) : ∃ b m',
    selectAddr (some l) r m = .ok (some (b, bestAddr (l.filterMap lan) r), m') ∧ Sound m' ∧ m'.live.Perm (b :: m.live) := by
  obtain ⟨x, m', e, ho, q⟩ := selectAddr_triple l r m.live m ⟨.refl _, hm⟩
  rcases x with _ | ⟨b, s⟩
  · cases q
  · simp only [Option.map_some, Option.some.injEq] at q
    subst q
    rw [lanWord_eq h] at e
    exact ⟨b, m', e, ho.2, ho.1⟩

/-- A datagram from the own network, and one from elsewhere; a host without a network. -/
example : Ipv4Only hostEntries ∧ bestAddr (hostEntries.filterMap lan) 0xC0A80107 = "192.168.1.5" ∧ bestAddr (hostEntries.filterMap lan) 0x0A000007 = "192.168.1.5" ∧
    (∃ m', selectAddr (some hostEntries) 0xC0A80107 ⟨[], 0⟩ = .ok (some (0, "192.168.1.5"), m')) ∧ bestAddr [] 0x0A000007 = "127.0.0.1" := by
  refine ⟨?_, by decide +kernel, by decide +kernel, ⟨⟨[0], 1⟩, by decide +kernel⟩, by decide +kernel⟩
  simp [Ipv4Only, hostEntries]

/-- The choices in their order: the network of the sender, before a later network; another network before a link-local one; that one if it is all there is. -/
example : bestAddr [(0xC0A80105, 0xFFFFFF00), (0x0A000005, 0xFF000000)] 0xC0A80107 = "192.168.1.5" ∧
    bestAddr [(0xC0A80105, 0xFFFFFF00), (0xA9FE0105, 0xFFFF0000)] 0x0A000007 = "192.168.1.5" ∧
    bestAddr [(0xA9FE0105, 0xFFFF0000)] 0x0A000007 = "169.254.1.5" := by decide +kernel

/-- **C113 is violated** on a host with an IPv6 address whose flow label is 0, as it is in practice: the families of the entries are not compared, so this entry counts
as being on the network of every sender. If no entry before it is on the sender's network, the chosen address is 0.0.0.0, whichever IPv4 addresses the host has. -/
theorem C113_ipv6_violated (l l' : List IfAddr) (i : IfAddr) (r : BitVec 32) (h : Ipv4Only l) (hn : ∀ j ∈ l, ∀ p, lan j = some p → onNet r p = false)
    (ha : i.addr = some (.in6 0)) (hk : i.mask = some (.in6 0)) (hi : i.up = true ∧ i.loopback = false ∧ i.pointToPoint = false)
    (m : Mem) (hm : Sound m) : ∃ b m', selectAddr (some (l ++ i :: l')) r m = .ok (some (b, "0.0.0.0"), m') := by
  obtain ⟨x, m', e, ho, q⟩ := selectAddr_triple (l ++ i :: l') r m.live m ⟨.refl _, hm⟩
  rcases x with _ | ⟨b, s⟩
  · cases q
  · simp only [Option.map_some, Option.some.injEq] at q
    subst q
    refine ⟨b, m', ?_⟩
    rw [e]
    have hi' : lanWord i = some (0, 0) := by
      rcases i with ⟨n, a, k, u, lo, pp⟩
      obtain ⟨h1, h2, h3⟩ := hi
      cases ha; cases hk; cases h1; cases h2; cases h3
      rfl
    have hf : ((l ++ i :: l').filterMap lanWord).find? (onNet r) = some (0, 0) := by
      rw [List.filterMap_append, lanWord_eq h, List.find?_append, List.find?_eq_none.2, Option.none_or, List.filterMap_cons, hi', List.find?_cons]
      · have : onNet r (0, 0) = true := by simp [onNet]
        rw [this]
      · intro p hp
        obtain ⟨j, hj, ej⟩ := List.mem_filterMap.1 hp
        simp [hn j hj p ej]
    rw [bestAddr, hf]
    simp only
    rw [show ntoa 0 = "0.0.0.0" by decide +kernel]

example : (∃ m', selectAddr (some (hostEntries ++ [sixEntry])) 0x0A000007 ⟨[], 0⟩ = .ok (some (1, "0.0.0.0"), m')) ∧
    Ipv4Only hostEntries ∧ (∀ j ∈ hostEntries, ∀ p, lan j = some p → onNet 0x0A000007 p = false) := by
  refine ⟨⟨⟨[1], 2⟩, by decide +kernel⟩, by simp [Ipv4Only, hostEntries], ?_⟩
  intro j hj p hp
  have : ∀ j ∈ hostEntries, (lan j).all (fun p => onNet 0x0A000007 p == false) = true := by decide +kernel
  have := this j hj
  rw [hp] at this
  simpa using this

/-- **C114**, for a text that does not begin with a colon: it is taken for an IPv6 address iff there is a colon in it. NULL is not one. Missing: texts that begin with a
colon, see `C114_leading_colon_violated`. -/
theorem C114_is_ipv6_partial (c : Byte) (s : List Byte) (hc : c ≠ 0x3A#8) :
    isIpv6Address (some (c :: s)) = .ok (decide (0x3A#8 ∈ c :: s)) ∧ isIpv6Address (some []) = .ok false ∧ isIpv6Address none = .ok false :=
  ⟨isIpv6_eq s hc, rfl, rfl⟩

example : isIpv6Address (some [0x66#8, 0x65#8, 0x3A#8, 0x3A#8, 0x31#8]) = .ok true ∧ isIpv6Address (some [0x31#8, 0x2E#8, 0x32#8]) = .ok false := by decide +kernel

/-- **C114 is violated** for every text that begins with a colon: it is never taken for an IPv6 address. -/
theorem C114_leading_colon_violated (s : List Byte) : isIpv6Address (some (0x3A#8 :: s)) = .ok false ∧ getIpv6ScopeId (some (0x3A#8 :: s)) = .ok 0 := by
  have h : isIpv6Address (some (0x3A#8 :: s)) = .ok false := by
    have := strchr_found (a := []) (b := s) (c := 0x3A#8) (by simp)
    simp only [List.nil_append] at this
    rw [isIpv6Address, this]
    rfl
  exact ⟨h, by rw [getIpv6ScopeId, h]; rfl⟩

/-- `::1` and `::ffff:192.168.1.5` begin with a colon. -/
example : isIpv6Address (some [0x3A#8, 0x3A#8, 0x31#8]) = .ok false := by decide +kernel

/-- **C114.** The scope number of any text is defined, within 8 digits. -/
theorem C114_scope_defined (s : List Byte) (hs : NoZero s) : ∃ v, getIpv6ScopeId (some s) = .ok v ∧ -10 ^ 8 < v ∧ v < 10 ^ 8 := by
  obtain ⟨b, hb⟩ := isIpv6_defined s
  by_cases hp : 0x25#8 ∈ s
  · cases b with
    | false => exact ⟨0, by rw [getIpv6ScopeId, hb]; rfl, by omega, by omega⟩
    | true =>
      obtain ⟨a, t, e, ha⟩ := List.eq_append_cons_of_mem hp
      rw [scope_eq hs e ha hb]
      exact atoi_short (by simp; omega)
  · exact ⟨0, scope_no_percent hp, by omega, by omega⟩

example : getIpv6ScopeId (some [0x66#8, 0x3A#8, 0x25#8, 0x65#8, 0x74#8, 0x68#8, 0x30#8]) = .ok 0 := by decide +kernel

/-- **C114.** In an IPv6 address with a number of up to 8 digits after the first percent sign, the scope is this number; without a percent sign it is 0. -/
theorem C114_scope (c : Byte) (a : List Byte) (ds : List (Fin 10)) (hc : c ≠ 0x3A#8) (h6 : 0x3A#8 ∈ a) (hp : 0x25#8 ∉ c :: a) (hz : NoZero (c :: a)) :
    getIpv6ScopeId (some (c :: a)) = .ok 0 ∧ (ds.length ≤ 8 → getIpv6ScopeId (some (c :: a ++ 0x25#8 :: digitText ds)) = .ok (decimal ds)) := by
  refine ⟨scope_no_percent hp, fun hl => ?_⟩
  rw [scope_digits ds hc h6 hp hz, List.take_of_length_le hl]

example : getIpv6ScopeId (some [0x66#8, 0x65#8, 0x38#8, 0x30#8, 0x3A#8, 0x3A#8, 0x31#8, 0x25#8, 0x31#8, 0x32#8]) = .ok 12 := by decide +kernel

/-- **C114 is violated** for longer numbers: only the first 8 digits are read. -/
theorem C114_long_scope_violated (c : Byte) (a : List Byte) (d : Fin 10) (ds : List (Fin 10)) (hc : c ≠ 0x3A#8) (h6 : 0x3A#8 ∈ a) (hp : 0x25#8 ∉ c :: a)
    (hz : NoZero (c :: a)) (hd : d ≠ 0) (hl : 8 ≤ ds.length) : getIpv6ScopeId (some (c :: a ++ 0x25#8 :: digitText (d :: ds))) ≠ .ok (decimal (d :: ds)) := by
  rw [scope_digits (d :: ds) hc h6 hp hz]
  intro h
  have := decimal_take_lt hd hl
  simp only [Res.ok.injEq] at h
  omega

/-- `fe80::1%123456789` has the scope 12345678. -/
example : getIpv6ScopeId (some ([0x66#8, 0x65#8, 0x38#8, 0x30#8, 0x3A#8, 0x3A#8, 0x31#8] ++ 0x25#8 :: digitText [1, 2, 3, 4, 5, 6, 7, 8, 9])) = .ok 12345678 := by
  decide +kernel

end Uecho.Props
