import Verif.Spec.HostServer
import Verif.Props.Interface
import Verif.Props.Esp32If
import Verif.Props.Server
/-! # C161: where a node can be reached -/
namespace Uecho.Props
open Uecho Uecho.Spec Uecho.Lemmas Uecho.Net Uecho.Server Uecho.HostServer

theorem listed_some {i : IfAddr} {n : NetIf} (h : listed i = some n) :
    ∃ a, n.addr = ntoa a ∧ i.addr = some (.in4 a) ∧ (∃ k, i.mask = some (.in4 k)) ∧ i.up = true ∧ i.loopback = false := by
  unfold listed at h
  split at h
  · rename_i a k ha hk
    split at h
    · rename_i hc
      cases h
      simp only [Bool.and_eq_true, Bool.not_eq_true'] at hc
      exact ⟨a, rfl, ha, ⟨k, hk⟩, hc.1, hc.2⟩
    · cases h
  · cases h

theorem mem_hostOs (l : List IfAddr) (o t : Kind → String → Bool) (x : String) :
    x ∈ (hostOs (some l) o t).ifaces ↔ ∃ a, x = ntoa a ∧ HasAddr l a := by
  show x ∈ (getHostInterfaces (some l)).map _ ↔ _
  rw [(C112_interfaces l).1]
  simp only [List.mem_map, List.mem_filterMap]
  constructor
  · rintro ⟨n, ⟨i, hi, hl⟩, rfl⟩
    obtain ⟨a, h1, h2⟩ := listed_some hl
    exact ⟨a, h1, i, hi, h2⟩
  · rintro ⟨a, rfl, i, hi, h1, ⟨k, h2⟩, h3, h4⟩
    refine ⟨⟨i.name, ntoa a, ntoa k⟩, ⟨i, hi, ?_⟩, rfl⟩
    unfold listed
    rw [h1, h2]
    simp [h3, h4]

/-- **C161**. A node starts just if the host has an IPv4 address in use other than that of the loopback interface, and grants sockets and threads for each
such address; it can then be reached, by requests and by notifications, at exactly these addresses. -/
theorem C161_reached (l : List IfAddr) (o t : Kind → String → Bool) (s : Server) (hu : s.udpEnabled = true)
    (hobs : ∀ x ∈ s.observers, x.handler.isSome ∧ x.obj.isSome) :
    ((start (hostOs (some l) o t) s).2 = true ↔ (∃ a, HasAddr l a) ∧ ∀ k a, HasAddr l a → o k (ntoa a) = true ∧ t k (ntoa a) = true) ∧
    ((start (hostOs (some l) o t) s).2 = true → ∀ a, (HasAddr l a ↔ HeardAt (start (hostOs (some l) o t) s).1.mcast a) ∧
      (HasAddr l a ↔ HeardAt (start (hostOs (some l) o t) s).1.udp a)) := by
  obtain ⟨c1, c2, -⟩ := C78_start (hostOs (some l) o t) s
  have hm := mem_hostOs l o t
  have hne : (hostOs (some l) o t).ifaces ≠ [] ↔ ∃ a, HasAddr l a := by
    constructor
    · intro h
      obtain ⟨x, xs, hx⟩ := List.exists_cons_of_ne_nil h
      obtain ⟨a, -, ha⟩ := (hm x).1 (by rw [hx]; exact List.mem_cons_self)
      exact ⟨a, ha⟩
    · rintro ⟨a, ha⟩ h
      have := (hm (ntoa a)).2 ⟨a, rfl, ha⟩
      rw [h] at this
      cases this
  refine ⟨?_, fun h a => ?_⟩
  · rw [c1]
    constructor
    · rintro ⟨-, h1, h2⟩
      refine ⟨hne.1 h1.1, fun k a ha => ?_⟩
      cases k with
      | mcast => exact h1.2 _ ((hm _).2 ⟨a, rfl, ha⟩)
      | udp => exact (h2 hu).2 _ ((hm _).2 ⟨a, rfl, ha⟩)
    · rintro ⟨h1, h2⟩
      have g : ∀ k, Granted (hostOs (some l) o t) k := fun k => ⟨hne.2 h1, fun x hx => by
        obtain ⟨a, rfl, ha⟩ := (hm x).1 hx
        exact h2 k a ha⟩
      exact ⟨hobs, g .mcast, fun _ => g .udp⟩
  · have hr : ∀ obs, HasAddr l a ↔ HeardAt (receivers (hostOs (some l) o t) obs) a := by
      intro obs
      constructor
      · intro ha
        exact ⟨⟨some (ntoa a), true, obs⟩, List.mem_map.2 ⟨ntoa a, (hm _).2 ⟨a, rfl, ha⟩, rfl⟩, rfl, rfl⟩
      · rintro ⟨x, hx, h1, -⟩
        obtain ⟨y, hy, rfl⟩ := List.mem_map.1 hx
        obtain ⟨b, rfl, hb⟩ := (hm y).1 hy
        have : ntoa b = ntoa a := by simpa using h1
        rw [← (C112_address_text b a).1.1 this]
        exact hb
    rw [(c2 h).1, (c2 h).2.1, if_pos hu]
    exact ⟨hr _, hr _⟩

/-- An Ethernet interface, a tunnel and the loopback interface. -/
def ethernet : IfAddr := ⟨"eth0", some (.in4 0xC0A80105), some (.in4 0xFFFFFF00), true, false, false⟩
def tunnel : IfAddr := ⟨"tun0", some (.in4 0x0A080001), some (.in4 0xFFFFFFFF), true, false, true⟩
def loopIf : IfAddr := ⟨"lo", some (.in4 0x7F000001), some (.in4 0xFF000000), true, true, false⟩
/-- The server of a node, not started. -/
def idleServer : Server := ⟨[], [], [⟨some 0, some 0⟩], true⟩
def allOk : Kind → String → Bool := fun _ _ => true

example : (start (hostOs (some [loopIf, ethernet, tunnel]) allOk allOk) idleServer).2 = true ∧
    ((start (hostOs (some [loopIf, ethernet, tunnel]) allOk allOk) idleServer).1.udp.map fun x => x.socket) = [some "192.168.1.5", some "10.8.0.1"] := by
  decide +kernel

/-- **C161**. A running node takes the datagrams that come from the addresses of its host, and only those, for its own. -/
theorem C161_itself (l : List IfAddr) (o t : Kind → String → Bool) (s : Server) (h : (start (hostOs (some l) o t) s).2 = true) (a : BitVec 32) :
    isBoundAddress (start (hostOs (some l) o t) s).1 (ntoa a) = true ↔ HasAddr l a := by
  rw [((C78_start (hostOs (some l) o t) s).2.1 h).2.2.2.1, mem_hostOs]
  constructor
  · rintro ⟨b, hb, hab⟩
    rw [(C112_address_text a b).1.1 hb]
    exact hab
  · exact fun ha => ⟨a, rfl, ha⟩

example : HasAddr [loopIf, ethernet] 0xC0A80105 := ⟨ethernet, by simp, rfl, ⟨_, rfl⟩, rfl, rfl⟩

theorem lan_some {i : IfAddr} {p : BitVec 32 × BitVec 32} (h : lan i = some p) :
    i.addr = some (.in4 p.1) ∧ (∃ k, i.mask = some (.in4 k)) ∧ i.up = true ∧ i.loopback = false ∧ i.pointToPoint = false := by
  unfold lan at h
  split at h
  · rename_i a k ha hk
    split at h
    · rename_i hc
      cases h
      simp only [Bool.and_eq_true, Bool.not_eq_true'] at hc
      exact ⟨ha, ⟨k, hk⟩, hc.1.1, hc.1.2, hc.2⟩
    · cases h
  · cases h

theorem bestAddr_mem (l : List (BitVec 32 × BitVec 32)) (r : BitVec 32) (h : l ≠ []) : ∃ p ∈ l, bestAddr l r = ntoa p.1 := by
  unfold bestAddr
  split
  · rename_i p hp
    exact ⟨p, List.mem_of_find?_eq_some hp, rfl⟩
  · rename_i p h1 hp
    exact ⟨p, (List.mem_filter.1 (List.mem_of_getLast? hp)).1, rfl⟩
  · rename_i p h1 h2 hp
    exact ⟨p, (List.mem_filter.1 (List.mem_of_getLast? hp)).1, rfl⟩
  · rename_i h1 h2 h3
    exfalso
    rw [List.getLast?_eq_none_iff] at h2 h3
    obtain ⟨p, ps, rfl⟩ := List.exists_cons_of_ne_nil h
    cases hp : linkLocal p with
    | true => have : p ∈ ([] : List (BitVec 32 × BitVec 32)) := by rw [← h3]; simp [hp]
              cases this
    | false => have : p ∈ ([] : List (BitVec 32 × BitVec 32)) := by rw [← h2]; simp [hp]
               cases this

/-- **C161** (partial: IPv4 only, and an interface that is not a point-to-point connection). The address that is named as the receiver of a datagram is one at
which the node can be reached. -/
theorem C161_named_partial (l : List IfAddr) (o t : Kind → String → Bool) (s : Server) (h : (start (hostOs (some l) o t) s).2 = true)
    (h4 : Ipv4Only l) (hl : ∃ a, HasLanAddr l a) (r : BitVec 32) (m : Heap.Mem) (hm : Sound m) :
    ∃ b x m', selectAddr (some l) r m = .ok (some (b, x), m') ∧ isBoundAddress (start (hostOs (some l) o t) s).1 x = true := by
  obtain ⟨b, m', e, -⟩ := C113_local_address_partial l r h4 m hm
  obtain ⟨a, i, hi, h1, ⟨k, h2⟩, h3, h5, h6⟩ := hl
  have hne : l.filterMap lan ≠ [] := by
    intro hc
    have : (a, k) ∈ l.filterMap lan := List.mem_filterMap.2 ⟨i, hi, by unfold lan; rw [h1, h2]; simp [h3, h5, h6]⟩
    rw [hc] at this
    cases this
  obtain ⟨p, hp, hb⟩ := bestAddr_mem (l.filterMap lan) r hne
  obtain ⟨j, hj, hlj⟩ := List.mem_filterMap.1 hp
  obtain ⟨g1, g2, g3, g4, -⟩ := lan_some hlj
  rw [hb] at e
  exact ⟨b, _, m', e, (C161_itself l o t s h p.1).2 ⟨j, hj, g1, g2, g3, g4⟩⟩

example : Ipv4Only [ethernet, tunnel] ∧ HasLanAddr [ethernet, tunnel] 0xC0A80105 := by
  refine ⟨?_, ethernet, by simp, rfl, ⟨_, rfl⟩, rfl, rfl, rfl⟩
  intro i hi _ _ _ a k ha hk
  simp only [List.mem_cons, List.not_mem_nil, or_false] at hi
  rcases hi with rfl | rfl <;> cases ha <;> cases hk <;> exact ⟨⟨_, rfl⟩, _, rfl⟩

/-- **C161** violated: a node that has only point-to-point connections can be reached, but the address that is named as the receiver of what it hears is the loopback
address, at which it cannot be reached. -/
theorem C161_named_violated (l : List IfAddr) (o t : Kind → String → Bool) (s : Server) (h : (start (hostOs (some l) o t) s).2 = true)
    (h4 : Ipv4Only l) (hl : ¬ ∃ a, HasLanAddr l a) (hloop : ¬ HasAddr l 0x7F000001) (r : BitVec 32) (m : Heap.Mem) (hm : Sound m) :
    ∃ b m', selectAddr (some l) r m = .ok (some (b, "127.0.0.1"), m') ∧ isBoundAddress (start (hostOs (some l) o t) s).1 "127.0.0.1" = false := by
  obtain ⟨b, m', e, -⟩ := C113_local_address_partial l r h4 m hm
  have hnil : l.filterMap lan = [] := by
    rw [List.filterMap_eq_nil_iff]
    intro i hi
    cases hli : lan i with
    | none => rfl
    | some p =>
      obtain ⟨g1, g2, g3, g4, g5⟩ := lan_some hli
      exact absurd ⟨p.1, i, hi, g1, g2, g3, g4, g5⟩ hl
  rw [hnil] at e
  refine ⟨b, m', e, ?_⟩
  have hx : ntoa 0x7F000001 = "127.0.0.1" := by decide +kernel
  cases hb : isBoundAddress (start (hostOs (some l) o t) s).1 "127.0.0.1" with
  | false => rfl
  | true =>
    rw [← hx] at hb
    exact absurd ((C161_itself l o t s h _).1 hb) hloop

example : (start (hostOs (some [tunnel]) allOk allOk) idleServer).2 = true ∧ (¬ ∃ a, HasLanAddr [tunnel] a) ∧ ¬ HasAddr [tunnel] 0x7F000001 := by
  refine ⟨by decide +kernel, ?_, ?_⟩
  · rintro ⟨a, i, hi, -, -, -, -, h⟩
    rw [List.mem_singleton.1 hi] at h
    cases h
  · rintro ⟨i, hi, h, -⟩
    rw [List.mem_singleton.1 hi] at h
    exact absurd h (by decide)

/-- **C161** violated: on a host that has only the loopback interface no node starts, so programs on one host cannot talk to each other. -/
theorem C161_loopback_violated (l : List IfAddr) (o t : Kind → String → Bool) (s : Server) (h : ∀ i ∈ l, i.up = true → i.loopback = true) :
    (start (hostOs (some l) o t) s).2 = false ∧ ∀ a, isBoundAddress (start (hostOs (some l) o t) s).1 a = false := by
  have hf : (start (hostOs (some l) o t) s).2 = false := by
    cases hb : (start (hostOs (some l) o t) s).2 with
    | false => rfl
    | true =>
      obtain ⟨-, hg, -⟩ := (C78_start _ _).1.1 hb
      obtain ⟨x, xs, hx⟩ := List.exists_cons_of_ne_nil hg.1
      obtain ⟨a, -, i, hi, -, -, h1, h2⟩ := (mem_hostOs l o t x).1 (by rw [hx]; exact List.mem_cons_self)
      rw [h i hi h1] at h2
      cases h2
  exact ⟨hf, ((C78_start _ _).2.2.1 hf).2.2.2.1⟩

example : ∀ i ∈ [loopIf], i.up = true → i.loopback = true := by decide

/-- **C161**, on ESP32: the address that is named as the receiver of a datagram is one at which a running node can be reached. -/
theorem C161_esp32 (count : Nat) (ifs : List Esp32If.EspIf) (o t : Kind → String → Bool) (s : Server)
    (h : (start (espOs count ifs o t) s).2 = true) (r : BitVec 32) :
    isBoundAddress (start (espOs count ifs o t) s).1 (Esp32If.selectAddr count ifs r) = true := by
  obtain ⟨c1, c2, -⟩ := C78_start (espOs count ifs o t) s
  rw [(c2 h).2.2.2.1]
  have hne : (Esp32If.getHostInterfaces count ifs).map (fun i => i.addr) ≠ [] := ((c1.1 h).2.1).1
  show Esp32If.selectAddr count ifs r ∈ (Esp32If.getHostInterfaces count ifs).map fun i => i.addr
  unfold Esp32If.selectAddr
  cases hg : Esp32If.getHostInterfaces count ifs with
  | nil => rw [hg] at hne; exact absurd rfl hne
  | cons i is => simp

example : (start (espOs 1 [⟨some (0xC0A80105, 0xFFFFFF00), true, some "WIFI_STA_DEF"⟩] allOk allOk) idleServer).2 = true := by decide +kernel

end Uecho.Props
