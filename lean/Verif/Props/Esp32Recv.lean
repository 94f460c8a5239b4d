import Verif.Model.Esp32Recv
import Verif.Props.Receive
import Verif.Props.Interface
import Verif.Props.Light
/-!
# C164: receiving on ESP32

Specification: `Spec/Receive.lean` (`handled`, `Ipv4Text`); a host of an IPv4 network is a `BitVec 32`.
-/
namespace Uecho.Props
open Uecho Uecho.Spec Uecho.Lemmas Uecho.Net Uecho.Esp32If

theorem esp_list_text : ∀ (is : List EspIf) (l : List NetIf), (∀ x ∈ l, ∃ a, x.addr = ntoa a) → ∀ x ∈ Esp32If.ifLoop is l, ∃ a, x.addr = ntoa a
  | [], l, h => by simpa [Esp32If.ifLoop] using h
  | i :: is, l, h => by
      unfold Esp32If.ifLoop
      cases hi : i.info with
      | none => exact esp_list_text is l h
      | some y =>
        obtain ⟨ip, mask⟩ := y
        simp only
        split
        · exact esp_list_text is l h
        · refine esp_list_text is _ ?_
          intro x hx
          rcases List.mem_append.1 hx with hx | hx
          · exact h x hx
          · simp only [List.mem_singleton] at hx; subst hx; exact ⟨ip, rfl⟩

theorem ntoa_text (a : BitVec 32) : Ipv4Text (ntoa a) := by
  have := (C112_address_text a a).2
  unfold Ipv4Text
  rwa [String.length_toList] at this

theorem esp_select_text (count : Nat) (ifs : List EspIf) (r : BitVec 32) : Ipv4Text (Esp32If.selectAddr count ifs r) := by
  unfold Esp32If.selectAddr
  simp only
  split
  · unfold Ipv4Text; decide
  · split
    · unfold Ipv4Text; decide
    · rename_i i l heq
      obtain ⟨a, ha⟩ := esp_list_text (ifs.take count) [] (by simp) i (by
        have : Esp32If.getHostInterfaces count ifs = i :: l := heq
        unfold Esp32If.getHostInterfaces at this
        rw [this]; simp)
      rw [ha]; exact ntoa_text a

theorem esp_action_eq {σ ε : Type} (count : Nat) (ifs : List EspIf) (handle : σ → Message → Res (σ × List ε)) (s : σ) (d : List Byte)
    (a : BitVec 32) :
    Esp32Recv.action count ifs handle s d (.in4 a) = Recv.action handle s d (some (ntoa a)) (some (Esp32If.selectAddr count ifs a)) := by
  unfold Esp32Recv.action Recv.action
  have : Esp32Recv.recv count ifs d (.in4 a) = Recv.recv d (some (ntoa a)) (some (Esp32If.selectAddr count ifs a)) := by
    unfold Esp32Recv.recv Recv.recv
    by_cases h : d.take 512 = []
    · simp only [if_pos h]; rfl
    · simp only [if_neg h]; rfl
  rw [this]

/-- **C164, partial** (datagrams of at most 110 bytes, see C58). Whatever the interfaces, a node on ESP32 handles a datagram of any IPv4 host as
the theorems about received datagrams say, under the address of that host. -/
theorem C164_node_partial (count : Nat) (ifs : List EspIf) (e : Endian) (n : Node) (d : List Byte) (hd : d.length ≤ 110) (a : BitVec 32) :
    ∃ l, Esp32Recv.action count ifs (Recv.nodeHandle e) n d (.in4 a) = n.receive e (some l) (some (ntoa a)) d :=
  ⟨_, by rw [esp_action_eq]; exact C88_node_partial e n d _ _ hd (ntoa_text a) (esp_select_text count ifs a)⟩

/-- **C164, partial.** The same for a controller. -/
theorem C164_controller_partial (count : Nat) (ifs : List EspIf) (e : Endian) (db : Db) (orc : Oracle) (c : Ctrl) (h : Heap) (d : List Byte)
    (hd : d.length ≤ 110) (a : BitVec 32) :
    ∃ l, Esp32Recv.action count ifs (Recv.ctrlHandle e db orc) (c, h) d (.in4 a) =
      (c.receive e db orc h (some l) (some (ntoa a)) d >>= fun x => .ok ((x.1, x.2.1), x.2.2)) :=
  ⟨_, by rw [esp_action_eq]; exact C88_controller_partial e db orc c h d _ _ hd (ntoa_text a) (esp_select_text count ifs a)⟩

/-- **C164, partial.** All datagrams are handled in the order of arrival, whatever the interfaces are at each of them. -/
theorem C164_loop_partial (e : Endian) : ∀ (gs : List (Nat × List EspIf × List Byte × BitVec 32)) (n : Node),
    (∀ g ∈ gs, g.2.2.1.length ≤ 110) → ∃ hs : List Datagram,
      hs.map (fun g => (g.sender, g.bytes)) = gs.map (fun g => (ntoa g.2.2.2, g.2.2.1)) ∧
      Esp32Recv.loop (Recv.nodeHandle e) n (gs.map fun g => (g.1, g.2.1, g.2.2.1, .in4 g.2.2.2)) = handled e n hs
  | [], n, _ => ⟨[], rfl, rfl⟩
  | (count, ifs, b, a) :: gs, n, h => by
      obtain ⟨l, hl⟩ := C164_node_partial count ifs e n b (h _ (List.mem_cons_self ..)) a
      cases hr : n.receive e (some l) (some (ntoa a)) b with
      | ub =>
        refine ⟨⟨some l, ntoa a, b⟩ :: gs.map (fun g => ⟨none, ntoa g.2.2.2, g.2.2.1⟩), ?_, ?_⟩
        · simp [Function.comp_def]
        · simp only [List.map_cons, Esp32Recv.loop, handled, hl, hr]; rfl
      | ok x =>
        obtain ⟨n1, e1⟩ := x
        obtain ⟨hs, h1, h2⟩ := C164_loop_partial e gs n1 fun g hg => h g (List.mem_cons_of_mem _ hg)
        refine ⟨⟨some l, ntoa a, b⟩ :: hs, by simp [h1], ?_⟩
        simp only [List.map_cons, Esp32Recv.loop, handled, hl, hr, Res.bind_ok, h2]

/-- **C164.** Datagrams that are delivered have the same sender exactly if they come from the same host. -/
theorem C164_senders {count count2 : Nat} {ifs ifs2 : List EspIf} {d d2 : List Byte} {a b : BitVec 32} {p q : Recv.Packet} (hd : d ≠ [])
    (hd2 : d2 ≠ []) (h1 : Esp32Recv.recv count ifs d (.in4 a) = .ok p) (h2 : Esp32Recv.recv count2 ifs2 d2 (.in4 b) = .ok q) :
    p.data = d.take 512 ∧ p.remoteAddr = some (ntoa a) ∧ (p.remoteAddr = q.remoteAddr ↔ a = b) := by
  have key : ∀ {count : Nat} {ifs : List EspIf} {d : List Byte} {a : BitVec 32} {p : Recv.Packet}, d ≠ [] →
      Esp32Recv.recv count ifs d (.in4 a) = .ok p → p.data = d.take 512 ∧ p.remoteAddr = some (ntoa a) := by
    intro count ifs d a p hd h
    have hne : d.take 512 ≠ [] := by
      intro h
      rcases List.take_eq_nil_iff.1 h with h | h
      · omega
      · exact hd h
    unfold Esp32Recv.recv at h
    simp only [if_neg hne, Res.bind_eq_ok, Res.pure_eq, Res.ok.injEq] at h
    obtain ⟨_, _, rfl⟩ := h
    exact ⟨rfl, rfl⟩
  obtain ⟨k1, k2⟩ := key hd h1
  obtain ⟨_, k4⟩ := key hd2 h2
  refine ⟨k1, k2, ?_⟩
  rw [k2, k4, Option.some.injEq]
  exact (C112_address_text a b).1

/-- a board with one interface receives from 192.168.1.7 -/
example : ∃ p, Esp32Recv.recv 1 [⟨some (0xC0A80105#32, 0xFFFFFF00#32), true, some "WIFI_STA_DEF"⟩] [0x10#8, 0x81#8] (.in4 0xC0A80107#32) = .ok p ∧
    p.remoteAddr = some "192.168.1.7" := by
  exact ⟨⟨[0x10#8, 0x81#8], some "192.168.1.5", some "192.168.1.7"⟩, by decide +kernel, rfl⟩

/-- **C164.** The light on an ESP32, whatever happened to it: any IPv4 host that asks for its power is answered, at its address, with the byte
that was written last, or 30. -/
theorem C164_light (count : Nat) (ifs : List EspIf) {e : Endian} {db : Db} (hdb : (db.getObject 0x00#8 0x00#8).isSome)
    {junk junk1 junk2 rnd : Nat → Byte} {tid0 : BitVec 32} {verbose : Bool} {maker : CInt} {bound : List String} {n n' : Node} {es : List LightEvent}
    {b : Byte} (hm : Light.main e db junk junk1 junk2 rnd tid0 verbose maker bound = .ok (some n)) (hrun : lightRun e n es = .ok n')
    (hb : PowerAfter 0x30#8 es b) (a : BitVec 32) (tid : Byte × Byte) (src : Byte × Byte × Byte) :
    ∃ eff, Esp32Recv.action count ifs (Recv.nodeHandle e) n' (encode (powerRequest tid src 0x62#8 [])) (.in4 a) = .ok (n', eff) ∧
      allSent eff = [sends (some (ntoa a)) (powerReply tid src 0x72#8 [b])] := by
  obtain ⟨l, hl⟩ := C164_node_partial count ifs e n' (encode (powerRequest tid src 0x62#8 []))
    (by have : (encode (powerRequest tid src 0x62#8 [])).length = 14 := rfl
        omega) a
  rw [hl]
  exact C148_power_partial hdb hm hrun hb (some l) (ntoa a) tid src

/-- **C164, violated part.** A datagram of 112 bytes or more, and a datagram of a host that is not an IPv4 host, is undefined behaviour. -/
theorem C164_undefined_violated {σ ε : Type} (count : Nat) (ifs : List EspIf) (handle : σ → Message → Res (σ × List ε)) (s : σ) (d : List Byte) :
    (∀ a, 112 ≤ d.length → Esp32Recv.action count ifs handle s d (.in4 a) = .ub) ∧
    (∀ w, d ≠ [] → Esp32Recv.action count ifs handle s d (.in6 w) = .ub) := by
  refine ⟨fun a hd => ?_, fun w hd => ?_⟩
  · rw [esp_action_eq]
    unfold Recv.action; rw [recv_long hd]; rfl
  · have hne : d.take 512 ≠ [] := by
      intro h
      rcases List.take_eq_nil_iff.1 h with h | h
      · omega
      · exact hd h
    unfold Esp32Recv.action Esp32Recv.recv
    simp only [if_neg hne]; rfl

end Uecho.Props
