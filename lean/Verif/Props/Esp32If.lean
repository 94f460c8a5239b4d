import Verif.Spec.Esp32If
import Verif.Lemmas.Interface
/-! # C156: the addresses of this host, on ESP32 -/
namespace Uecho.Props
open Uecho Uecho.Spec Uecho.Lemmas Uecho.Net Uecho.Esp32If

theorem stored_loopback (a : BitVec 32) : stored a = ipaddrLoopback ↔ a = 0x0100007F#32 := by
  have h1 : ∀ a : BitVec 32, stored (stored a) = a := by
    intro a
    apply BitVec.eq_of_getLsbD_eq
    intro i hi
    unfold stored
    simp only [BitVec.getLsbD_append, BitVec.getLsbD_extractLsb']
    have : i < 8 ∨ (8 ≤ i ∧ i < 16) ∨ (16 ≤ i ∧ i < 24) ∨ (24 ≤ i ∧ i < 32) := by omega
    rcases this with h | h | h | h
    · have : ∃ k : Fin 8, i = k.val := ⟨⟨i, h⟩, rfl⟩
      obtain ⟨k, rfl⟩ := this
      revert k; simp [Fin.forall_fin_succ]
    · have : ∃ k : Fin 8, i = k.val + 8 := ⟨⟨i - 8, by omega⟩, by simp; omega⟩
      obtain ⟨k, rfl⟩ := this
      revert k; simp [Fin.forall_fin_succ]
    · have : ∃ k : Fin 8, i = k.val + 16 := ⟨⟨i - 16, by omega⟩, by simp; omega⟩
      obtain ⟨k, rfl⟩ := this
      revert k; simp [Fin.forall_fin_succ]
    · have : ∃ k : Fin 8, i = k.val + 24 := ⟨⟨i - 24, by omega⟩, by simp; omega⟩
      obtain ⟨k, rfl⟩ := this
      revert k; simp [Fin.forall_fin_succ]
  constructor
  · intro h
    rw [← h1 a, h]
    decide
  · rintro rfl; decide

theorem espLoop_eq (is : List EspIf) (h : ∀ i ∈ is, ¬ EspHas i 0x7F000001#32 ∧ ¬ EspHas i 0x0100007F#32) : ∀ l, Esp32If.ifLoop is l = l ++ is.filterMap espListed := by
  induction is with
  | nil => intro l; simp [Esp32If.ifLoop]
  | cons i is ih =>
    intro l
    have ih := ih fun j hj => h j (List.mem_cons_of_mem _ hj)
    obtain ⟨h1, h2⟩ := h i (by simp)
    rw [Esp32If.ifLoop, List.filterMap_cons]
    cases hi : i.info with
    | none =>
      have : espListed i = none := by unfold espListed; rw [hi]
      simp only [this, ih]
    | some p =>
      obtain ⟨ip, mask⟩ := p
      have n1 : ip ≠ 0x7F000001#32 := fun hx => h1 ⟨mask, by rw [hi, hx]⟩
      have n2 : stored ip ≠ ipaddrLoopback := fun hx => h2 ⟨mask, by rw [hi, (stored_loopback ip).1 hx]⟩
      have hs : (stored ip == ipaddrLoopback) = false := by simpa using n2
      have : espListed i = if i.up then some ⟨i.key.getD "", ntoa ip, ntoa mask⟩ else none := by
        unfold espListed; rw [hi]; simp [n1]
      rw [this]
      simp only [hs, Bool.or_false]
      cases i.up with
      | true => simp [ih]
      | false => simp [ih]

/-- **C156** (partial: no interface has the address 127.0.0.1 or 1.0.0.127). The list of interfaces on ESP32 holds exactly the interfaces that are in
use and have an address, in their order. -/
theorem C156_interfaces_partial (ifs : List EspIf) (h : ∀ i ∈ ifs, ¬ EspHas i 0x7F000001#32 ∧ ¬ EspHas i 0x0100007F#32) :
    Esp32If.getHostInterfaces ifs.length ifs = ifs.filterMap espListed := by
  rw [Esp32If.getHostInterfaces, List.take_length, espLoop_eq ifs h, List.nil_append]

/-- **C156 violated: the loopback interface.** Wherever it is, an interface in use with the address 127.0.0.1 is listed: the address in the byte order
of the network is compared with the constant in that of the processor. -/
theorem C156_loopback_violated (ifs : List EspIf) (i : EspIf) (hi : i ∈ ifs) (hu : i.up = true) (ha : EspHas i 0x7F000001#32) :
    ∃ x ∈ Esp32If.getHostInterfaces ifs.length ifs, x.addr = "127.0.0.1" := by
  rw [Esp32If.getHostInterfaces, List.take_length]
  have keep : ∀ (is : List EspIf) (l : List NetIf), ∀ x ∈ l, x ∈ Esp32If.ifLoop is l := by
    intro is
    induction is with
    | nil => intro l x hx; exact hx
    | cons j is ih =>
      intro l x hx
      rw [Esp32If.ifLoop]
      split
      · exact ih l x hx
      · split
        · exact ih l x hx
        · exact ih _ x (List.mem_append_left _ hx)
  have gen : ∀ (is : List EspIf) (l : List NetIf), i ∈ is → ∃ x ∈ Esp32If.ifLoop is l, x.addr = "127.0.0.1" := by
    intro is
    induction is with
    | nil => intro l h; cases h
    | cons j is ih =>
      intro l h
      rcases List.mem_cons.1 h with rfl | h
      · obtain ⟨mask, hm⟩ := ha
        rw [Esp32If.ifLoop, hm]
        have : (i.up == false || stored 0x7F000001#32 == ipaddrLoopback) = false := by rw [hu]; decide
        simp only [this, Bool.false_eq_true, if_false]
        exact ⟨⟨i.key.getD "", ntoa 0x7F000001#32, ntoa mask⟩, keep is _ _ (List.mem_append_right _ (List.mem_singleton.2 rfl)), (by decide +kernel : ntoa 0x7F000001#32 = "127.0.0.1")⟩
      · rw [Esp32If.ifLoop]
        split
        · exact ih l h
        · split
          · exact ih l h
          · exact ih _ h
  exact gen ifs [] hi

/-- **C156 violated: 1.0.0.127.** An interface in use with this address, which is an address like others, is not listed. -/
theorem C156_reversed_violated (i : EspIf) (ha : EspHas i 0x0100007F#32) (hu : i.up = true) : espListed i ≠ none ∧ Esp32If.getHostInterfaces 1 [i] = [] := by
  obtain ⟨mask, hm⟩ := ha
  constructor
  · unfold espListed
    rw [hm, hu]
    simp
  · simp only [Esp32If.getHostInterfaces, List.take, Esp32If.ifLoop, hm]
    have : stored 0x0100007F#32 = ipaddrLoopback := by decide
    rw [this]
    simp

/-- **C156** (partial: as above). The address named for a sender is the address of the first interface listed; if there is none, 127.0.0.1. So it is an
address of this host, and with one interface the right one. -/
theorem C156_select_partial (ifs : List EspIf) (h : ∀ i ∈ ifs, ¬ EspHas i 0x7F000001#32 ∧ ¬ EspHas i 0x0100007F#32) (r : BitVec 32) :
    Esp32If.selectAddr ifs.length ifs r = match (ifs.filterMap espListed).head? with | some x => x.addr | none => "127.0.0.1" := by
  unfold Esp32If.selectAddr
  rw [C156_interfaces_partial ifs h]
  cases ifs.filterMap espListed with
  | nil => rfl
  | cons x xs => simp

/-- **C156 violated: the network of the sender.** On a host with two networks, an access point and a station, a datagram from the second one is said
to have come to the address on the first. -/
theorem C156_select_violated : ∃ (ifs : List EspIf) (r : BitVec 32), (∀ i ∈ ifs, ¬ EspHas i 0x7F000001#32 ∧ ¬ EspHas i 0x0100007F#32) ∧
    espNear ifs r = ["192.168.1.5"] ∧ Esp32If.selectAddr ifs.length ifs r = "192.168.4.1" := by
  refine ⟨[⟨some (0xC0A80401, 0xFFFFFF00), true, some "WIFI_AP_DEF"⟩, ⟨some (0xC0A80105, 0xFFFFFF00), true, some "WIFI_STA_DEF"⟩], 0xC0A80107, ?_,
    by decide +kernel, by decide +kernel⟩
  intro i hi
  simp only [List.mem_cons, List.not_mem_nil, or_false] at hi
  rcases hi with rfl | rfl <;> simp [EspHas]

/-- non-vacuity: an interface in use, one that is down, one without an address -/
example : let ifs : List EspIf := [⟨none, true, none⟩, ⟨some (0xC0A80401, 0xFFFFFF00), false, some "WIFI_AP_DEF"⟩,
      ⟨some (0xC0A80105, 0xFFFFFF00), true, some "WIFI_STA_DEF"⟩]
    (∀ i ∈ ifs, ¬ EspHas i 0x7F000001#32 ∧ ¬ EspHas i 0x0100007F#32) ∧
    Esp32If.getHostInterfaces 3 ifs = [⟨"WIFI_STA_DEF", "192.168.1.5", "255.255.255.0"⟩] ∧ Esp32If.selectAddr 3 ifs 0x0A000001 = "192.168.1.5" := by
  refine ⟨?_, by decide +kernel, by decide +kernel⟩
  intro i hi
  simp only [List.mem_cons, List.not_mem_nil, or_false] at hi
  rcases hi with rfl | rfl | rfl <;> simp [EspHas]

/-- non-vacuity of the violations -/
example : EspHas ⟨some (0x7F000001#32, 0xFF000000), true, some "lo"⟩ 0x7F000001#32 ∧ EspHas ⟨some (0x0100007F#32, 0xFF000000), true, some "en"⟩ 0x0100007F#32 :=
  ⟨⟨_, rfl⟩, ⟨_, rfl⟩⟩

end Uecho.Props
