import Verif.Lemmas.FdGrant
import Verif.Props.FdStart
/-!
# C103: what the operating system granted
-/
namespace Uecho.Props
open Uecho Uecho.Spec Uecho.Lemmas Uecho.Fd
open Uecho.Server (Kind)

/-- **C103.** A start that answers true was granted, by calls made during this start, a membership of the group for each receiver for the
group, and an address and a thread for each receiver; there is a receiver for the group. So a node does not say that it runs if the system
refused to let it join or to bind. -/
theorem C103_granted {os : Os} {v v' : Srv} {p p' : Proc} (h : Fd.start os v p = .ok (true, v', p')) :
    v'.mcast ≠ [] ∧ Granted os p p' v'.mcast.length (v'.mcast.length + v'.udp.length) (v'.mcast.length + v'.udp.length) := by
  unfold Fd.start at h
  rw [Res.bind_eq_ok] at h
  obtain ⟨⟨v0, p0⟩, h0, h⟩ := h
  have c0 := stop_calls h0
  cases stop_empty h0
  rw [Res.bind_eq_ok] at h
  obtain ⟨⟨ok1, m1, p1⟩, h1, h⟩ := h
  rw [Res.bind_eq_ok] at h
  obtain ⟨⟨ok2, u1, p2⟩, h2, h⟩ := h
  rw [Res.bind_eq_ok] at h
  obtain ⟨⟨ok3, m2, p3⟩, h3, h⟩ := h
  rw [Res.bind_eq_ok] at h
  obtain ⟨⟨ok4, u2, p4⟩, h4, h⟩ := h
  simp only at h1 h2 h3 h4
  by_cases hall : (ok1 && ok2 && v.obsOk && ok3 && ok4) = true
  · simp only [hall, if_true] at h
    cases h
    simp only [Bool.and_eq_true] at hall
    obtain ⟨⟨⟨⟨rfl, rfl⟩, -⟩, rfl⟩, rfl⟩ := hall
    obtain ⟨i1, r1⟩ := (openList_says h1).1 rfl
    have r3 := (startList_says h3 _ r1).1 rfl
    have len : ∀ {t : Bool} {l : List Sub} {as : List String}, Receives t l as → l.length = as.length := by
      intro t l as r
      have := congrArg List.length r.1
      simpa using this
    have g0 : Granted os p p0 0 0 0 := granted_later (by omega)
    have g1 := openList_granted h1
    have g3 := startList_granted h3
    rw [len r1] at g3
    simp only
    have e2 : Granted os p1 p2 0 u2.length 0 ∧ Granted os p3 p' 0 0 u2.length := by
      unfold openUdp at h2
      unfold startUdp at h4
      cases hu : v.udpEnabled with
      | true =>
        simp only [hu, if_true] at h2 h4
        obtain ⟨-, q1⟩ := (openList_says h2).1 rfl
        have q2 := (startList_says h4 _ q1).1 rfl
        have g2 := openList_granted h2
        have g4 := startList_granted h4
        rw [len q1] at g4
        rw [len q2]
        exact ⟨g2.weaken (by simp) (Nat.le_refl _) (by simp), g4⟩
      | false =>
        simp only [hu, Bool.false_eq_true, if_false] at h2 h4
        cases h2; cases h4
        exact ⟨granted_later (Nat.le_refl _), granted_later (Nat.le_refl _)⟩
    rw [len r3]
    refine ⟨fun he => i1 (by have := len r3; rw [he] at this; simpa using this.symm), ?_⟩
    exact ((((g0.trans g1).trans e2.1).trans g3).trans e2.2).weaken (by simp [joinsOf]) (by simp) (by simp)
  · simp only [hall, Bool.false_eq_true, if_false] at h
    rw [Res.bind_eq_ok] at h
    obtain ⟨⟨v3, p5⟩, h5, h⟩ := h
    cases h

/-- A start with two interfaces. -/
example : ∃ v p, Fd.start (workingOs ["192.168.0.2", "10.0.0.2"]) Fd.new (fdInit [0, 1, 2] .dfl).proc = .ok (true, v, p) ∧
    v.mcast.length = 2 ∧ v.udp.length = 2 := by
  obtain ⟨⟨ok, v, p⟩, h, hv⟩ := ends_ok (x := Fd.start (workingOs ["192.168.0.2", "10.0.0.2"]) Fd.new (fdInit [0, 1, 2] .dfl).proc)
    (f := fun r => r.1 && r.2.1.mcast.length == 2 && r.2.1.udp.length == 2) (by decide +kernel)
  simp only [Bool.and_eq_true, beq_iff_eq] at hv
  obtain ⟨⟨rfl, h1⟩, h2⟩ := hv
  exact ⟨v, p, h, h1, h2⟩

/-- **C103.** On a system that lets nobody join a group, no start answers true. -/
theorem C103_not_joined {os : Os} (hj : ∀ n, os.join n = false) {v v' : Srv} {p p' : Proc} {ok : Bool}
    (h : Fd.start os v p = .ok (ok, v', p')) : ok = false := by
  cases ok with
  | false => rfl
  | true =>
    obtain ⟨h1, h2⟩ := C103_granted h
    have := h2.join
    rw [show yes os.join p.calls p'.calls = 0 by simp [yes, hj]] at this
    exact absurd (List.length_eq_zero_iff.1 (Nat.le_zero.1 this)) h1

/-- A start on such a system, with two interfaces. -/
example : ∃ v p, Fd.start { workingOs ["192.168.0.2", "10.0.0.2"] with join := fun _ => false } Fd.new (fdInit [0, 1, 2] .dfl).proc =
    .ok (false, v, p) := by
  obtain ⟨⟨ok, v, p⟩, h, hv⟩ := ends_ok
    (x := Fd.start { workingOs ["192.168.0.2", "10.0.0.2"] with join := fun _ => false } Fd.new (fdInit [0, 1, 2] .dfl).proc)
    (f := fun r => !r.1) (by decide +kernel)
  simp only [Bool.not_eq_true'] at hv
  exact ⟨v, p, by rw [h, ← hv]⟩

end Uecho.Props
