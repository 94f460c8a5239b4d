import Verif.Lemmas.FdStart
import Verif.Props.Fd
/-!
# C103: what a start takes
-/
namespace Uecho.Props
open Uecho Uecho.Spec Uecho.Lemmas Uecho.Fd
open Uecho.Server (Kind)

/-- **C103.** A start that succeeds has taken a descriptor and a thread for each interface of the host, once for the group and, unless this is
disabled, once for unicast; a start that fails has none left. It succeeds if the operating system refuses nothing. -/
theorem C103_start {os : Os} {v v' : Srv} {p p' : Proc} {ok : Bool} (h : Fd.start os v p = .ok (ok, v', p')) :
    (ok = true → v.obsOk = true ∧ (∃ n, os.ifaces n ≠ [] ∧ Receives true v'.mcast (os.ifaces n)) ∧
      (if v.udpEnabled then ∃ n, os.ifaces n ≠ [] ∧ Receives true v'.udp (os.ifaces n) else v'.udp = [])) ∧
    (ok = false → v'.mcast = [] ∧ v'.udp = []) ∧ (Willing os → v.obsOk = true → ok = true) := by
  unfold Fd.start at h
  rw [Res.bind_eq_ok] at h
  obtain ⟨⟨v0, p0⟩, h0, h⟩ := h
  cases stop_empty h0
  rw [Res.bind_eq_ok] at h
  obtain ⟨⟨ok1, m1, p1⟩, h1, h⟩ := h
  rw [Res.bind_eq_ok] at h
  obtain ⟨⟨ok2, u1, p2⟩, h2, h⟩ := h
  rw [Res.bind_eq_ok] at h
  obtain ⟨⟨ok3, m2, p3⟩, h3, h⟩ := h
  rw [Res.bind_eq_ok] at h
  obtain ⟨⟨ok4, u2, p4⟩, h4, h⟩ := h
  simp only at h1 h2 h3 h4
  obtain ⟨a1, w1⟩ := openList_says h1
  have a2 : (ok2 = true → if v.udpEnabled then os.ifaces p1.calls ≠ [] ∧ Receives false u1 (os.ifaces p1.calls) else u1 = []) ∧
      (Willing os → ok2 = true) := by
    unfold openUdp at h2
    cases hu : v.udpEnabled with
    | true => simp only [hu, if_true] at h2; simpa using openList_says h2
    | false => simp only [hu, Bool.false_eq_true, if_false] at h2; cases h2; simp
  have a3 : ok1 = true → (ok3 = true → Receives true m2 (os.ifaces p0.calls)) ∧ (Willing os → ok3 = true) :=
    fun ho => startList_says h3 _ (a1 ho).2
  have a4 : ok2 = true → (ok4 = true → if v.udpEnabled then Receives true u2 (os.ifaces p1.calls) else u2 = []) ∧ (Willing os → ok4 = true) := by
    intro ho
    unfold startUdp at h4
    have a2 := a2.1 ho
    cases hu : v.udpEnabled with
    | true =>
      simp only [hu, if_true] at h4 a2
      simpa using startList_says h4 _ a2.2
    | false => simp only [hu, Bool.false_eq_true, if_false] at h4 a2; cases h4; simpa using a2
  by_cases hall : (ok1 && ok2 && v.obsOk && ok3 && ok4) = true
  · simp only [hall, if_true] at h
    cases h
    simp only [Bool.and_eq_true] at hall
    obtain ⟨⟨⟨⟨o1, o2⟩, o0⟩, o3⟩, o4⟩ := hall
    refine ⟨fun _ => ⟨o0, ⟨_, (a1 o1).1, (a3 o1).1 o3⟩, ?_⟩, by simp, fun _ _ => rfl⟩
    have := (a4 o2).1 o4
    have a2 := a2.1 o2
    cases hu : v.udpEnabled with
    | true => simp only [hu, if_true] at this a2 ⊢; exact ⟨_, a2.1, this⟩
    | false => simp only [hu, Bool.false_eq_true, if_false] at this ⊢; exact this
  · simp only [hall, Bool.false_eq_true, if_false] at h
    rw [Res.bind_eq_ok] at h
    obtain ⟨⟨v3, p5⟩, h5, h⟩ := h
    cases h
    cases stop_empty h5
    refine ⟨by simp, fun _ => ⟨rfl, rfl⟩, fun w ho => ?_⟩
    exfalso; apply hall
    simp [w1 w, a2.2 w, ho, (a3 (w1 w)).2 w, (a4 (a2.2 w)).2 w]

/-- A start with two interfaces: four descriptors. -/
example : ∃ v p, Fd.start (workingOs ["192.168.0.2", "10.0.0.2"]) Fd.new (fdInit [0, 1, 2] .dfl).proc = .ok (true, v, p) ∧
    v.mcast.map (fun b => b.sock.bind (·.id)) = [some 3, some 4] ∧ v.udp.map (fun b => b.sock.bind (·.id)) = [some 5, some 6] := by
  obtain ⟨⟨ok, v, p⟩, h, hv⟩ := ends_ok (x := Fd.start (workingOs ["192.168.0.2", "10.0.0.2"]) Fd.new (fdInit [0, 1, 2] .dfl).proc)
    (f := fun r => r.1 && (r.2.1.mcast.map (fun b => b.sock.bind (·.id)) == [some 3, some 4]) &&
      (r.2.1.udp.map (fun b => b.sock.bind (·.id)) == [some 5, some 6])) (by decide +kernel)
  simp only [Bool.and_eq_true, beq_iff_eq] at hv
  obtain ⟨⟨rfl, h1⟩, h2⟩ := hv
  exact ⟨v, p, h, h1, h2⟩

/-- Such a system refuses nothing. -/
example : Willing (workingOs ["192.168.0.2", "10.0.0.2"]) :=
  ⟨fun _ => rfl, fun _ l => lowest_some l, fun _ => rfl, fun _ => rfl, fun _ => rfl, fun _ => rfl, fun _ => by simp [workingOs]⟩

end Uecho.Props
