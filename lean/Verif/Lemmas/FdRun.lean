import Verif.Lemmas.FdServer
/-! # What starting, stopping and sending take and give back -/
namespace Uecho.Lemmas
open Uecho Uecho.Spec Uecho.Fd
open Uecho.Server (Kind)

variable {os : Os}

theorem start_tr {v v' : Srv} {ok : Bool} {p p' : Proc} (h : start os v p = .ok (ok, v', p')) :
    ∃ m, (∃ j, m = (os.ifaces j).length) ∧
    Tr os (held v) (held v') (srvN v) (srvN v') (4 * m) 0 p p' ∧ (v'.mcast.length ≤ m ∧ v'.udp.length ≤ m) ∧
      ((∀ n, os.ifaces n ≠ []) → Tr os (held v) (held v') (srvN v) (srvN v' + 1) (4 * m) 0 p p') := by
  unfold start at h
  rw [Res.bind_eq_ok] at h
  obtain ⟨⟨v0, p0⟩, h0, h⟩ := h
  obtain ⟨t0, rfl⟩ := stop_tr (os := os) h0
  rw [Res.bind_eq_ok] at h
  obtain ⟨⟨ok1, mc1, p1⟩, h1, h⟩ := h
  obtain ⟨m1, ⟨j1, hj1⟩, t1, l1, s1⟩ := openList_tr h1
  rw [Res.bind_eq_ok] at h
  obtain ⟨⟨ok2, ud2, p2⟩, h2, h⟩ := h
  have hu : ∃ m2, (∃ j, m2 = (os.ifaces j).length) ∧ Tr os [] (heldBy ud2) 0 (subsN ud2) (2 * m2) 0 p1 p2 ∧ ud2.length ≤ m2 := by
    unfold openUdp at h2
    split at h2
    next =>
      obtain ⟨m2, hj, t2, l2, -⟩ := openList_tr h2
      exact ⟨m2, hj, t2, by simpa using l2⟩
    next =>
      simp at h2
      obtain ⟨-, rfl, rfl⟩ := h2
      exact ⟨m1, ⟨j1, hj1⟩, (Tr.refl _ _ _).weaken (by omega) rfl, by simp⟩
  obtain ⟨m2, hj2, t2, l2⟩ := hu
  obtain ⟨m, hj, hm1, hm2⟩ : ∃ m, (∃ j, m = (os.ifaces j).length) ∧ m1 ≤ m ∧ m2 ≤ m := by
    rcases Nat.le_total m1 m2 with h12 | h12
    · exact ⟨m2, hj2, h12, Nat.le_refl _⟩
    · exact ⟨m1, ⟨j1, hj1⟩, Nat.le_refl _, h12⟩
  refine ⟨m, hj, ?_⟩
  have t1 := t1.weaken (c' := 2 * m) (by omega) rfl
  have s1 := fun hx => (s1 hx).weaken (c' := 2 * m) (by omega) rfl
  have t2 := t2.weaken (c' := 2 * m) (by omega) rfl
  rw [Res.bind_eq_ok] at h
  obtain ⟨⟨ok3, mc3, p3⟩, h3, h⟩ := h
  obtain ⟨t3, l3⟩ := startList_tr h3
  rw [Res.bind_eq_ok] at h
  obtain ⟨⟨ok4, ud4, p4⟩, h4, h⟩ := h
  have hu : Tr os (heldBy ud2) (heldBy ud4) (subsN ud2) (subsN ud4) 0 0 p3 p4 ∧ ud4.length = ud2.length := by
    unfold startUdp at h4
    split at h4
    next => exact startList_tr h4
    next => simp at h4; obtain ⟨-, rfl, rfl⟩ := h4; exact ⟨Tr.refl _ _ _, rfl⟩
  obtain ⟨t4, l4⟩ := hu
  -- everything up to the decision
  have all : ∀ j, Tr os [] (heldBy mc1) 0 (subsN mc1 + j) (2 * m) 0 p0 p1 →
      Tr os (held v) (heldBy mc3 ++ heldBy ud4) (srvN v) (subsN mc3 + subsN ud4 + j) (4 * m) 0 p p4 := by
    intro j t1
    have t2 := t2.frameL (heldBy mc1) (subsN mc1 + j)
    have t3 := (t3.frame (heldBy ud2) (subsN ud2 + j))
    have t4 := t4.frameL (heldBy mc3) (subsN mc3 + j)
    have t12 := t1.trans (t2.cast (k0 := heldBy mc1) (by simp) rfl (by omega) rfl (Nat.le_refl _) rfl)
    have t34 := t3.trans (t4.cast rfl rfl (m0 := subsN mc3 + (subsN ud2 + j)) (by omega) rfl (Nat.le_refl _) rfl)
    have t14 := t12.trans (t34.cast rfl rfl (m0 := subsN mc1 + j + subsN ud2) (by omega) rfl (Nat.le_refl _) rfl)
    exact (t0.trans t14).cast rfl rfl rfl (by omega) (by omega) (by omega)
  have fin : ∀ j, Tr os [] (heldBy mc1) 0 (subsN mc1 + j) (2 * m) 0 p0 p1 →
      Tr os (held v) (held v') (srvN v) (srvN v' + j) (4 * m) 0 p p' ∧ v'.mcast.length ≤ m ∧ v'.udp.length ≤ m := by
    intro j tj
    have t := all j tj
    simp only at h
    split at h
    next =>
      simp at h
      obtain ⟨-, rfl, rfl⟩ := h
      exact ⟨t, by simp only [List.length_nil] at l1; simp only; omega, by simp only; omega⟩
    next =>
      rw [Res.bind_eq_ok] at h
      obtain ⟨⟨v5, p5⟩, h5, h⟩ := h
      simp at h
      obtain ⟨-, rfl, rfl⟩ := h
      obtain ⟨t5, rfl⟩ := stop_tr (os := os) h5
      have t5 := t5.frame [] j
      refine ⟨?_, by simp, by simp⟩
      exact (t.trans (t5.cast (by simp [held]) rfl rfl rfl (Nat.le_refl _) rfl)).cast rfl (by simp [held, heldBy]) rfl (by simp [srvN, subsN]) (by omega) (by omega)
  have t1' : Tr os [] (heldBy mc1) 0 (subsN mc1 + 0) (2 * m) 0 p0 p1 := t1
  exact ⟨(fin 0 t1').1, (fin 0 t1').2, fun hx => (fin 1 (s1 hx)).1⟩

theorem start_def {v : Srv} {p : Proc} (m : Nat) (hm : ∀ n, (os.ifaces n).length ≤ m) (h0 : srvN v ≤ p.cnt) (h : p.cnt + 4 * m < 2 ^ 31) :
    (start os v p).Defined := by
  obtain ⟨⟨v0, p0⟩, e0⟩ := stop_def h0
  obtain ⟨t0, rfl⟩ := stop_tr (os := os) e0
  have z0 : 0 ≤ p0.cnt := by have := t0.cnt 0 (by simpa using h0); simpa using this
  have u0 := t0.up
  obtain ⟨⟨ok1, mc1, p1⟩, e1⟩ := openList_def (os := os) (k := .mcast) (l := []) (p := p0) m hm (by simpa [subsN] using z0) (by omega)
  obtain ⟨m1, ⟨j1, hj1⟩, t1, -, -⟩ := openList_tr e1
  have := hm j1
  have z1 : subsN mc1 ≤ p1.cnt := by have := t1.cnt 0 (by simpa [subsN] using z0); omega
  have u1 := t1.up
  unfold start
  rw [e0, Res.bind_ok]
  simp only
  rw [e1, Res.bind_ok]
  have hud : ∃ ok2 ud2 p2, openUdp os ⟨[], [], v.udpEnabled, v.obsOk⟩ p1 = .ok (ok2, ud2, p2) ∧
      Tr os [] (heldBy ud2) 0 (subsN ud2) (2 * m) 0 p1 p2 := by
    unfold openUdp
    split
    next =>
      obtain ⟨⟨ok2, ud2, p2⟩, e2⟩ := openList_def (os := os) (k := .udp) (l := []) (p := p1) m hm (by simp [subsN]; omega) (by omega)
      obtain ⟨m2, ⟨j2, hj2⟩, t2, -, -⟩ := openList_tr e2
      have := hm j2
      exact ⟨_, _, _, e2, t2.weaken (by omega) rfl⟩
    next => exact ⟨_, _, _, rfl, (Tr.refl _ _ _).weaken (by omega) rfl⟩
  obtain ⟨ok2, ud2, p2, e2, t2⟩ := hud
  simp only [e2, Res.bind_ok]
  have z2 : (subsN ud2 + subsN mc1 : Nat) ≤ p2.cnt := by have := t2.cnt (subsN mc1) (by omega); omega
  obtain ⟨⟨ok3, mc3, p3⟩, e3⟩ := startList_def (os := os) (l := mc1) (p := p2) (by omega)
  obtain ⟨t3, -⟩ := startList_tr e3
  have z3 : (subsN mc3 + subsN ud2 : Nat) ≤ p3.cnt := by have := t3.cnt (subsN ud2) (by omega); omega
  rw [e3, Res.bind_ok]
  have hud : ∃ ok4 ud4 p4, startUdp os ⟨[], [], v.udpEnabled, v.obsOk⟩ ud2 p3 = .ok (ok4, ud4, p4) ∧
      Tr os (heldBy ud2) (heldBy ud4) (subsN ud2) (subsN ud4) 0 0 p3 p4 := by
    unfold startUdp
    split
    next =>
      obtain ⟨⟨ok4, ud4, p4⟩, e4⟩ := startList_def (os := os) (l := ud2) (p := p3) (by omega)
      exact ⟨_, _, _, e4, (startList_tr e4).1⟩
    next => exact ⟨_, _, _, rfl, Tr.refl _ _ _⟩
  obtain ⟨ok4, ud4, p4, e4, t4⟩ := hud
  simp only [e4, Res.bind_ok]
  have z4 : (subsN ud4 + subsN mc3 : Nat) ≤ p4.cnt := by have := t4.cnt (subsN mc3) (by omega); omega
  split
  next => simp
  next =>
    obtain ⟨r, e5⟩ := stop_def (v := { mcast := mc3, udp := ud4, udpEnabled := v.udpEnabled, obsOk := v.obsOk }) (p := p4) (by
      simp only [srvN]; omega)
    simp [e5]

theorem sendFresh_tr {ok : Bool} {p p' : Proc} (h : sendFresh os p = .ok (ok, p')) : Tr os [] [] 0 1 2 0 p p' := by
  unfold sendFresh at h
  rw [Res.bind_eq_ok] at h
  obtain ⟨⟨s, p1⟩, h1, h⟩ := h
  rw [Res.bind_eq_ok] at h
  obtain ⟨⟨b, s2, p2⟩, h2, h⟩ := h
  rw [Res.bind_eq_ok] at h
  obtain ⟨p3, h3, h⟩ := h
  simp at h
  obtain ⟨-, rfl⟩ := h
  unfold sockNew at h1
  rw [Res.bind_eq_ok] at h1
  obtain ⟨p0, h0, h1⟩ := h1
  simp at h1
  obtain ⟨rfl, rfl⟩ := h1
  have t0 := startup_tr (os := os) h0 0
  have t2 := sendTo_tr h2 1
  have t3 := sockDelete_tr (os := os) h3 1
  exact ((t0.trans t2).trans t3).weaken (by omega) (by omega)

theorem sendFresh_def {p : Proc} (h0 : 0 ≤ p.cnt) (h : p.cnt + 2 < 2 ^ 31) : (sendFresh os p).Defined := by
  obtain ⟨p0, e0⟩ := startup_def (p := p) (by omega)
  have t0 := startup_tr (os := os) e0 0
  have e1 : sockNew p = .ok (⟨none, ""⟩, p0) := by simp [sockNew, e0]
  obtain ⟨⟨b, s2, p2⟩, e2⟩ := sendTo_def (os := os) (s := ⟨none, ""⟩) (p := p0) (by have := t0.up; omega)
  have t2 := sendTo_tr e2 1
  have : (1 : Nat) ≤ p0.cnt := by have := t0.cnt 0 (by simpa using h0); simpa using this
  obtain ⟨p3, e3⟩ := sockDelete_def (s := s2) (p := p2) (by have := t2.cnt 0 (by omega); omega)
  unfold sendFresh
  simp [e1, e2, e3]

theorem postList_tr : ∀ {l l' : List Sub} {ok : Bool} {p p' : Proc}, postList os l p = .ok (ok, l', p') →
    Tr os (heldBy l) (heldBy l') (subsN l) (subsN l') l.length 0 p p' ∧ l'.length = l.length := by
  intro l
  induction l with
  | nil => intro l' ok p p' h; simp [postList] at h; obtain ⟨-, rfl, rfl⟩ := h; exact ⟨Tr.refl _ _ _, rfl⟩
  | cons b l ih =>
    intro l' ok p p' h
    unfold postList at h
    split at h
    next hs =>
      rw [Res.bind_eq_ok] at h
      obtain ⟨⟨ok1, l1, p1⟩, h1, h⟩ := h
      simp at h
      obtain ⟨-, rfl, rfl⟩ := h
      obtain ⟨t, e⟩ := ih h1
      exact ⟨(t.frameL (subHeld b) (subN b)).cast (heldBy_cons b l) (heldBy_cons b l1).symm rfl rfl (by simp) rfl, by simp [e]⟩
    next s hs =>
      rw [Res.bind_eq_ok] at h
      obtain ⟨⟨sent, s1, p1⟩, h1, h⟩ := h
      rw [Res.bind_eq_ok] at h
      obtain ⟨⟨ok1, l1, p2⟩, h2, h⟩ := h
      simp at h
      obtain ⟨-, rfl, rfl⟩ := h
      obtain ⟨t2, e⟩ := ih h2
      have t1 := ((sendTo_tr h1 1).lower (m := 1) (by omega)).frame (heldBy l) (subsN l)
      have t2 := t2.frameL s1.id.toList 1
      exact ⟨(t1.trans t2).cast (by rw [heldBy_cons]; simp [subHeld, hs]) (by rw [heldBy_cons]; simp [subHeld]) (by simp [subsN, subN, hs])
        (by simp [subsN, subN]) (by simp; omega) (by omega), by simp [e]⟩

theorem postList_def : ∀ {l : List Sub} {p : Proc}, p.cnt + l.length < 2 ^ 31 → (postList os l p).Defined := by
  intro l
  induction l with
  | nil => intro p _; simp [postList]
  | cons b l ih =>
    intro p h
    simp only [List.length_cons] at h
    unfold postList
    split
    next =>
      obtain ⟨r, e⟩ := ih (p := p) (by omega)
      simp [e]
    next s hs =>
      obtain ⟨⟨sent, s1, p1⟩, e1⟩ := sendTo_def (os := os) (s := s) (p := p) (by omega)
      obtain ⟨r, e2⟩ := ih (p := p1) (by have := (sendTo_tr e1 0).up; omega)
      simp [e1, e2]

theorem postAnnounce_tr {v v' : Srv} {ok : Bool} {p p' : Proc} (h : postAnnounce os v p = .ok (ok, v', p')) :
    Tr os (held v) (held v') (srvN v) (srvN v') (v.mcast.length + 2) 0 p p' ∧ v'.mcast.length = v.mcast.length ∧ v'.udp = v.udp := by
  unfold postAnnounce at h
  rw [Res.bind_eq_ok] at h
  obtain ⟨⟨ok1, l1, p1⟩, h1, h⟩ := h
  obtain ⟨t1, e1⟩ := postList_tr h1
  have t1 := t1.frame (heldBy v.udp) (subsN v.udp)
  cases ok1 with
  | true =>
    simp at h
    obtain ⟨-, rfl, rfl⟩ := h
    exact ⟨t1.weaken (by omega) rfl, e1, rfl⟩
  | false =>
    simp only [Bool.false_eq_true, if_false] at h
    rw [Res.bind_eq_ok] at h
    obtain ⟨⟨ok2, p2⟩, h2, h⟩ := h
    simp at h
    obtain ⟨-, rfl, rfl⟩ := h
    have t2 := ((sendFresh_tr h2).lower (m := 0) (by omega)).frame (heldBy l1 ++ heldBy v.udp) (subsN l1 + subsN v.udp)
    exact ⟨(t1.trans (t2.cast (by simp) (by simp [held]) (by omega) (by simp [srvN]) (Nat.le_refl _) rfl)).cast rfl rfl rfl rfl (by omega) (by omega), e1, rfl⟩

theorem postAnnounce_def {v : Srv} {p : Proc} (h0 : srvN v ≤ p.cnt) (h : p.cnt + v.mcast.length + 2 < 2 ^ 31) :
    (postAnnounce os v p).Defined := by
  obtain ⟨⟨ok1, l1, p1⟩, e1⟩ := postList_def (os := os) (l := v.mcast) (p := p) (by omega)
  obtain ⟨t1, -⟩ := postList_tr e1
  unfold postAnnounce
  rw [e1, Res.bind_ok]
  cases ok1 with
  | true => simp
  | false =>
    obtain ⟨r, e2⟩ := sendFresh_def (os := os) (p := p1)
      (by have := t1.cnt 0 (by simp only [srvN] at h0; omega); omega) (by have := t1.up; omega)
    simp [e2]

theorem udpSendTo_tr : ∀ {l l' : List Sub} {ok : Bool} {p p' : Proc}, udpSendTo os l p = .ok (ok, l', p') →
    (ok = true → Tr os (heldBy l) (heldBy l') (subsN l) (subsN l' + 1) 1 0 p p') ∧
      Tr os (heldBy l) (heldBy l') (subsN l) (subsN l') 1 0 p p' ∧ l'.length = l.length ∧ subsN l' = subsN l := by
  intro l
  induction l with
  | nil =>
    intro l' ok p p' h
    simp [udpSendTo] at h
    obtain ⟨rfl, rfl, rfl⟩ := h
    exact ⟨by simp, (Tr.refl _ _ _).weaken (by omega) rfl, rfl, rfl⟩
  | cons b l ih =>
    intro l' ok p p' h
    unfold udpSendTo at h
    split at h
    next hs =>
      rw [Res.bind_eq_ok] at h
      obtain ⟨⟨ok1, l1, p1⟩, h1, h⟩ := h
      simp at h
      obtain ⟨rfl, rfl, rfl⟩ := h
      obtain ⟨t1, t, e, e'⟩ := ih h1
      exact ⟨fun hok => ((t1 hok).frameL (subHeld b) (subN b)).cast (heldBy_cons b l) (heldBy_cons b l1).symm rfl (by simp [subsN]; omega) (Nat.le_refl _) rfl,
        (t.frameL (subHeld b) (subN b)).cast (heldBy_cons b l) (heldBy_cons b l1).symm rfl rfl (Nat.le_refl _) rfl, by simp [e], by simp [subsN, e']⟩
    next s hs =>
      rw [Res.bind_eq_ok] at h
      obtain ⟨⟨sent, s1, p1⟩, h1, h⟩ := h
      simp at h
      obtain ⟨rfl, rfl, rfl⟩ := h
      have t1 := (sendTo_tr h1 1).frame (heldBy l) (subsN l)
      have t : Tr os (heldBy (b :: l)) (heldBy ({ b with sock := some s1 } :: l)) (subsN (b :: l))
          (subsN ({ b with sock := some s1 } :: l) + 1) 1 0 p p1 := t1.cast (by rw [heldBy_cons]; simp [subHeld, hs]) (by rw [heldBy_cons]; simp [subHeld]) (by simp [subsN, subN, hs])
        (by simp [subsN, subN]; omega) (Nat.le_refl _) rfl
      exact ⟨fun _ => t, t.lower (by omega), by simp, by simp [subsN, subN, hs]⟩

theorem udpSendTo_def : ∀ {l : List Sub} {p : Proc}, p.cnt + 1 < 2 ^ 31 → (udpSendTo os l p).Defined := by
  intro l
  induction l with
  | nil => intro p _; simp [udpSendTo]
  | cons b l ih =>
    intro p h
    unfold udpSendTo
    split
    next =>
      obtain ⟨r, e⟩ := ih (p := p) (by omega)
      simp [e]
    next s hs =>
      obtain ⟨⟨sent, s1, p1⟩, e1⟩ := sendTo_def (os := os) (s := s) (p := p) (by omega)
      simp [e1]

/-- Sending to a node raises the count by one at least. -/
theorem postResponse_tr {v v' : Srv} {ok : Bool} {p p' : Proc} (h : postResponse os v p = .ok (ok, v', p')) :
    Tr os (held v) (held v') (srvN v) (srvN v' + 1) 3 0 p p' ∧ v'.udp.length = v.udp.length ∧ v'.mcast = v.mcast ∧ srvN v' = srvN v := by
  unfold postResponse at h
  rw [Res.bind_eq_ok] at h
  obtain ⟨⟨ok1, l1, p1⟩, h1, h⟩ := h
  obtain ⟨t1, t0, e1, e2⟩ := udpSendTo_tr h1
  cases ok1 with
  | true =>
    simp at h
    obtain ⟨-, rfl, rfl⟩ := h
    have t1 := (t1 rfl).frameL (heldBy v.mcast) (subsN v.mcast)
    exact ⟨t1.cast rfl rfl rfl (by simp [srvN]; omega) (by omega) rfl, e1, rfl, by simp [srvN, e2]⟩
  | false =>
    simp only [Bool.false_eq_true, if_false] at h
    rw [Res.bind_eq_ok] at h
    obtain ⟨⟨ok2, p2⟩, h2, h⟩ := h
    simp at h
    obtain ⟨-, rfl, rfl⟩ := h
    have t0 := t0.frameL (heldBy v.mcast) (subsN v.mcast)
    have t2 := (sendFresh_tr h2).frame (heldBy v.mcast ++ heldBy l1) (subsN v.mcast + subsN l1)
    exact ⟨(t0.trans (t2.cast (by simp) (by simp [held]) (by omega) (Nat.add_comm ..) (Nat.le_refl _) rfl)).cast rfl rfl rfl rfl (by omega) (by omega), e1, rfl, by simp [srvN, e2]⟩

theorem postResponse_def {v : Srv} {p : Proc} (h0 : srvN v ≤ p.cnt) (h : p.cnt + 3 < 2 ^ 31) : (postResponse os v p).Defined := by
  obtain ⟨⟨ok1, l1, p1⟩, e1⟩ := udpSendTo_def (os := os) (l := v.udp) (p := p) (by omega)
  obtain ⟨-, t1, -⟩ := udpSendTo_tr e1
  unfold postResponse
  rw [e1, Res.bind_ok]
  cases ok1 with
  | true => simp
  | false =>
    obtain ⟨r, e2⟩ := sendFresh_def (os := os) (p := p1)
      (by have := t1.cnt 0 (by simp only [srvN] at h0; omega); omega) (by have := t1.up; omega)
    simp [e2]

theorem FdInv.appErase {rest h : List Nat} {p : Proc} {fd : Nat} (x : FdInv rest h p) (hm : fd ∈ rest) (h0 : fd ≠ 0) :
    FdInv (rest.erase fd) h { p with fds := p.fds.erase fd } := by
  refine ⟨?_, x.2.1.erase _, (List.mem_erase_of_ne (Ne.symm h0)).2 x.2.2⟩
  have hn : fd ∉ h := by
    intro hh
    have := x.1.nodup_iff.1 x.2.1
    rw [List.nodup_append] at this
    exact this.2.2 fd hh fd hm rfl
  have := x.1.erase fd
  rw [List.erase_append_right _ hn] at this
  exact this

theorem FdInv.appCons {rest h : List Nat} {p : Proc} {fd : Nat} (x : FdInv rest h p) (hn : fd ∉ p.fds) :
    FdInv (fd :: rest) h { p with fds := fd :: p.fds } :=
  ⟨(x.1.cons fd).trans List.perm_middle.symm, List.nodup_cons.2 ⟨hn, x.2.1⟩, List.mem_cons_of_mem _ x.2.2⟩

theorem Tr.fds0 {h0 h1 : List Nat} {n0 n1 c : Nat} {d : Int} {p p' : Proc} (t : Tr os h0 h1 n0 n1 c d p p') (hf : Fresh os) {rest : List Nat}
    (x : FdInv rest h0 p) : FdInv rest h1 p' := by
  have := t.fds hf rest [] (by simpa using x)
  simpa using this

theorem fdStep_inv {s s' : FdSt} {op : FdOp} (hf : Fresh os) (h : fdStep os op s = .ok s') (hop : op ≠ .appClose 0)
    (x : FdInv s.app (held s.srv) s.proc) : FdInv s'.app (held s'.srv) s'.proc := by
  cases op with
  | start =>
    simp only [fdStep] at h
    rw [Res.bind_eq_ok] at h
    obtain ⟨⟨ok, v, p⟩, h1, h⟩ := h
    cases h
    obtain ⟨m, -, t, -⟩ := start_tr h1
    exact t.fds0 hf x
  | stop =>
    simp only [fdStep] at h
    rw [Res.bind_eq_ok] at h
    obtain ⟨⟨v, p⟩, h1, h⟩ := h
    cases h
    obtain ⟨t, rfl⟩ := stop_tr (os := os) h1
    exact t.fds0 hf x
  | announce =>
    simp only [fdStep] at h
    rw [Res.bind_eq_ok] at h
    obtain ⟨⟨ok, v, p⟩, h1, h⟩ := h
    cases h
    exact (postAnnounce_tr h1).1.fds0 hf x
  | send =>
    simp only [fdStep] at h
    rw [Res.bind_eq_ok] at h
    obtain ⟨⟨ok, v, p⟩, h1, h⟩ := h
    cases h
    exact (postResponse_tr h1).1.fds0 hf x
  | appOpen =>
    simp only [fdStep] at h
    split at h
    next fd hs => cases h; exact FdInv.appCons (p := Fd.tick s.proc) x (hf _ _ _ hs)
    next => cases h; exact x
  | appClose fd =>
    simp only [fdStep] at h
    split at h
    next hm => cases h; exact x.appErase hm (fun e => hop (by rw [e]))
    next => cases h; exact x
  | appSignal d => cases h; exact x

end Uecho.Lemmas
