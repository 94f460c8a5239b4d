import Verif.Lemmas.Fd
/-! # What the servers of `Model/Fd.lean` take and give back -/
namespace Uecho.Lemmas
open Uecho Uecho.Spec Uecho.Fd
open Uecho.Server (Kind)

variable {os : Os}

/-- The server without its socket. -/
def bare (b : Sub) : Sub := ⟨none, b.thread⟩

def subHeld (b : Sub) : List Nat :=
  match b.sock with
  | some s => s.id.toList
  | none => []

def subN (b : Sub) : Nat := if b.sock.isSome then 1 else 0

def subsN : List Sub → Nat
  | [] => 0
  | b :: l => subN b + subsN l

theorem heldBy_cons (b : Sub) (l : List Sub) : heldBy (b :: l) = subHeld b ++ heldBy l := by
  unfold subHeld
  cases h : b.sock <;> simp [heldBy, h]

theorem heldBy_append (l r : List Sub) : heldBy (l ++ r) = heldBy l ++ heldBy r := by
  induction l with
  | nil => rfl
  | cons b l ih => rw [List.cons_append, heldBy_cons, heldBy_cons, ih, List.append_assoc]

theorem subsN_append (l r : List Sub) : subsN (l ++ r) = subsN l + subsN r := by
  induction l with
  | nil => simp [subsN]
  | cons b l ih => simp only [List.cons_append, subsN, ih]; omega

theorem subsN_le (l : List Sub) : subsN l ≤ l.length := by
  induction l with
  | nil => simp [subsN]
  | cons b l ih => simp only [subsN, subN, List.length_cons]; split <;> omega

/-- The servers have no sockets. -/
def NoSocks (l : List Sub) : Prop := ∀ b ∈ l, b.sock = none

theorem NoSocks.held {l : List Sub} (h : NoSocks l) : heldBy l = [] := by
  induction l with
  | nil => rfl
  | cons b l ih => rw [heldBy_cons, ih (fun x hx => h x (List.mem_cons_of_mem _ hx))]; simp [subHeld, h b (by simp)]

theorem NoSocks.n {l : List Sub} (h : NoSocks l) : subsN l = 0 := by
  induction l with
  | nil => rfl
  | cons b l ih => simp [subsN, ih (fun x hx => h x (List.mem_cons_of_mem _ hx)), subN, h b (by simp)]

theorem Tr.lower {h0 h1 : List Nat} {n0 n1 m c : Nat} {d : Int} {p p' : Proc} (a : Tr os h0 h1 n0 n1 c d p p') (hm : m ≤ n1) :
    Tr os h0 h1 n0 m c d p p' :=
  ⟨a.fds, fun e x => by have := a.cnt e x; omega, a.up, a.pipe, a.infos, a.leak, a.zero, a.max⟩

theorem Tr.cast {h0 h1 k0 k1 : List Nat} {n0 n1 m0 m1 c c' : Nat} {d d' : Int} {p p' : Proc} (a : Tr os h0 h1 n0 n1 c d p p')
    (e0 : k0 = h0) (e1 : h1 = k1) (f0 : m0 = n0) (f1 : n1 = m1) (hc : c ≤ c') (hd : d = d') : Tr os k0 k1 m0 m1 c' d' p p' := by
  subst e0 e1 f0 f1
  exact a.weaken hc hd

theorem closeSub_tr {b b' : Sub} {p p' : Proc} (h : closeSub b p = .ok (b', p')) :
    Tr os (subHeld b) [] (subN b) 0 0 0 p p' ∧ b' = bare b := by
  unfold closeSub at h
  split at h
  next hs =>
    cases h
    obtain ⟨s, t⟩ := b
    simp only at hs
    subst hs
    exact ⟨Tr.refl _ _ _, rfl⟩
  next s hs =>
    rw [Res.bind_eq_ok] at h
    obtain ⟨p1, h1, h⟩ := h
    simp at h
    obtain ⟨rfl, rfl⟩ := h
    refine ⟨?_, rfl⟩
    have t1 := close_tr' (os := os) s p 1
    have t2 := sockDelete_tr (os := os) h1 0
    exact (t1.trans t2).cast (by simp [subHeld, hs]) rfl (by simp [subN, hs]) rfl (by omega) (by omega)

theorem closeSub_def {b : Sub} {p : Proc} (h : subN b ≤ p.cnt) : (closeSub b p).Defined := by
  unfold closeSub
  cases hs : b.sock with
  | none => simp
  | some s =>
    have t1 := close_tr' (os := workingOs []) s p 1
    obtain ⟨q, hq⟩ := sockDelete_def (s := (close s p).1) (p := (close s p).2) (by
      have := t1.cnt 0 (by simpa [subN, hs] using h)
      simpa using this)
    exact ⟨(bare b, q), by simp [hq, bare]⟩

theorem each_closeSub_tr : ∀ {l l' : List Sub} {p p' : Proc}, each closeSub l p = .ok (l', p') →
    Tr os (heldBy l) [] (subsN l) 0 0 0 p p' ∧ l' = l.map bare := by
  intro l
  induction l with
  | nil => intro l' p p' h; cases h; exact ⟨Tr.refl _ _ _, rfl⟩
  | cons b l ih =>
    intro l' p p' h
    unfold each at h
    rw [Res.bind_eq_ok] at h
    obtain ⟨⟨b1, p1⟩, h1, h⟩ := h
    rw [Res.bind_eq_ok] at h
    obtain ⟨⟨l1, p2⟩, h2, h⟩ := h
    simp at h
    obtain ⟨rfl, rfl⟩ := h
    obtain ⟨t1, rfl⟩ := closeSub_tr (os := os) h1
    obtain ⟨t2, rfl⟩ := ih h2
    refine ⟨?_, rfl⟩
    exact ((t1.frame (heldBy l) (subsN l)).trans (t2.cast rfl rfl (by simp) rfl (Nat.le_refl _) rfl)).cast (heldBy_cons b l) rfl rfl rfl
      (by omega) (by omega)

theorem each_closeSub_def : ∀ {l : List Sub} {p : Proc}, subsN l ≤ p.cnt → (each closeSub l p).Defined := by
  intro l
  induction l with
  | nil => intro p h; simp [each]
  | cons b l ih =>
    intro p h
    simp only [subsN] at h
    obtain ⟨⟨b1, p1⟩, h1⟩ := closeSub_def (b := b) (p := p) (by omega)
    have t1 := (closeSub_tr (os := workingOs []) h1).1
    obtain ⟨⟨l1, p2⟩, h2⟩ := ih (p := p1) (by have := t1.cnt (subsN l) (by omega); omega)
    exact ⟨(b1 :: l1, p2), by simp [each, h1, h2]⟩

theorem stopSub_tr {b b' : Sub} {p p' : Proc} (h : stopSub b p = .ok (b', p')) :
    Tr os (subHeld b) (subHeld b') (subN b) (subN b') 0 0 p p' ∧ (b.sock = none → b'.sock = none) ∧ b'.thread = false := by
  unfold stopSub at h
  split at h
  next ht =>
    rw [Res.bind_eq_ok] at h
    obtain ⟨⟨b1, p1⟩, h1, h⟩ := h
    simp at h
    obtain ⟨rfl, rfl⟩ := h
    obtain ⟨t1, rfl⟩ := closeSub_tr (os := os) h1
    exact ⟨t1, fun _ => rfl, rfl⟩
  next ht => cases h; exact ⟨Tr.refl _ _ _, id, by simpa using ht⟩

theorem stopSub_def {b : Sub} {p : Proc} (h : subN b ≤ p.cnt) : (stopSub b p).Defined := by
  unfold stopSub
  split
  next =>
    obtain ⟨⟨b1, p1⟩, h1⟩ := closeSub_def h
    simp [h1]
  next => simp

theorem each_stopSub_tr : ∀ {l l' : List Sub} {p p' : Proc}, each stopSub l p = .ok (l', p') →
    Tr os (heldBy l) (heldBy l') (subsN l) (subsN l') 0 0 p p' ∧ (NoSocks l → NoSocks l') ∧ l'.length = l.length := by
  intro l
  induction l with
  | nil => intro l' p p' h; cases h; exact ⟨Tr.refl _ _ _, id, rfl⟩
  | cons b l ih =>
    intro l' p p' h
    unfold each at h
    rw [Res.bind_eq_ok] at h
    obtain ⟨⟨b1, p1⟩, h1, h⟩ := h
    rw [Res.bind_eq_ok] at h
    obtain ⟨⟨l1, p2⟩, h2, h⟩ := h
    simp at h
    obtain ⟨rfl, rfl⟩ := h
    obtain ⟨t1, n1, -⟩ := stopSub_tr (os := os) h1
    obtain ⟨t2, n2, e2⟩ := ih h2
    refine ⟨?_, fun hn => ?_, by simp [e2]⟩
    · exact ((t1.frame (heldBy l) (subsN l)).trans (t2.frameL (subHeld b1) (subN b1))).cast (heldBy_cons b l) (heldBy_cons b1 l1).symm rfl rfl
        (by omega) (by omega)
    · intro x hx
      rcases List.mem_cons.1 hx with rfl | hx
      · exact n1 (hn b (by simp))
      · exact n2 (fun y hy => hn y (List.mem_cons_of_mem _ hy)) x hx

theorem each_stopSub_def : ∀ {l : List Sub} {p : Proc}, subsN l ≤ p.cnt → (each stopSub l p).Defined := by
  intro l
  induction l with
  | nil => intro p h; simp [each]
  | cons b l ih =>
    intro p h
    simp only [subsN] at h
    obtain ⟨⟨b1, p1⟩, h1⟩ := stopSub_def (b := b) (p := p) (by omega)
    have t1 := (stopSub_tr (os := workingOs []) h1).1
    obtain ⟨⟨l1, p2⟩, h2⟩ := ih (p := p1) (by have := t1.cnt (subsN l) (by omega); omega)
    exact ⟨(b1 :: l1, p2), by simp [each, h1, h2]⟩

theorem clear_none (f : Sub → Proc → Res Proc) (hf : ∀ b p, b.sock = none → f b p = .ok p) :
    ∀ {l : List Sub} {p : Proc}, NoSocks l → clear f l p = .ok p := by
  intro l
  induction l with
  | nil => intro p _; rfl
  | cons b l ih =>
    intro p h
    simp [clear, hf b p (h b (by simp)), ih (fun x hx => h x (List.mem_cons_of_mem _ hx))]

theorem deleteUdp_none (b : Sub) (p : Proc) (h : b.sock = none) : deleteUdp b p = .ok p := by simp [deleteUdp, h]

theorem deleteMcast_none (b : Sub) (p : Proc) (h : b.sock = none) : deleteMcast b p = .ok p := by
  cases ht : b.thread <;> simp [deleteMcast, stopSub, ht, closeSub, h]

/-- Closing, stopping and clearing a list of servers. -/
theorem shut_tr {f : Sub → Proc → Res Proc} (hf : ∀ b p, b.sock = none → f b p = .ok p) {l : List Sub} {p p' : Proc}
    (h : (do let (l, p) ← each closeSub l p; let (l, p) ← each stopSub l p; clear f l p) = .ok p') :
    Tr os (heldBy l) [] (subsN l) 0 0 0 p p' := by
  rw [Res.bind_eq_ok] at h
  obtain ⟨⟨l1, p1⟩, h1, h⟩ := h
  rw [Res.bind_eq_ok] at h
  obtain ⟨⟨l2, p2⟩, h2, h⟩ := h
  obtain ⟨t1, rfl⟩ := each_closeSub_tr (os := os) h1
  obtain ⟨t2, n2, -⟩ := each_stopSub_tr (os := os) h2
  have hn : NoSocks (l.map bare) := by
    intro b hb
    obtain ⟨x, -, rfl⟩ := List.mem_map.1 hb
    rfl
  simp only [clear_none f hf (n2 hn)] at h
  cases h
  rw [hn.held, hn.n, (n2 hn).held, (n2 hn).n] at t2
  exact (t1.trans t2).weaken (by omega) (by omega)

theorem shut_def {f : Sub → Proc → Res Proc} (hf : ∀ b p, b.sock = none → f b p = .ok p) {l : List Sub} {p : Proc} (h : subsN l ≤ p.cnt) :
    Res.Defined (do let (l, p) ← each closeSub l p; let (l, p) ← each stopSub l p; clear f l p) := by
  obtain ⟨⟨l1, p1⟩, h1⟩ := each_closeSub_def h
  obtain ⟨t1, rfl⟩ := each_closeSub_tr (os := workingOs []) h1
  have hn : NoSocks (l.map bare) := by
    intro b hb
    obtain ⟨x, -, rfl⟩ := List.mem_map.1 hb
    rfl
  obtain ⟨⟨l2, p2⟩, h2⟩ := each_stopSub_def (l := l.map bare) (p := p1) (by
    rw [hn.n]; have := t1.cnt 0 (by omega); omega)
  obtain ⟨t2, n2, -⟩ := each_stopSub_tr (os := workingOs []) h2
  exact ⟨p2, by simp only [h1, h2, Res.bind_ok, clear_none f hf (n2 hn)]⟩

def srvN (v : Srv) : Nat := subsN v.mcast + subsN v.udp

theorem stop_eq (v : Srv) (p : Proc) : stop v p = (do
    let p ← (do let (l, p) ← each closeSub v.mcast p; let (l, p) ← each stopSub l p; clear deleteUdp l p)
    let p ← (do let (l, p) ← each closeSub v.udp p; let (l, p) ← each stopSub l p; clear deleteUdp l p)
    return ({ v with mcast := [], udp := [] }, p)) := by
  unfold stop
  simp only [Res.bind_assoc]

theorem stop_tr {v v' : Srv} {p p' : Proc} (h : stop v p = .ok (v', p')) :
    Tr os (held v) [] (srvN v) 0 0 0 p p' ∧ v' = { v with mcast := [], udp := [] } := by
  rw [stop_eq, Res.bind_eq_ok] at h
  obtain ⟨p1, h1, h⟩ := h
  rw [Res.bind_eq_ok] at h
  obtain ⟨p2, h2, h⟩ := h
  simp at h
  obtain ⟨rfl, rfl⟩ := h
  have t1 := shut_tr (os := os) deleteUdp_none h1
  have t2 := shut_tr (os := os) deleteUdp_none h2
  refine ⟨?_, rfl⟩
  exact ((t1.frame (heldBy v.udp) (subsN v.udp)).trans (t2.cast rfl rfl (by simp) rfl (Nat.le_refl _) rfl)).cast rfl rfl rfl rfl
    (by omega) (by omega)

theorem stop_def {v : Srv} {p : Proc} (h : srvN v ≤ p.cnt) : (stop v p).Defined := by
  unfold srvN at h
  rw [stop_eq]
  obtain ⟨p1, h1⟩ := shut_def deleteUdp_none (l := v.mcast) (p := p) (by omega)
  have t1 := shut_tr (os := workingOs []) deleteUdp_none h1
  obtain ⟨p2, h2⟩ := shut_def deleteUdp_none (l := v.udp) (p := p1) (by have := t1.cnt (subsN v.udp) (by omega); omega)
  rw [h1, Res.bind_ok, h2]
  simp

theorem delete_eq (v : Srv) (p : Proc) : delete v p = (do
    let p ← (do let (l, p) ← each closeSub v.udp p; let (l, p) ← each stopSub l p; clear deleteUdp l p)
    (do let (l, p) ← each closeSub v.mcast p; let (l, p) ← each stopSub l p; clear deleteMcast l p)) := by
  unfold delete
  simp only [Res.bind_assoc]

theorem delete_tr {v : Srv} {p p' : Proc} (h : delete v p = .ok p') : Tr os (held v) [] (srvN v) 0 0 0 p p' := by
  rw [delete_eq, Res.bind_eq_ok] at h
  obtain ⟨p1, h1, h2⟩ := h
  have t1 := shut_tr (os := os) deleteUdp_none h1
  have t2 := shut_tr (os := os) deleteMcast_none h2
  have := ((t1.frame (heldBy v.mcast) (subsN v.mcast)).trans (t2.cast rfl rfl (by simp) rfl (Nat.le_refl _) rfl))
  exact (this.perm (k0 := held v) (k1 := []) List.perm_append_comm (List.Perm.refl _) (m0 := srvN v) (m1 := 0)
    (by unfold srvN; omega) rfl).weaken (by omega) (by omega)

theorem delete_def {v : Srv} {p : Proc} (h : srvN v ≤ p.cnt) : (delete v p).Defined := by
  unfold srvN at h
  rw [delete_eq]
  obtain ⟨p1, h1⟩ := shut_def deleteUdp_none (l := v.udp) (p := p) (by omega)
  have t1 := shut_tr (os := workingOs []) deleteUdp_none h1
  rw [h1, Res.bind_ok]
  exact shut_def deleteMcast_none (by have := t1.cnt (subsN v.mcast) (by omega); omega)

/-- Joining a group changes nothing but the number of the next call. -/
theorem joinGroup_only (p : Proc) : ∃ n, (joinGroup os p).2 = { p with calls := n } := by
  unfold joinGroup getaddrinfo setopt freeaddrinfo Fd.tick
  by_cases h1 : os.addrinfo p.calls = true
  · by_cases h2 : os.addrinfo (p.calls + 1) = true
    · refine ⟨p.calls + 1 + 1 + 1 + 1, ?_⟩
      simp only [h1, h2, if_true, Bool.not_true, Bool.false_eq_true, if_false, Proc.mk.injEq, true_and, and_true]
      omega
    · refine ⟨p.calls + 1 + 1, ?_⟩
      simp only [h1, h2, if_true, Bool.not_true, Bool.not_false, Bool.false_eq_true, if_false, Proc.mk.injEq, true_and, and_true]
      omega
  · exact ⟨p.calls + 1, by simp only [h1, Bool.not_false, Bool.false_eq_true, if_false, if_true]⟩

theorem joinGroup_tr (p : Proc) (h : List Nat) (n : Nat) : Tr os h h n n 0 0 p (joinGroup os p).2 := by
  obtain ⟨k, e⟩ := joinGroup_only (os := os) p
  rw [e]
  exact ⟨fun _ _ _ x => x, fun _ x => x, by simp, fun _ x => x, fun _ => by simp, by simp, fun x => x, fun x => x⟩

/-- Opening a server that has no socket: one socket at most, and the count stays one higher. -/
theorem openSub_tr {k : Kind} {a : String} {b b' : Sub} {ok : Bool} {p p' : Proc} (h : openSub os k a b p = .ok (ok, b', p'))
    (hb : b.sock = none) : Tr os [] (subHeld b') 0 (subN b' + 1) 2 0 p p' ∧ (ok = false → b'.sock = none) := by
  unfold openSub at h
  have hc : closeSub b p = .ok (b, p) := by simp [closeSub, hb]
  rw [hc, Res.bind_ok] at h
  simp only at h
  rw [Res.bind_eq_ok] at h
  obtain ⟨⟨s, p1⟩, h1, h⟩ := h
  rw [Res.bind_eq_ok] at h
  obtain ⟨⟨ok1, s1, p2⟩, h2, h⟩ := h
  unfold sockNew at h1
  rw [Res.bind_eq_ok] at h1
  obtain ⟨p0, h0, h1⟩ := h1
  simp at h1
  obtain ⟨rfl, rfl⟩ := h1
  have t0 := startup_tr (os := os) h0 0
  have t1 := bind_tr h2 rfl 1
  have t01 : Tr os [] s1.id.toList 0 2 2 0 p p2 := (t0.trans t1).weaken (by omega) (by omega)
  have fail : ∀ q, Tr os s1.id.toList s1.id.toList 2 2 0 0 p2 q →
      (do let (b, p) ← closeSub { b with sock := some s1 } q; return (false, b, p) : Res (Bool × Sub × Proc)) = .ok (ok, b', p') →
      Tr os [] (subHeld b') 0 (subN b' + 1) 2 0 p p' ∧ (ok = false → b'.sock = none) := by
    intro q tq hx
    rw [Res.bind_eq_ok] at hx
    obtain ⟨⟨b3, p3⟩, h3, hx⟩ := hx
    simp at hx
    obtain ⟨rfl, rfl, rfl⟩ := hx
    obtain ⟨t3, rfl⟩ := closeSub_tr (os := os) h3
    have t3 := t3.frame [] 1
    refine ⟨?_, fun _ => rfl⟩
    exact ((t01.trans tq).trans (t3.cast (m0 := 2) (k0 := s1.id.toList) (by simp [subHeld]) rfl (by simp [subN]) rfl (Nat.le_refl _) rfl)).cast
      rfl (by simp [subHeld, bare]) rfl (by simp [subN, bare]) (by omega) (by omega)
  cases ok1 with
  | false => exact fail p2 (Tr.refl _ _ _) (by simpa using h)
  | true =>
    simp only [Bool.not_true, Bool.false_eq_true, if_false] at h
    have done : ∀ q, Tr os s1.id.toList s1.id.toList 2 2 0 0 p2 q →
        Res.ok (true, { b with sock := some s1 }, q) = .ok (ok, b', p') →
        Tr os [] (subHeld b') 0 (subN b' + 1) 2 0 p p' ∧ (ok = false → b'.sock = none) := by
      intro q tq hx
      simp at hx
      obtain ⟨rfl, rfl, rfl⟩ := hx
      exact ⟨(t01.trans tq).cast rfl (by simp [subHeld]) rfl (by simp [subN]) (by omega) (by omega), fun hf => by cases hf⟩
    cases k with
    | mcast =>
      simp only [if_true] at h
      have tj := joinGroup_tr (os := os) p2 s1.id.toList 2
      rcases hj : joinGroup os p2 with ⟨ok2, p3⟩
      rw [hj] at h tj
      cases ok2 with
      | false => exact fail p3 tj (by simpa using h)
      | true => exact done p3 tj (by simpa using h)
    | udp => exact done p2 (Tr.refl _ _ _) (by simpa using h)

theorem openSub_def {k : Kind} {a : String} {b : Sub} {p : Proc} (hb : b.sock = none) (h0 : 0 ≤ p.cnt) (h : p.cnt + 2 < 2 ^ 31) :
    (openSub os k a b p).Defined := by
  unfold openSub
  have hc : closeSub b p = .ok (b, p) := by simp [closeSub, hb]
  rw [hc, Res.bind_ok]
  obtain ⟨p0, e0⟩ := startup_def (p := p) (by omega)
  have t0 := startup_tr (os := os) e0 0
  have e1 : sockNew p = .ok (⟨none, ""⟩, p0) := by simp [sockNew, e0]
  simp only [e1, Res.bind_ok]
  obtain ⟨⟨ok1, s1, p2⟩, e2⟩ := bind_def (os := os) (k := k) (a := a) (s := ⟨none, ""⟩) (p := p0) (by have := t0.up; omega)
  have t1 := bind_tr e2 rfl 1
  have hcnt : 2 ≤ p2.cnt := by
    have := t1.cnt 0 (by have := t0.cnt 0 (by simpa using h0); simpa using this)
    simpa using this
  simp only [e2, Res.bind_ok]
  cases ok1 with
  | false =>
    obtain ⟨r, e3⟩ := closeSub_def (b := { b with sock := some s1 }) (p := p2) (by simp [subN]; omega)
    simp [e3]
  | true =>
    cases k with
    | mcast =>
      simp only [Bool.not_true, Bool.false_eq_true, if_false, if_true]
      obtain ⟨n, tj⟩ := joinGroup_only (os := os) p2
      rcases hj : joinGroup os p2 with ⟨ok2, p3⟩
      rw [hj] at tj
      simp only at tj
      cases ok2 with
      | false =>
        obtain ⟨r, e3⟩ := closeSub_def (b := { b with sock := some s1 }) (p := p3) (by simp [subN, tj]; omega)
        simp [e3]
      | true => simp
    | udp => simp

theorem openLoop_tr {k : Kind} : ∀ {as : List String} {ok : Bool} {l : List Sub} {p p' : Proc}, openLoop os k as p = .ok (ok, l, p') →
    Tr os [] (heldBy l) 0 (subsN l + min 1 as.length) (2 * as.length) 0 p p' ∧ l.length ≤ as.length := by
  intro as
  induction as with
  | nil => intro ok l p p' h; simp [openLoop] at h; obtain ⟨-, rfl, rfl⟩ := h; exact ⟨Tr.refl _ _ _, by simp⟩
  | cons a as ih =>
    intro ok l p p' h
    unfold openLoop at h
    rw [Res.bind_eq_ok] at h
    obtain ⟨⟨ok1, b, p1⟩, h1, h⟩ := h
    obtain ⟨t1, n1⟩ := openSub_tr h1 rfl
    cases ok1 with
    | false =>
      simp only [Bool.false_eq_true, if_false] at h
      have hn := n1 rfl
      simp only [deleteMcast_none b _ hn, deleteUdp_none b _ hn, ite_self, Res.bind_ok] at h
      simp at h
      obtain ⟨-, rfl, rfl⟩ := h
      exact ⟨t1.cast rfl (by simp [subHeld, hn, heldBy]) rfl (by simp [subN, hn, subsN]) (by simp; omega) rfl, by simp⟩
    | true =>
      simp only [if_true] at h
      rw [Res.bind_eq_ok] at h
      obtain ⟨⟨ok2, l2, p2⟩, h2, h⟩ := h
      simp at h
      obtain ⟨-, rfl, rfl⟩ := h
      obtain ⟨t2, n2⟩ := ih h2
      have t2 := t2.frameL (subHeld b) (subN b + 1)
      refine ⟨?_, by simp; exact n2⟩
      exact ((t1.trans (t2.cast (by simp) rfl rfl rfl (Nat.le_refl _) rfl)).lower (m := subsN (b :: l2) + min 1 (a :: as).length)
        (by simp [subsN]; omega)).cast rfl (heldBy_cons b l2).symm rfl rfl (by simp; omega) (by omega)

theorem openLoop_def {k : Kind} : ∀ {as : List String} {p : Proc}, 0 ≤ p.cnt → p.cnt + 2 * as.length < 2 ^ 31 →
    (openLoop os k as p).Defined := by
  intro as
  induction as with
  | nil => intro p _ _; simp [openLoop]
  | cons a as ih =>
    intro p h0 h
    simp only [List.length_cons] at h
    obtain ⟨⟨ok1, b, p1⟩, e1⟩ := openSub_def (os := os) (k := k) (a := a) (b := ⟨none, false⟩) (p := p) rfl h0 (by omega)
    obtain ⟨t1, n1⟩ := openSub_tr e1 rfl
    unfold openLoop
    rw [e1, Res.bind_ok]
    cases ok1 with
    | false =>
      have hn := n1 rfl
      simp [deleteMcast_none b _ hn, deleteUdp_none b _ hn]
    | true =>
      obtain ⟨r, e2⟩ := ih (p := p1) (by have := t1.cnt 0 (by simpa using h0); omega) (by have := t1.up; omega)
      simp [e2]

theorem openList_tr {k : Kind} {l l' : List Sub} {ok : Bool} {p p' : Proc} (h : openList os k l p = .ok (ok, l', p')) :
    ∃ m, (∃ j, m = (os.ifaces j).length) ∧
    Tr os (heldBy l) (heldBy l') (subsN l) (subsN l') (2 * m) 0 p p' ∧ l'.length ≤ l.length + m ∧
      ((∀ n, os.ifaces n ≠ []) → Tr os (heldBy l) (heldBy l') (subsN l) (subsN l' + 1) (2 * m) 0 p p') := by
  unfold openList at h
  rw [Res.bind_eq_ok] at h
  obtain ⟨⟨l1, p1⟩, h1, h⟩ := h
  obtain ⟨t1, rfl⟩ := each_closeSub_tr (os := os) h1
  have hn : NoSocks (l.map bare) := by
    intro b hb
    obtain ⟨x, -, rfl⟩ := List.mem_map.1 hb
    rfl
  refine ⟨(os.ifaces p1.calls).length, ⟨_, rfl⟩, ?_⟩
  generalize hmm : (os.ifaces p1.calls).length = m
  simp only at h
  split at h
  next hi =>
    simp at h
    obtain ⟨-, rfl, rfl⟩ := h
    have t := (t1.trans (Tr.tick p1 [] 0)).weaken (c' := 2 * m) (by omega) (d' := 0) (by omega)
    exact ⟨t.cast rfl hn.held.symm rfl hn.n.symm (Nat.le_refl _) rfl, by simp, fun hx => absurd hi (hx _)⟩
  next hi =>
    rw [Res.bind_eq_ok] at h
    obtain ⟨⟨ok2, r, p2⟩, h2, h⟩ := h
    obtain ⟨t2, n2⟩ := openLoop_tr h2
    have hlen := Nat.le_of_eq hmm
    have hpos : min 1 (os.ifaces p1.calls).length = 1 := by
      cases hx : os.ifaces p1.calls with
      | nil => exact absurd hx hi
      | cons => simp
    rw [hpos] at t2
    have t12 : Tr os (heldBy l) (heldBy r) (subsN l) (subsN r + 1) (2 * m) 0 p p2 :=
      ((t1.trans (Tr.tick p1 [] 0)).trans t2).weaken (by omega) (by omega)
    cases ok2 with
    | true =>
      simp at h
      obtain ⟨-, rfl, rfl⟩ := h
      have t3 := t12.cast (k1 := heldBy ((l.map bare) ++ r))
        (m1 := subsN ((l.map bare) ++ r) + 1) rfl (by rw [heldBy_append, hn.held]; rfl) rfl
        (by rw [subsN_append, hn.n]; omega) (Nat.le_refl _) rfl
      exact ⟨t3.lower (by omega), by simp; omega, fun _ => t3⟩
    | false =>
      simp only [Bool.false_eq_true, if_false] at h
      rw [Res.bind_eq_ok] at h
      obtain ⟨⟨l3, p3⟩, h3, h⟩ := h
      simp at h
      obtain ⟨-, rfl, rfl⟩ := h
      obtain ⟨t3, rfl⟩ := each_closeSub_tr (os := os) h3
      have hn' : NoSocks (((l.map bare) ++ r).map bare) := by
        intro b hb
        obtain ⟨x, -, rfl⟩ := List.mem_map.1 hb
        rfl
      have t4 := t12.trans ((t3.frame [] 1).cast (k0 := heldBy r) (m0 := subsN r + 1) (by simp [heldBy_append, hn.held]) rfl
        (by rw [subsN_append, hn.n]; omega) rfl (Nat.le_refl _) rfl)
      have t5 := t4.cast (k1 := heldBy (((l.map bare) ++ r).map bare))
        (m1 := subsN (((l.map bare) ++ r).map bare) + 1) rfl
        (by rw [hn'.held]; rfl) rfl (by rw [hn'.n]) (c' := 2 * m) (by omega) (d' := 0) (by omega)
      exact ⟨t5.lower (by omega), by simp; omega, fun _ => t5⟩

theorem openList_def {k : Kind} {l : List Sub} {p : Proc} (m : Nat) (hm : ∀ n, (os.ifaces n).length ≤ m) (h0 : subsN l ≤ p.cnt)
    (h : p.cnt + 2 * m < 2 ^ 31) : (openList os k l p).Defined := by
  obtain ⟨⟨l1, p1⟩, e1⟩ := each_closeSub_def h0
  obtain ⟨t1, rfl⟩ := each_closeSub_tr (os := os) e1
  have hn : NoSocks (l.map bare) := by
    intro b hb
    obtain ⟨x, -, rfl⟩ := List.mem_map.1 hb
    rfl
  unfold openList
  rw [e1, Res.bind_ok]
  simp only
  split
  next => simp
  next hi =>
    have hlen := hm p1.calls
    have hz : 0 ≤ p1.cnt := by have := t1.cnt 0 (by simpa using h0); omega
    obtain ⟨⟨ok2, r, p2⟩, e2⟩ := openLoop_def (os := os) (k := k) (as := os.ifaces p1.calls) (p := Fd.tick p1) (by simpa [Fd.tick] using hz)
      (by have := t1.up; simp [Fd.tick]; omega)
    obtain ⟨t2, n2⟩ := openLoop_tr e2
    rw [e2, Res.bind_ok]
    cases ok2 with
    | true => simp
    | false =>
      obtain ⟨x, e3⟩ := each_closeSub_def (l := (l.map bare) ++ r) (p := p2) (by
        rw [subsN_append, hn.n]
        have := t2.cnt 0 (by simpa [Fd.tick] using hz)
        omega)
      simp [e3]

theorem startSub_tr {b b' : Sub} {ok : Bool} {p p' : Proc} (h : startSub os b p = .ok (ok, b', p')) :
    Tr os (subHeld b) (subHeld b') (subN b) (subN b') 0 0 p p' := by
  unfold startSub at h
  rw [Res.bind_eq_ok] at h
  obtain ⟨⟨b1, p1⟩, h1, h⟩ := h
  obtain ⟨t1, -, -⟩ := stopSub_tr (os := os) h1
  simp only at h
  split at h
  next => simp at h; obtain ⟨-, rfl, rfl⟩ := h; exact t1
  next =>
    split at h
    next => simp at h; obtain ⟨-, rfl, rfl⟩ := h; exact (t1.trans (Tr.tick p1 _ _)).weaken (by omega) (by omega)
    next =>
      rw [Res.bind_eq_ok] at h
      obtain ⟨⟨b2, p2⟩, h2, h⟩ := h
      simp at h
      obtain ⟨-, rfl, rfl⟩ := h
      obtain ⟨t2, -, -⟩ := stopSub_tr (os := os) h2
      exact (t1.trans ((Tr.tick p1 _ _).trans t2)).weaken (by omega) (by omega)

theorem startSub_def {b : Sub} {p : Proc} (h : subN b ≤ p.cnt) : (startSub os b p).Defined := by
  obtain ⟨⟨b1, p1⟩, e1⟩ := stopSub_def h
  obtain ⟨t1, -, -⟩ := stopSub_tr (os := os) e1
  unfold startSub
  rw [e1, Res.bind_ok]
  simp only
  split
  next => simp
  next =>
    split
    next => simp
    next =>
      obtain ⟨r, e2⟩ := stopSub_def (b := { b1 with thread := true }) (p := Fd.tick p1) (by
        have := t1.cnt 0 (by simpa using h)
        simpa [Fd.tick, subN] using this)
      simp [e2]

theorem startLoop_tr : ∀ {l l' : List Sub} {ok : Bool} {p p' : Proc}, startLoop os l p = .ok (ok, l', p') →
    Tr os (heldBy l) (heldBy l') (subsN l) (subsN l') 0 0 p p' ∧ l'.length = l.length := by
  intro l
  induction l with
  | nil => intro l' ok p p' h; simp [startLoop] at h; obtain ⟨-, rfl, rfl⟩ := h; exact ⟨Tr.refl _ _ _, rfl⟩
  | cons b l ih =>
    intro l' ok p p' h
    unfold startLoop at h
    rw [Res.bind_eq_ok] at h
    obtain ⟨⟨ok1, b1, p1⟩, h1, h⟩ := h
    rw [Res.bind_eq_ok] at h
    obtain ⟨⟨ok2, l1, p2⟩, h2, h⟩ := h
    simp at h
    obtain ⟨-, rfl, rfl⟩ := h
    have t1 := startSub_tr h1
    obtain ⟨t2, e2⟩ := ih h2
    exact ⟨((t1.frame (heldBy l) (subsN l)).trans (t2.frameL (subHeld b1) (subN b1))).cast (heldBy_cons b l) (heldBy_cons b1 l1).symm rfl rfl
      (by omega) (by omega), by simp [e2]⟩

theorem startLoop_def : ∀ {l : List Sub} {p : Proc}, subsN l ≤ p.cnt → (startLoop os l p).Defined := by
  intro l
  induction l with
  | nil => intro p h; simp [startLoop]
  | cons b l ih =>
    intro p h
    simp only [subsN] at h
    obtain ⟨⟨ok1, b1, p1⟩, h1⟩ := startSub_def (os := os) (b := b) (p := p) (by omega)
    have t1 := startSub_tr h1
    obtain ⟨⟨ok2, l1, p2⟩, h2⟩ := ih (p := p1) (by have := t1.cnt (subsN l) (by omega); omega)
    exact ⟨_, by simp [startLoop, h1, h2]; rfl⟩

theorem startList_tr {l l' : List Sub} {ok : Bool} {p p' : Proc} (h : startList os l p = .ok (ok, l', p')) :
    Tr os (heldBy l) (heldBy l') (subsN l) (subsN l') 0 0 p p' ∧ l'.length = l.length := by
  unfold startList at h
  rw [Res.bind_eq_ok] at h
  obtain ⟨⟨l1, p1⟩, h1, h⟩ := h
  obtain ⟨t1, -, e1⟩ := each_stopSub_tr (os := os) h1
  obtain ⟨t2, e2⟩ := startLoop_tr h
  exact ⟨(t1.trans t2).weaken (by omega) (by omega), e2.trans e1⟩

theorem startList_def {l : List Sub} {p : Proc} (h : subsN l ≤ p.cnt) : (startList os l p).Defined := by
  obtain ⟨⟨l1, p1⟩, e1⟩ := each_stopSub_def h
  obtain ⟨t1, -, -⟩ := each_stopSub_tr (os := os) e1
  unfold startList
  rw [e1, Res.bind_ok]
  exact startLoop_def (by have := t1.cnt 0 (by simpa using h); simpa using this)

end Uecho.Lemmas
