import Verif.Lemmas.FdRun
/-!
# Properties C103–C106: what a node takes from the operating system and gives back
-/
namespace Uecho.Props
open Uecho Uecho.Spec Uecho.Lemmas Uecho.Fd
open Uecho.Server (Kind)

/-- Reading a run off: for the examples. -/
def ends {α : Type} (x : Res α) (f : α → Bool) : Bool :=
  match x with
  | .ok a => f a
  | .ub => false

theorem ends_ok {α : Type} {x : Res α} {f : α → Bool} (h : ends x f = true) : ∃ a, x = .ok a ∧ f a = true := by
  cases x with
  | ok a => exact ⟨a, rfl, h⟩
  | ub => cases h

theorem fdRun_cons {os : Os} {op : FdOp} {ops : List FdOp} {s s' : FdSt} (h : fdRun os (op :: ops) s = .ok s') :
    ∃ s1, fdStep os op s = .ok s1 ∧ fdRun os ops s1 = .ok s' := by
  unfold fdRun at h
  rw [Res.bind_eq_ok] at h
  exact h

theorem fdRun_append {os : Os} : ∀ {a b : List FdOp} {s s' : FdSt}, fdRun os (a ++ b) s = .ok s' →
    ∃ s1, fdRun os a s = .ok s1 ∧ fdRun os b s1 = .ok s' := by
  intro a
  induction a with
  | nil => intro b s s' h; exact ⟨s, rfl, h⟩
  | cons op a ih =>
    intro b s s' h
    obtain ⟨s1, h1, h2⟩ := fdRun_cons h
    obtain ⟨s2, h3, h4⟩ := ih h2
    exact ⟨s2, by simp [fdRun, h1, h3], h4⟩

theorem fdRun_inv {os : Os} (hf : Fresh os) : ∀ {ops : List FdOp} {s s' : FdSt}, fdRun os ops s = .ok s' → FdOp.appClose 0 ∉ ops →
    FdInv s.app (held s.srv) s.proc → FdInv s'.app (held s'.srv) s'.proc := by
  intro ops
  induction ops with
  | nil => intro s s' h _ x; cases h; exact x
  | cons op ops ih =>
    intro s s' h hn x
    obtain ⟨s1, h1, h2⟩ := fdRun_cons h
    simp only [List.mem_cons, not_or] at hn
    exact ih h2 hn.2 (fdStep_inv hf h1 (Ne.symm hn.1) x)

theorem fdInit_inv (app : List Nat) (d : Pipe) (h0 : 0 ∈ app) (hn : app.Nodup) :
    FdInv (fdInit app d).app (held (fdInit app d).srv) (fdInit app d).proc := ⟨List.Perm.refl _, hn, h0⟩

/-- **C103, partial** (the descriptor 0 is in use, as it is when standard input is open). Whatever the node and the application do, and
whichever calls of the operating system fail, the open descriptors are those of the application and those that sockets of the node hold,
each once: none is left open without an owner, and the node closes none that is the application's. -/
theorem C103_balanced_partial (os : Os) (hf : Fresh os) (app : List Nat) (d : Pipe) (h0 : 0 ∈ app) (hn : app.Nodup) (ops : List FdOp)
    (hops : FdOp.appClose 0 ∉ ops) (s : FdSt) (h : fdRun os ops (fdInit app d) = .ok s) :
    s.proc.fds.Perm (held s.srv ++ s.app) ∧ s.proc.fds.Nodup :=
  let x := fdRun_inv hf h hops (fdInit_inv app d h0 hn)
  ⟨x.1, x.2.1⟩

/-- **C103.** Sending a datagram from a closed socket succeeds exactly if the address is understood, a descriptor is granted and the
datagram is taken. All address lists are given back, and the descriptor too unless it is 0. -/
theorem C103_send (os : Os) (s : Sock) (p : Proc) (hs : s.id = none) (hc : p.cnt < 2 ^ 31 - 1) :
    ∃ ok s' p', sendTo os s p = .ok (ok, s', p') ∧ p'.infos = p.infos ∧
      (ok = true ↔ os.addrinfo p.calls = true ∧ (os.socket (p.calls + 1) p.fds).isSome = true ∧ os.sendto (p.calls + 2) = true) ∧
      (os.socket (p.calls + 1) p.fds ≠ some 0 → p'.fds = p.fds ∧ s'.id = none) := by
  obtain ⟨id, addr⟩ := s
  cases (show id = none from hs)
  have hst : ∃ q, startup p = .ok q ∧ q.calls = p.calls ∧ q.fds = p.fds ∧ q.infos = p.infos := by
    by_cases h0 : p.cnt = 0
    · exact ⟨{ p with pipe := .ign, cnt := p.cnt + 1 }, by simp [startup, h0], rfl, rfl, rfl⟩
    · exact ⟨{ p with cnt := p.cnt + 1 }, by simp only [startup, if_neg h0]; rw [if_pos hc], rfl, rfl, rfl⟩
  obtain ⟨q, hq, q1, q2, q3⟩ := hst
  simp only [sendTo, toSockAddrInfo, hq, Res.bind_ok, getaddrinfo, q1, isBound]
  cases ha : os.addrinfo p.calls with
  | false => exact ⟨_, _, _, rfl, by simp [tick, q3], by simp, fun _ => ⟨by simp [tick, q2], rfl⟩⟩
  | true =>
    simp only [if_true, Bool.not_true, Bool.false_eq_true, if_false, Res.pure_eq, Res.bind_ok, open_, tick, q1, q2]
    cases hf : os.socket (p.calls + 1) p.fds with
    | none => exact ⟨_, _, _, rfl, by simp [freeaddrinfo, close, q3], by simp, fun _ => ⟨by simp [freeaddrinfo, close, q2], rfl⟩⟩
    | some fd =>
      simp only [freeaddrinfo, close, isBound, Option.isSome_some, if_true]
      by_cases h0 : 0 < fd
      · simp only [h0, decide_true, if_true]
        exact ⟨_, _, _, rfl, by simp only [q3]; omega, by simp, fun _ => ⟨by simp, rfl⟩⟩
      · simp only [h0, decide_false, Bool.false_eq_true, if_false]
        refine ⟨_, _, _, rfl, by simp only [q3]; omega, by simp, fun hne => absurd ?_ hne⟩
        rw [show fd = 0 by omega]

example : ∃ os : Os, ∃ s' p', sendTo os ⟨none, ""⟩ ⟨[0, 1, 2], 0, 0, .dfl, 0⟩ = .ok (true, s', p') ∧ p'.fds = [0, 1, 2] :=
  ⟨workingOs [], _, _, rfl, rfl⟩

/-- **C103, partial** (as above). After a stop, and after deleting the node, only the application's descriptors are open. -/
theorem C103_closed_partial (os : Os) (hf : Fresh os) (app : List Nat) (d : Pipe) (h0 : 0 ∈ app) (hn : app.Nodup) (ops : List FdOp)
    (hops : FdOp.appClose 0 ∉ ops) (s : FdSt) (h : fdRun os ops (fdInit app d) = .ok s) :
    (∀ s', fdStep os .stop s = .ok s' → s'.proc.fds.Perm s.app) ∧ (∀ p, delete s.srv s.proc = .ok p → p.fds.Perm s.app) := by
  have x := fdRun_inv hf h hops (fdInit_inv app d h0 hn)
  constructor
  · intro s' hs
    simp only [fdStep] at hs
    rw [Res.bind_eq_ok] at hs
    obtain ⟨⟨v, p⟩, h1, hs⟩ := hs
    cases hs
    exact ((stop_tr (os := os) h1).1.fds0 hf x).1
  · intro p hp
    exact ((delete_tr (os := os) hp).fds0 hf x).1

theorem lowest_fresh (l : List Nat) (n : Nat) (h : lowest l = some n) : n ∉ l := by
  unfold lowest at h
  have := List.find?_some h
  simpa using this

theorem workingOs_fresh (ifs : List String) : Fresh (workingOs ifs) := fun _ l fd h => lowest_fresh l fd h

/-- A process with the usual three descriptors; the node takes 3 and 4, the application 5; after the stop only 5 remains of them. -/
example : ∃ s, fdRun (workingOs ["192.168.0.2"]) [.start, .appOpen, .announce, .send] (fdInit [0, 1, 2] .dfl) = .ok s ∧
    s.proc.fds = [5, 4, 3, 0, 1, 2] ∧ held s.srv = [3, 4] ∧ s.app = [5, 0, 1, 2] := by
  obtain ⟨s, h, e⟩ := ends_ok (f := fun s => s.proc.fds == [5, 4, 3, 0, 1, 2] && held s.srv == [3, 4] && s.app == [5, 0, 1, 2])
    (show ends (fdRun (workingOs ["192.168.0.2"]) [.start, .appOpen, .announce, .send] (fdInit [0, 1, 2] .dfl)) _ = true by decide +kernel)
  simp at e
  exact ⟨s, h, e.1.1, e.1.2, e.2⟩

example : ∃ s, fdRun (workingOs ["192.168.0.2"]) [.start, .appOpen, .announce, .send, .stop] (fdInit [0, 1, 2] .dfl) = .ok s ∧
    s.proc.fds = [5, 0, 1, 2] := by
  obtain ⟨s, h, e⟩ := ends_ok (f := fun s => s.proc.fds == [5, 0, 1, 2])
    (show ends (fdRun (workingOs ["192.168.0.2"]) [.start, .appOpen, .announce, .send, .stop] (fdInit [0, 1, 2] .dfl)) _ = true by decide +kernel)
  exact ⟨s, h, by simpa using e⟩

/-- An operating system on which the second `bind` fails: two interfaces; nothing is left open. -/
example : ∃ s, fdRun { workingOs ["192.168.0.2", "10.0.0.2"] with bind := fun n => decide (n < 10) } [.start] (fdInit [0, 1, 2] .dfl) = .ok s ∧
    s.proc.fds = [0, 1, 2] ∧ s.srv.mcast = [] ∧ s.proc.calls = 22 := by
  obtain ⟨s, h, e⟩ := ends_ok (f := fun s => s.proc.fds == [0, 1, 2] && s.srv.mcast == [] && s.proc.calls == 22)
    (show ends (fdRun { workingOs ["192.168.0.2", "10.0.0.2"] with bind := fun n => decide (n < 10) } [.start] (fdInit [0, 1, 2] .dfl)) _ = true
      by decide +kernel)
  simp at e
  exact ⟨s, h, e.1.1, e.1.2, e.2⟩

theorem lowest_zero {l : List Nat} (h : 0 ∉ l) : lowest l = some 0 := by
  unfold lowest
  rw [List.range_succ_eq_map]
  simp [h]

/-- A node that is given the descriptor 0 keeps it open. -/
theorem zero_step {os : Os} (hf : Fresh os) {op : FdOp} {s s' : FdSt} (h : fdStep os op s = .ok s') (x : 0 ∈ s.proc.fds ∧ 0 ∉ s.app) :
    0 ∈ s'.proc.fds ∧ 0 ∉ s'.app := by
  cases op with
  | start =>
    simp only [fdStep] at h
    rw [Res.bind_eq_ok] at h
    obtain ⟨⟨ok, v, p⟩, h1, h⟩ := h
    cases h
    obtain ⟨m, -, t, -⟩ := start_tr h1
    exact ⟨t.zero x.1, x.2⟩
  | stop =>
    simp only [fdStep] at h
    rw [Res.bind_eq_ok] at h
    obtain ⟨⟨v, p⟩, h1, h⟩ := h
    cases h
    exact ⟨(stop_tr (os := os) h1).1.zero x.1, x.2⟩
  | announce =>
    simp only [fdStep] at h
    rw [Res.bind_eq_ok] at h
    obtain ⟨⟨ok, v, p⟩, h1, h⟩ := h
    cases h
    exact ⟨(postAnnounce_tr h1).1.zero x.1, x.2⟩
  | send =>
    simp only [fdStep] at h
    rw [Res.bind_eq_ok] at h
    obtain ⟨⟨ok, v, p⟩, h1, h⟩ := h
    cases h
    exact ⟨(postResponse_tr h1).1.zero x.1, x.2⟩
  | appOpen =>
    simp only [fdStep] at h
    split at h
    next fd hs =>
      cases h
      refine ⟨List.mem_cons_of_mem _ x.1, ?_⟩
      intro hm
      rcases List.mem_cons.1 hm with rfl | hm
      · exact hf _ _ _ hs x.1
      · exact x.2 hm
    next => cases h; exact x
  | appClose fd =>
    simp only [fdStep] at h
    split at h
    next hm =>
      cases h
      have : fd ≠ 0 := fun e => x.2 (e ▸ hm)
      exact ⟨(List.mem_erase_of_ne (Ne.symm this)).2 x.1, fun e => x.2 (List.mem_of_mem_erase e)⟩
    next => cases h; exact x
  | appSignal d => cases h; exact x

/-- **C103 fails if the descriptor 0 is free** (a process that closed its standard input, as daemons do). The node's first socket gets
descriptor 0, and whatever happens then — stop, restart, any number of times — it stays open although it is not the application's. -/
theorem C103_descriptor_zero_violated (a : String) (as : List String) (app : List Nat) (h0 : 0 ∉ app) (d : Pipe) (ops : List FdOp) (s : FdSt)
    (h : fdRun (workingOs (a :: as)) (.start :: ops) (fdInit app d) = .ok s) : 0 ∈ s.proc.fds ∧ 0 ∉ s.app := by
  obtain ⟨s1, h1, h2⟩ := fdRun_cons h
  have key : 0 ∈ s1.proc.fds ∧ 0 ∉ s1.app := by
    simp only [fdStep] at h1
    rw [Res.bind_eq_ok] at h1
    obtain ⟨⟨ok, v, p⟩, h1, hs⟩ := h1
    cases hs
    refine ⟨?_, h0⟩
    -- the first socket
    have e1 : openSub (workingOs (a :: as)) .mcast a ⟨none, false⟩ ⟨app, 0, 0, d, 1⟩ =
        .ok (true, ⟨some ⟨some 0, a⟩, false⟩, ⟨0 :: app, 0, 2, .ign, 11⟩) := by
      simp [openSub, closeSub, sockNew, startup, Fd.bind, toSockAddrInfo, getaddrinfo, workingOs, tick, freeaddrinfo, open_, lowest_zero h0,
        setopt, joinGroup]
    have hz : ∀ {q : Bool × List Sub × Proc}, openList (workingOs (a :: as)) .mcast [] ⟨app, 0, 0, d, 0⟩ = .ok q → 0 ∈ q.2.2.fds := by
      intro q hq
      unfold openList at hq
      rw [show each closeSub [] ⟨app, 0, 0, d, 0⟩ = .ok ([], ⟨app, 0, 0, d, 0⟩) from rfl, Res.bind_ok] at hq
      simp only [show (workingOs (a :: as)).ifaces 0 = a :: as from rfl, tick, reduceCtorEq, if_false, openLoop] at hq
      rw [e1] at hq
      simp only [Res.bind_ok, if_true] at hq
      rw [Res.bind_eq_ok] at hq
      obtain ⟨q1, e2, hq⟩ := hq
      rw [Res.bind_eq_ok] at e2
      obtain ⟨q2, e2, e3⟩ := e2
      have z2 : 0 ∈ q2.2.2.fds := (openLoop_tr e2).1.zero (by simp)
      cases e3
      simp only at hq
      split at hq
      next => cases hq; exact z2
      next =>
        rw [Res.bind_eq_ok] at hq
        obtain ⟨q3, e4, hq⟩ := hq
        cases hq
        exact (each_closeSub_tr (os := workingOs []) e4).1.zero z2
    unfold start at h1
    rw [show stop (fdInit app d).srv (fdInit app d).proc = .ok (Fd.new, ⟨app, 0, 0, d, 0⟩) from rfl, Res.bind_ok] at h1
    rw [Res.bind_eq_ok] at h1
    obtain ⟨⟨ok1, mc1, p1⟩, e1, h1⟩ := h1
    have z1 := hz e1
    rw [Res.bind_eq_ok] at h1
    obtain ⟨⟨ok2, ud2, p2⟩, e2, h1⟩ := h1
    have e2 : openList (workingOs (a :: as)) .udp [] p1 = .ok (ok2, ud2, p2) := e2
    obtain ⟨_, _, t2, _⟩ := openList_tr e2
    rw [Res.bind_eq_ok] at h1
    obtain ⟨⟨ok3, mc3, p3⟩, e3, h1⟩ := h1
    rw [Res.bind_eq_ok] at h1
    obtain ⟨⟨ok4, ud4, p4⟩, e4, h1⟩ := h1
    have e4 : startList (workingOs (a :: as)) ud2 p3 = .ok (ok4, ud4, p4) := e4
    have z4 : 0 ∈ p4.fds := (startList_tr e4).1.zero ((startList_tr e3).1.zero (t2.zero z1))
    simp only at h1
    split at h1
    next => cases h1; exact z4
    next =>
      rw [Res.bind_eq_ok] at h1
      obtain ⟨⟨v5, p5⟩, e5, h1⟩ := h1
      cases h1
      exact (stop_tr (os := workingOs []) e5).1.zero z4
  clear h h1
  revert s1
  induction ops with
  | nil => intro s1 h2 x; cases h2; exact x
  | cons op ops ih =>
    intro s1 h2 x
    obtain ⟨s2, h3, h4⟩ := fdRun_cons h2
    exact ih s2 h4 (zero_step (workingOs_fresh _) h3 x)

/-- Such a process: the start reports success, the node stops, descriptor 0 stays. -/
example : ∃ r, start (workingOs ["192.168.0.2"]) Fd.new ⟨[1, 2], 0, 0, .dfl, 0⟩ = .ok r ∧ r.1 = true ∧ held r.2.1 = [0, 3] := by
  obtain ⟨s, h, e⟩ := ends_ok (f := fun r => r.1 && held r.2.1 == [0, 3])
    (show ends (start (workingOs ["192.168.0.2"]) Fd.new ⟨[1, 2], 0, 0, .dfl, 0⟩) _ = true by decide +kernel)
  simp at e
  exact ⟨s, h, e.1, e.2⟩

example : ∃ s, fdRun (workingOs ["192.168.0.2"]) [.start, .stop] (fdInit [1, 2] .dfl) = .ok s ∧ s.proc.fds = [0, 1, 2] ∧ s.app = [1, 2] ∧
    s.srv = Fd.new := by
  obtain ⟨s, h, e⟩ := ends_ok (f := fun s => s.proc.fds == [0, 1, 2] && s.app == [1, 2] && s.srv == Fd.new)
    (show ends (fdRun (workingOs ["192.168.0.2"]) [.start, .stop] (fdInit [1, 2] .dfl)) _ = true by decide +kernel)
  simp at e
  exact ⟨s, h, e.1.1, e.1.2, e.2⟩

/-! ### C104: address lists -/

theorem step_tr {os : Os} {op : FdOp} {s s' : FdSt} (h : fdStep os op s = .ok s') :
    (NoSockErr os → s'.proc.infos = s.proc.infos) ∧ s.proc.infos ≤ s'.proc.infos ∧
    (∀ e : Nat, (srvN s.srv + e : Nat) ≤ s.proc.cnt → (srvN s'.srv + e : Nat) ≤ s'.proc.cnt) ∧
    ((∀ d, op ≠ .appSignal d) → srvN s.srv ≤ s.proc.cnt → (1 ≤ s.proc.cnt → s.proc.pipe = .ign) → 1 ≤ s'.proc.cnt → s'.proc.pipe = .ign) := by
  have fin : ∀ {h0 h1 : List Nat} {n1 c : Nat} {v : Srv} {p : Proc}, Tr os h0 h1 (srvN s.srv) n1 c 0 s.proc p → srvN v ≤ n1 →
      s' = { s with srv := v, proc := p } → (NoSockErr os → s'.proc.infos = s.proc.infos) ∧ s.proc.infos ≤ s'.proc.infos ∧
    (∀ e : Nat, (srvN s.srv + e : Nat) ≤ s.proc.cnt → (srvN s'.srv + e : Nat) ≤ s'.proc.cnt) ∧
    ((∀ d, op ≠ .appSignal d) → srvN s.srv ≤ s.proc.cnt → (1 ≤ s.proc.cnt → s.proc.pipe = .ign) → 1 ≤ s'.proc.cnt → s'.proc.pipe = .ign) := by
    intro h0 h1 n1 c v p t hn e
    subst e
    refine ⟨fun g => by have := t.infos g; simp only; omega, by have := t.leak; simp only; omega, fun e x => ?_, fun _ => t.pipe⟩
    have := t.cnt e x
    simp only
    omega
  cases op with
  | start =>
    simp only [fdStep] at h
    rw [Res.bind_eq_ok] at h
    obtain ⟨⟨ok, v, p⟩, h1, h⟩ := h
    obtain ⟨m, _, t, _⟩ := start_tr h1
    exact fin t (Nat.le_refl _) (by cases h; rfl)
  | stop =>
    simp only [fdStep] at h
    rw [Res.bind_eq_ok] at h
    obtain ⟨⟨v, p⟩, h1, h⟩ := h
    obtain ⟨t, rfl⟩ := stop_tr (os := os) h1
    exact fin (v := { s.srv with mcast := [], udp := [] }) t (by simp [srvN, subsN]) (by cases h; rfl)
  | announce =>
    simp only [fdStep] at h
    rw [Res.bind_eq_ok] at h
    obtain ⟨⟨ok, v, p⟩, h1, h⟩ := h
    exact fin (postAnnounce_tr h1).1 (Nat.le_refl _) (by cases h; rfl)
  | send =>
    simp only [fdStep] at h
    rw [Res.bind_eq_ok] at h
    obtain ⟨⟨ok, v, p⟩, h1, h⟩ := h
    exact fin (v := v) (postResponse_tr h1).1 (by omega) (by cases h; rfl)
  | appOpen =>
    simp only [fdStep] at h
    split at h <;> cases h <;> exact ⟨fun _ => rfl, by simp [tick], fun _ x => x, fun _ _ x => x⟩
  | appClose fd =>
    simp only [fdStep] at h
    split at h <;> cases h <;> exact ⟨fun _ => rfl, by simp, fun _ x => x, fun _ _ x => x⟩
  | appSignal d => cases h; exact ⟨fun _ => rfl, by simp, fun _ x => x, fun x => absurd rfl (x d)⟩

/-- **C104, partial** (the operating system has descriptors, and options can be set; looking up addresses, binding, joining, sending and
making threads may fail). Every address list that a node looked up has been freed. -/
theorem C104_freed_partial (os : Os) (hos : NoSockErr os) (ops : List FdOp) : ∀ (s s' : FdSt), fdRun os ops s = .ok s' →
    s'.proc.infos = s.proc.infos := by
  induction ops with
  | nil => intro s s' h; cases h; rfl
  | cons op ops ih =>
    intro s s' h
    obtain ⟨s1, h1, h2⟩ := fdRun_cons h
    exact (ih s1 s' h2).trans ((step_tr h1).1 hos)

theorem lowest_some (l : List Nat) : lowest l ≠ none := by
  intro h
  have h := List.find?_eq_none.1 h
  have : (List.range (l.length + 1)).length ≤ l.length := by
    refine List.Nodup.length_le_of_subset List.nodup_range fun x hx => ?_
    have := h x hx
    simpa using this
  simp at this
  omega

/-- A system on which every third call of `getaddrinfo` fails. -/
def flakyOs : Os := { workingOs ["192.168.0.2"] with addrinfo := fun n => n % 3 != 0 }

example : NoSockErr flakyOs ∧ ∃ s, fdRun flakyOs [.start, .send, .announce, .start] (fdInit [0, 1, 2] .dfl) = .ok s ∧
    s.proc.calls = 25 ∧ s.proc.infos = 0 := by
  obtain ⟨s, h, e⟩ := ends_ok (f := fun s => s.proc.calls == 25 && s.proc.infos == 0)
    (show ends (fdRun flakyOs [.start, .send, .announce, .start] (fdInit [0, 1, 2] .dfl)) _ = true by decide +kernel)
  simp at e
  exact ⟨⟨fun n l => lowest_some l, fun _ => rfl⟩, s, h, e.1, e.2⟩

/-- The lookup of the interface fails while the group is joined: the list of the group is freed. -/
example : ∃ s, fdRun { workingOs ["192.168.0.2"] with addrinfo := fun n => n != 8 } [.start] (fdInit [0, 1, 2] .dfl) = .ok s ∧
    s.srv.mcast = [] ∧ s.proc.infos = 0 := by
  obtain ⟨s, h, e⟩ := ends_ok (f := fun s => s.srv.mcast == [] && s.proc.infos == 0)
    (show ends (fdRun { workingOs ["192.168.0.2"] with addrinfo := fun n => n != 8 } [.start] (fdInit [0, 1, 2] .dfl)) _ = true
      by decide +kernel)
  simp at e
  exact ⟨s, h, e.1, e.2⟩

/-- Operating systems without a free descriptor; addresses can be looked up. -/
def Exhausted (os : Os) : Prop := (∀ n, os.addrinfo n = true) ∧ (∀ n l, os.socket n l = none) ∧ ∀ n, os.ifaces n ≠ []

/-- **C104 fails when no descriptor is free.** Each attempt to start leaves an address list behind: an application that keeps trying runs
out of memory. -/
theorem C104_no_descriptor_violated (os : Os) (hos : Exhausted os) (k : Nat) : ∀ (s s' : FdSt), 0 ≤ s.proc.cnt → srvN s.srv ≤ s.proc.cnt →
    fdRun os (List.replicate k .start) s = .ok s' → s.proc.infos + k ≤ s'.proc.infos := by
  induction k with
  | zero => intro s s' _ _ h; cases h; simp
  | succ k ih =>
    intro s s' hc hn h
    rw [List.replicate_succ] at h
    obtain ⟨s1, h1, h2⟩ := fdRun_cons h
    have st := step_tr h1
    have hn1 : (srvN s1.srv : Int) ≤ s1.proc.cnt := by have := st.2.2.1 0 (by simpa using hn); simpa using this
    have := ih s1 s' (by omega) hn1 h2
    suffices s.proc.infos + 1 ≤ s1.proc.infos by omega
    -- one start
    simp only [fdStep] at h1
    rw [Res.bind_eq_ok] at h1
    obtain ⟨⟨ok, v, p⟩, h1, e⟩ := h1
    cases e
    unfold start at h1
    rw [Res.bind_eq_ok] at h1
    obtain ⟨⟨v0, p0⟩, e0, h1⟩ := h1
    obtain ⟨t0, rfl⟩ := stop_tr (os := os) e0
    rw [Res.bind_eq_ok] at h1
    obtain ⟨⟨ok1, mc1, p1⟩, e1, h1⟩ := h1
    have key : p0.infos + 1 ≤ p1.infos := by
      unfold openList at e1
      rw [show each closeSub [] p0 = .ok ([], p0) from rfl, Res.bind_ok] at e1
      simp only at e1
      rw [if_neg (hos.2.2 _), Res.bind_eq_ok] at e1
      obtain ⟨q1, e2, e3⟩ := e1
      have k2 : p0.infos + 1 ≤ q1.2.2.infos := by
        cases hif : os.ifaces p0.calls with
        | nil => exact absurd hif (hos.2.2 _)
        | cons a as =>
          rw [hif] at e2
          unfold openLoop at e2
          rw [Res.bind_eq_ok] at e2
          obtain ⟨⟨okb, b, pb⟩, e4, e5⟩ := e2
          have k4 : p0.infos + 1 ≤ pb.infos := by
            unfold openSub at e4
            rw [show closeSub ⟨none, false⟩ (tick p0) = .ok (⟨none, false⟩, tick p0) from rfl, Res.bind_ok] at e4
            simp only at e4
            rw [Res.bind_eq_ok] at e4
            obtain ⟨⟨sk, pk⟩, e6, e7⟩ := e4
            unfold sockNew at e6
            rw [Res.bind_eq_ok] at e6
            obtain ⟨pk', e6, e8⟩ := e6
            cases e8
            have l6 := (startup_tr (os := os) e6 0).leak
            have hb : ∃ sb pq, Fd.bind os .mcast a ⟨none, ""⟩ pk = .ok (false, sb, pq) ∧ pk.infos + 1 ≤ pq.infos ∨ Fd.bind os .mcast a ⟨none, ""⟩ pk = .ub := by
              cases hu : startup pk with
              | ub => exact ⟨⟨none, ""⟩, pk, Or.inr (by simp [Fd.bind, toSockAddrInfo, hu])⟩
              | ok pu =>
                have l := (startup_tr (os := os) hu 0).leak
                refine ⟨⟨none, ""⟩, _, Or.inl ⟨by simp [Fd.bind, toSockAddrInfo, hu, getaddrinfo, hos.1, open_, hos.2.1, Fd.close]; rfl, ?_⟩⟩
                simp [tick, freeaddrinfo] at l ⊢
                omega
            obtain ⟨sb, pq, ⟨hb, hl⟩ | hb⟩ := hb
            · rw [hb, Res.bind_ok] at e7
              simp only [Bool.not_false, if_true] at e7
              rw [Res.bind_eq_ok] at e7
              obtain ⟨⟨b9, p9⟩, e9, e7⟩ := e7
              cases e7
              have l9 := (closeSub_tr (os := os) e9).1.leak
              simp [tick] at l6 l9
              show p0.infos + 1 ≤ p9.infos
              omega
            · rw [hb] at e7; cases e7
          cases okb with
          | true =>
            simp only [if_true] at e5
            rw [Res.bind_eq_ok] at e5
            obtain ⟨⟨ok6, l6, p6⟩, e6, e5⟩ := e5
            cases e5
            have := (openLoop_tr e6).1.leak
            simp only
            omega
          | false =>
            simp only [Bool.false_eq_true, if_false, if_true] at e5
            rw [deleteMcast_none b pb ((openSub_tr e4 rfl).2 rfl)] at e5
            cases e5
            exact k4
      split at e3
      next => cases e3; exact k2
      next =>
        rw [Res.bind_eq_ok] at e3
        obtain ⟨q3, e4, e3⟩ := e3
        cases e3
        have l4 := (each_closeSub_tr (os := os) e4).1.leak
        obtain ⟨okq, lq, pq⟩ := q1
        simp only at k2 l4 ⊢
        omega
    rw [Res.bind_eq_ok] at h1
    obtain ⟨⟨ok2, ud2, p2⟩, e2, h1⟩ := h1
    have l2 : p1.infos ≤ p2.infos := by
      unfold openUdp at e2
      split at e2
      next => obtain ⟨_, _, t2, _⟩ := openList_tr e2; have := t2.leak; omega
      next => cases e2; omega
    rw [Res.bind_eq_ok] at h1
    obtain ⟨⟨ok3, mc3, p3⟩, e3, h1⟩ := h1
    have l3 := (startList_tr e3).1.leak
    rw [Res.bind_eq_ok] at h1
    obtain ⟨⟨ok4, ud4, p4⟩, e4, h1⟩ := h1
    have l4 : p3.infos ≤ p4.infos := by
      unfold startUdp at e4
      split at e4
      next => have := (startList_tr e4).1.leak; omega
      next => cases e4; omega
    have l0 := t0.leak
    simp only at h1
    split at h1
    next => cases h1; simp only; omega
    next =>
      rw [Res.bind_eq_ok] at h1
      obtain ⟨⟨v5, p5⟩, e5, h1⟩ := h1
      cases h1
      have := (stop_tr (os := os) e5).1.leak
      simp only
      omega

/-- Such a system. -/
def fullOs : Os := { workingOs ["192.168.0.2"] with socket := fun _ _ => none }

/-- Three attempts leave six address lists. -/
example : Exhausted fullOs ∧ ∃ s, fdRun fullOs (List.replicate 3 .start) (fdInit [0, 1, 2] .dfl) = .ok s ∧ s.proc.infos = 6 := by
  obtain ⟨s, h, e⟩ := ends_ok (f := fun s => s.proc.infos == 6)
    (show ends (fdRun fullOs (List.replicate 3 .start) (fdInit [0, 1, 2] .dfl)) _ = true by decide +kernel)
  exact ⟨⟨fun _ => rfl, fun _ _ => rfl, fun _ => by simp [fullOs, workingOs]⟩, s, h, by simpa using e⟩

/-! ### C105: SIGPIPE -/

theorem pipe_run {os : Os} : ∀ (ops : List FdOp) (s s' : FdSt), (∀ d, FdOp.appSignal d ∉ ops) → fdRun os ops s = .ok s' →
    (srvN s.srv + 1 : Nat) ≤ s.proc.cnt → s.proc.pipe = .ign → s'.proc.pipe = .ign := by
  intro ops
  induction ops with
  | nil => intro s s' _ h _ hp; cases h; exact hp
  | cons op ops ih =>
    intro s s' hops h hc hp
    obtain ⟨s1, h1, h2⟩ := fdRun_cons h
    obtain ⟨-, -, t, tp⟩ := step_tr h1
    have hc1 := t 1 hc
    refine ih s1 s' (fun d hd => hops d (List.mem_cons_of_mem _ hd)) h2 hc1
      (tp (fun d e => hops d (by rw [e]; simp)) (by omega) (fun _ => hp) (by omega))

/-- **C105, first half.** From the first start on, the process ignores SIGPIPE, unless the application changes it itself: a broken
stream cannot end it. -/
theorem C105_ignored (os : Os) (hif : ∀ n, os.ifaces n ≠ []) (app : List Nat) (d : Pipe) (ops : List FdOp)
    (hops : ∀ d, FdOp.appSignal d ∉ ops) (s : FdSt) (h : fdRun os (.start :: ops) (fdInit app d) = .ok s) : s.proc.pipe = .ign := by
  obtain ⟨s1, h1, h2⟩ := fdRun_cons h
  have st := step_tr h1
  have h1' := h1
  simp only [fdStep] at h1
  rw [Res.bind_eq_ok] at h1
  obtain ⟨⟨ok, v, p⟩, h1, e⟩ := h1
  cases e
  obtain ⟨m, -, -, -, t⟩ := start_tr h1
  have hc := (t hif).cnt 0 (by simp [fdInit, srvN, subsN, Fd.new])
  have hp := st.2.2.2 (by simp) (by simp [fdInit, srvN, subsN, Fd.new]) (by simp [fdInit]) (by simp only; omega)
  exact pipe_run ops _ s hops h2 (by simpa using hc) hp

/-- **C105 fails after the node has been stopped**: the handling that the application had set before is not restored, although the code
counts sockets for this purpose; nor does the default return. -/
theorem C105_restored_violated (os : Os) (hif : ∀ n, os.ifaces n ≠ []) (app : List Nat) (d : Pipe) (hd : d ≠ .ign) (s : FdSt)
    (h : fdRun os [.start, .stop] (fdInit app d) = .ok s) : s.proc.pipe ≠ d ∧ s.proc.pipe ≠ .dfl := by
  have := C105_ignored os hif app d [.stop] (by simp) s h
  rw [this]
  exact ⟨Ne.symm hd, by simp⟩

/-- The application's handler 7 is gone; the count is 2 with no socket left. -/
example : ∃ s, fdRun (workingOs ["192.168.0.2"]) [.start, .stop] (fdInit [0, 1, 2] (.app 7)) = .ok s ∧ s.proc.pipe = .ign ∧ s.proc.cnt = 2 ∧
    held s.srv = [] := by
  obtain ⟨s, h, e⟩ := ends_ok (f := fun s => s.proc.pipe == .ign && s.proc.cnt == 2 && held s.srv == [])
    (show ends (fdRun (workingOs ["192.168.0.2"]) [.start, .stop] (fdInit [0, 1, 2] (.app 7))) _ = true by decide +kernel)
  simp at e
  exact ⟨s, h, e.1.1, e.1.2, e.2⟩

/-! ### C106: how long a node can run -/

theorem step_def {os : Os} {m : Nat} (hm : ∀ n, (os.ifaces n).length ≤ m) {op : FdOp} {s : FdSt} (h1 : srvN s.srv ≤ s.proc.cnt)
    (h2 : s.srv.mcast.length ≤ m) (h3 : s.proc.cnt + (4 * m + 3) < 2 ^ 31) :
    ∃ s', fdStep os op s = .ok s' ∧ srvN s'.srv ≤ s'.proc.cnt ∧ s'.srv.mcast.length ≤ m ∧ s'.proc.cnt ≤ s.proc.cnt + (4 * m + 3) := by
  cases op with
  | start =>
    obtain ⟨⟨ok, v, p⟩, e⟩ := start_def (os := os) m hm h1 (by omega)
    obtain ⟨j, ⟨n, hj⟩, t, l, -⟩ := start_tr e
    have hj := hj ▸ hm n
    refine ⟨{ s with srv := v, proc := p }, by simp [fdStep, e], ?_, ?_, ?_⟩
    · have := t.cnt 0 (by simpa using h1); simpa using this
    · have := l.1; simp only; omega
    · have := t.up; simp only; omega
  | stop =>
    obtain ⟨⟨v, p⟩, e⟩ := stop_def h1
    obtain ⟨t, rfl⟩ := stop_tr (os := os) e
    refine ⟨_, by simp [fdStep, e]; rfl, ?_, by simp, ?_⟩
    · have := t.cnt 0 (by simpa using h1); simpa [srvN, subsN] using this
    · have := t.up; simp only; omega
  | announce =>
    obtain ⟨⟨ok, v, p⟩, e⟩ := postAnnounce_def (os := os) h1 (by omega)
    obtain ⟨t, l, -⟩ := postAnnounce_tr e
    refine ⟨{ s with srv := v, proc := p }, by simp [fdStep, e], ?_, ?_, ?_⟩
    · have := t.cnt 0 (by simpa using h1); simpa using this
    · simp only; omega
    · have := t.up; simp only; omega
  | send =>
    obtain ⟨⟨ok, v, p⟩, e⟩ := postResponse_def (os := os) h1 (by omega)
    obtain ⟨t, -, l⟩ := postResponse_tr e
    refine ⟨{ s with srv := v, proc := p }, by simp [fdStep, e], ?_, ?_, ?_⟩
    · have := t.cnt 0 (by simpa using h1); simp only; omega
    · simp only [l]; omega
    · have := t.up; simp only; omega
  | appOpen =>
    simp only [fdStep]
    split
    next => exact ⟨_, rfl, h1, h2, by simp only [tick]; omega⟩
    next => exact ⟨_, rfl, h1, h2, by simp only [tick]; omega⟩
  | appClose fd =>
    simp only [fdStep]
    split
    next => exact ⟨_, rfl, h1, h2, by simp only; omega⟩
    next => exact ⟨_, rfl, h1, h2, by omega⟩
  | appSignal d => exact ⟨_, rfl, h1, h2, by simp only; omega⟩

theorem run_def {os : Os} {m : Nat} (hm : ∀ n, (os.ifaces n).length ≤ m) : ∀ (ops : List FdOp) (s : FdSt), srvN s.srv ≤ s.proc.cnt →
    s.srv.mcast.length ≤ m → s.proc.cnt + ops.length * (4 * m + 3) < 2 ^ 31 → (fdRun os ops s).Defined := by
  intro ops
  induction ops with
  | nil => intro s _ _ _; exact ⟨s, rfl⟩
  | cons op ops ih =>
    intro s h1 h2 h3
    rw [List.length_cons, Int.natCast_add, Int.add_mul] at h3
    have hpos : (0 : Int) ≤ ops.length * (4 * m + 3) := Int.mul_nonneg (by omega) (by omega)
    obtain ⟨s1, e, a, b, c⟩ := step_def (op := op) hm h1 h2 (by omega)
    obtain ⟨s2, e2⟩ := ih s1 a b (by omega)
    exact ⟨s2, by simp [fdRun, e, e2]⟩

/-- **C106, partial** (fewer than about 2^31 / (4 m + 3) events, where `m` is the number of interfaces). Starting, stopping and sending are
defined, whichever calls of the operating system fail. -/
theorem C106_defined_partial (os : Os) (m : Nat) (hm : ∀ n, (os.ifaces n).length ≤ m) (app : List Nat) (d : Pipe) (ops : List FdOp)
    (hlen : ops.length * (4 * m + 3) < 2 ^ 31) : (fdRun os ops (fdInit app d)).Defined :=
  run_def hm ops _ (by simp [fdInit, srvN, subsN, Fd.new]) (by simp [fdInit, Fd.new]) (by
    have : ((ops.length * (4 * m + 3) : Nat) : Int) < 2 ^ 31 := by omega
    simpa [fdInit] using this)

example : ([FdOp.start, .announce, .send, .stop] : List FdOp).length * (4 * ((workingOs ["192.168.0.2"]).ifaces 0).length + 3) < 2 ^ 31 := by
  decide

theorem send_counts {os : Os} : ∀ (k : Nat) (s s' : FdSt), srvN s.srv ≤ s.proc.cnt → fdRun os (List.replicate k .send) s = .ok s' →
    s.proc.cnt ≤ 2 ^ 31 - 1 → s.proc.cnt + k ≤ s'.proc.cnt ∧ s'.proc.cnt ≤ 2 ^ 31 - 1 := by
  intro k
  induction k with
  | zero => intro s s' _ h hc; cases h; exact ⟨by simp, hc⟩
  | succ k ih =>
    intro s s' hn h hc
    rw [List.replicate_succ] at h
    obtain ⟨s1, h1, h2⟩ := fdRun_cons h
    simp only [fdStep] at h1
    rw [Res.bind_eq_ok] at h1
    obtain ⟨⟨ok, v, p⟩, h1, e⟩ := h1
    cases e
    obtain ⟨t, -, -, en⟩ := postResponse_tr h1
    obtain ⟨a, b⟩ := ih _ s' (by have := t.cnt 0 (by simpa using hn); simp only; omega) h2 (t.max hc)
    refine ⟨?_, b⟩
    have := t.cnt (s.proc.cnt - srvN s.srv).toNat (by omega)
    simp only at a
    omega

/-- **C106 fails in the long run**: every message that is sent adds one to a signed 32-bit count that nothing takes back, so a node that
sends 2^31 messages overflows it, whatever the operating system answers. -/
theorem C106_overflow_violated (os : Os) (app : List Nat) (d : Pipe) :
    fdRun os (List.replicate (2 ^ 31) .send) (fdInit app d) = .ub := by
  cases h : fdRun os (List.replicate (2 ^ 31) .send) (fdInit app d) with
  | ub => rfl
  | ok s =>
    have := send_counts (2 ^ 31) _ s (by simp [fdInit, srvN, subsN, Fd.new]) h (by simp [fdInit])
    simp only [fdInit] at this
    omega

end Uecho.Props
