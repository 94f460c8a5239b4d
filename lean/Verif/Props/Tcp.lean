import Verif.Lemmas.Tcp
/-! # C123: stream sockets -/
namespace Uecho.Props
open Uecho Uecho.Spec Uecho.Fd Uecho.Tcp Uecho.Lemmas

/-- **C123, partial** (the application binds, and accepts into, sockets that hold no descriptor; the descriptor 0 is in use). Whatever the
application does with stream sockets, and whichever calls fail: the open descriptors are those that were open before and those that its
sockets hold, each once. When all sockets are deleted, only the former are left. -/
theorem C123_balanced_partial (os : StreamOs) (hf : FreshStream os) (app : List Nat) (d : Pipe) (h0 : 0 ∈ app) (hn : app.Nodup)
    (ops : List TcpOp) (s : TcpSt) (h : tcpRun os ops (tcpInit app d) = .ok s) (ht : Tidy os ops (tcpInit app d)) :
    s.proc.fds.Perm (socksHold s.socks ++ app) ∧ s.proc.fds.Nodup ∧ (s.socks = [] → s.proc.fds.Perm app) := by
  have x := tcpRun_inv hf ops h ht (app := app) ⟨List.Perm.refl _, hn, h0⟩
  refine ⟨x.1, x.2.1, fun e => ?_⟩
  have := x.1
  rw [e] at this
  exact this

/-- A server socket, a client of it, and the accepted connection. -/
def tcpExample : List TcpOp := [.new, .bind 0 .udp "192.168.0.2", .new, .connect 1, .new, .accept 0 2, .close 2, .delete 2, .delete 1, .delete 0]

theorem lowest_not_mem (l : List Nat) : ∀ fd, lowest l = some fd → fd ∉ l := by
  intro fd h
  have := List.find?_some h
  simpa using this

theorem workingStream_fresh : FreshStream workingStream := ⟨fun _ l fd h => lowest_not_mem l fd h, fun _ l fd h => lowest_not_mem l fd h⟩

/-- Decides `Tidy` along the run. -/
def tidyB (os : StreamOs) : List TcpOp → TcpSt → Bool
  | [], _ => true
  | op :: ops, s =>
    (match op with
      | .bind i _ _ => (s.socks[i]?.all fun x => x.id == none)
      | .accept _ j => (s.socks[j]?.all fun x => x.id == none)
      | _ => true) && (match tcpStep os op s with | .ok s' => tidyB os ops s' | .ub => true)

theorem tidyB_sound (os : StreamOs) (ops : List TcpOp) : ∀ s, tidyB os ops s = true → Tidy os ops s := by
  induction ops with
  | nil => intro s _; trivial
  | cons op ops ih =>
    intro s h
    simp only [tidyB, Bool.and_eq_true] at h
    obtain ⟨h1, h2⟩ := h
    refine ⟨?_, fun s' hs => ih s' (by rw [hs] at h2; exact h2)⟩
    cases op with
    | bind i k a => intro x hx; simp only at h1; rw [hx] at h1; simpa using h1
    | accept i j => intro x hx; simp only at h1; rw [hx] at h1; simpa using h1
    | _ => trivial

def tcpEnds (r : Res TcpSt) (f : TcpSt → Bool) : Bool :=
  match r with
  | .ok s => f s
  | .ub => false

theorem tcpEnds_ok {r : Res TcpSt} {f : TcpSt → Bool} (h : tcpEnds r f = true) : ∃ s, r = .ok s ∧ f s = true := by
  cases r with
  | ok s => exact ⟨s, rfl, h⟩
  | ub => exact absurd h (by simp [tcpEnds])

example : Tidy workingStream tcpExample (tcpInit [0, 1, 2] .dfl) ∧
    (∃ s, tcpRun workingStream (tcpExample.take 6) (tcpInit [0, 1, 2] .dfl) = .ok s ∧ s.proc.fds = [5, 4, 3, 0, 1, 2]) ∧
    ∃ s, tcpRun workingStream tcpExample (tcpInit [0, 1, 2] .dfl) = .ok s ∧ s.proc.fds = [0, 1, 2] := by
  refine ⟨tidyB_sound _ _ _ (by decide +kernel), ?_, ?_⟩
  · obtain ⟨s, h, e⟩ := tcpEnds_ok (f := fun s => s.proc.fds == [5, 4, 3, 0, 1, 2])
      (show tcpEnds (tcpRun workingStream (tcpExample.take 6) (tcpInit [0, 1, 2] .dfl)) _ = true by decide +kernel)
    exact ⟨s, h, by simpa using e⟩
  · obtain ⟨s, h, e⟩ := tcpEnds_ok (f := fun s => s.proc.fds == [0, 1, 2])
      (show tcpEnds (tcpRun workingStream tcpExample (tcpInit [0, 1, 2] .dfl)) _ = true by decide +kernel)
    exact ⟨s, h, by simpa using e⟩

/-- **C123.** Accepting reports whether there was a connection, and then the socket holds its descriptor; otherwise it holds none. -/
theorem C123_accept (os : StreamOs) (v x : Sock) (p : Proc) :
    ((Tcp.accept os v x p).1 = true ↔ (os.accept p.calls p.fds).isSome = true) ∧ (Tcp.accept os v x p).2.1.id = os.accept p.calls p.fds ∧
    (∀ fd, fd ∈ (Tcp.accept os v x p).2.2.fds ↔ fd ∈ p.fds ∨ os.accept p.calls p.fds = some fd) := by
  unfold Tcp.accept
  cases os.accept p.calls p.fds with
  | none => simp [tick]
  | some fd => simp [tick, or_comm, eq_comm]

/-- **C123.** Connecting a closed socket succeeds exactly if the address is understood, a descriptor is granted and the peer is reached; the
descriptor is kept in either case, and the address list is given back. -/
theorem C123_connect (os : StreamOs) (x : Sock) (p : Proc) (hx : x.id = none) (ok : Bool) (x' : Sock) (p' : Proc)
    (h : Tcp.connect os x p = .ok (ok, x', p')) :
    (ok = true ↔ os.base.addrinfo p.calls = true ∧ (os.base.socket (p.calls + 1) p.fds).isSome = true ∧ os.connect (p.calls + 2) = true) ∧
    p'.infos = p.infos ∧ (os.base.addrinfo p.calls = true → x'.id = os.base.socket (p.calls + 1) p.fds) ∧
    (os.base.addrinfo p.calls = false → x'.id = none ∧ p'.fds = p.fds) := by
  obtain ⟨id, addr⟩ := x
  cases (show id = none from hx)
  unfold Tcp.connect toSockAddrInfo at h
  rw [Res.bind_assoc, Res.bind_eq_ok] at h
  obtain ⟨q, hq, h⟩ := h
  have e : q.calls = p.calls ∧ q.fds = p.fds ∧ q.infos = p.infos := by
    unfold startup at hq
    by_cases h0 : p.cnt = 0
    · simp only [h0, if_true] at hq
      split at hq <;> cases hq <;> exact ⟨rfl, rfl, rfl⟩
    · simp only [h0, if_false] at hq
      split at hq <;> cases hq <;> exact ⟨rfl, rfl, rfl⟩
  obtain ⟨e1, e2, e3⟩ := e
  unfold getaddrinfo at h
  cases ha : os.base.addrinfo p.calls with
  | false =>
    simp only [e1, ha, Bool.false_eq_true, if_false, Bool.not_false, if_true, Res.pure_eq, Res.bind_ok] at h
    cases h
    simp [tick, e2, e3]
  | true =>
    simp only [e1, ha, if_true, Bool.not_true, Bool.false_eq_true, if_false, Res.pure_eq, Res.bind_ok, isBound, open_, tick, e2] at h
    cases hs : os.base.socket (p.calls + 1) p.fds with
    | none => rw [hs] at h; cases h; simp [freeaddrinfo, e3]
    | some fd => rw [hs] at h; cases h; simp [freeaddrinfo, e3]

/-- A connection of a working system. -/
example : ∃ ok x' p', Tcp.connect workingStream ⟨none, ""⟩ (tcpInit [0, 1, 2] .dfl).proc = .ok (ok, x', p') ∧ ok = true :=
  ⟨_, _, _, rfl, by decide +kernel⟩

/-- **C123**, violated. Accepting into a socket that has a connection does not close it, and its descriptor is never closed, neither when it
works nor when it fails: a server that uses one socket for all its connections runs out of descriptors. -/
theorem C123_accept_violated (os : StreamOs) (v x : Sock) (fd : Nat) (p : Proc) (hx : x.id = some fd) (hp : fd ∈ p.fds)
    (hf : FreshStream os) (p' : Proc) (h : sockDelete (Tcp.accept os v x p).2.1 (Tcp.accept os v x p).2.2 = .ok p') : fd ∈ p'.fds := by
  unfold sockDelete at h
  have key : fd ∈ (Fd.close (Tcp.accept os v x p).2.1 (Tcp.accept os v x p).2.2).2.fds := by
    unfold Tcp.accept
    split
    next fd' ha =>
      have hne : fd ≠ fd' := fun e => hf.2 _ _ _ ha (e ▸ hp)
      unfold Fd.close
      simp only
      split
      · exact (List.mem_erase_of_ne hne).2 (List.mem_cons_of_mem _ hp)
      · exact List.mem_cons_of_mem _ hp
    next => exact hp
  unfold cleanup at h
  split at h
  next =>
    cases h
    split <;> exact key
  next => exact absurd h (by simp)

/-- Two connections into one socket: the first descriptor stays open when both sockets are deleted. -/
example : ∃ s, tcpRun workingStream [.new, .bind 0 .udp "192.168.0.2", .new, .accept 0 1, .accept 0 1, .delete 1, .delete 0]
    (tcpInit [0, 1, 2] .dfl) = .ok s ∧ s.proc.fds = [4, 0, 1, 2] ∧ s.socks = [] := by
  obtain ⟨s, h, e⟩ := tcpEnds_ok (f := fun s => s.proc.fds == [4, 0, 1, 2] && s.socks == [])
    (show tcpEnds (tcpRun workingStream [.new, .bind 0 .udp "192.168.0.2", .new, .accept 0 1, .accept 0 1, .delete 1, .delete 0]
      (tcpInit [0, 1, 2] .dfl)) _ = true by decide +kernel)
  simp at e
  exact ⟨s, h, e.1, e.2⟩

/-- **C123.** Skipping leaves out the next `n` bytes of the stream, or all of them if there are fewer, and tells how many they were. -/
theorem C123_skip (n : Nat) (inp : Socket.Input) : ∃ gone, inp = gone ++ (skip n inp).2 ∧ gone.length = (skip n inp).1 ∧
    (skip n inp).1 ≤ n ∧ ((skip n inp).1 < n → (skip n inp).2 = []) := by
  refine ⟨inp.take n, ?_, ?_, ?_, ?_⟩ <;> simp only [skip, skipLoop_eq, Nat.zero_add]
  · simp
  · simp
  · omega
  · intro h
    rw [List.drop_eq_nil_iff]
    omega

example : skip 2 [1#8, 2#8, 3#8] = (2, [3#8]) ∧ skip 5 [1#8] = (1, []) := by decide

end Uecho.Props
