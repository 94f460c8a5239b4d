import Verif.Spec.Fd
/-! # What the functions of `Model/Fd.lean` take and give back -/
namespace Uecho.Lemmas
open Uecho Uecho.Spec Uecho.Fd
open Uecho.Server (Kind)

/-- The open descriptors are those held and the rest; the rest has 0. -/
def FdInv (rest held : List Nat) (p : Proc) : Prop := p.fds.Perm (held ++ rest) ∧ p.fds.Nodup ∧ 0 ∈ rest

theorem FdInv.perm {rest a b : List Nat} {p : Proc} (h : FdInv rest a p) (hp : a.Perm b) : FdInv rest b p :=
  ⟨h.1.trans (hp.append_right _), h.2⟩

theorem FdInv.ne_zero {rest a : List Nat} {p : Proc} (h : FdInv rest a p) {fd : Nat} (hm : fd ∈ a) : 0 < fd := by
  rcases Nat.eq_zero_or_pos fd with rfl | h0
  · have := (h.1.nodup_iff.1 h.2.1)
    rw [List.nodup_append] at this
    exact absurd rfl (this.2.2 0 hm 0 h.2.2)
  · exact h0

/-- Every address can be given a socket and every option can be set. -/
def NoSockErr (os : Os) : Prop := (∀ n l, os.socket n l ≠ none) ∧ ∀ n, os.setsockopt n = true

/-- What a call does: the descriptors `h0` become `h1`, `n0` socket objects become `n1`, the count grows by at most `c`, and the address
lists grow by `d` if no socket call fails, and by at least `d` in any case. The descriptor 0 is not closed. -/
structure Tr (os : Os) (h0 h1 : List Nat) (n0 n1 c : Nat) (d : Int) (p p' : Proc) : Prop where
  fds : Fresh os → ∀ rest h, FdInv rest (h0 ++ h) p → FdInv rest (h1 ++ h) p'
  cnt : ∀ e : Nat, (n0 + e : Nat) ≤ p.cnt → (n1 + e : Nat) ≤ p'.cnt
  up : p'.cnt ≤ p.cnt + c
  pipe : n0 ≤ p.cnt → (1 ≤ p.cnt → p.pipe = .ign) → 1 ≤ p'.cnt → p'.pipe = .ign
  infos : NoSockErr os → p'.infos = p.infos + d
  leak : p.infos + d ≤ p'.infos
  zero : 0 ∈ p.fds → 0 ∈ p'.fds
  max : p.cnt ≤ 2 ^ 31 - 1 → p'.cnt ≤ 2 ^ 31 - 1

variable {os : Os}

theorem Tr.refl (h : List Nat) (n : Nat) (p : Proc) : Tr os h h n n 0 0 p p :=
  ⟨fun _ _ _ x => x, fun _ x => x, by simp, fun _ x => x, fun _ => by simp, by simp [Fd.tick], fun x => x, fun x => x⟩

theorem Tr.trans {h0 h1 h2 : List Nat} {n0 n1 n2 c1 c2 : Nat} {d1 d2 : Int} {p p1 p2 : Proc} (a : Tr os h0 h1 n0 n1 c1 d1 p p1)
    (b : Tr os h1 h2 n1 n2 c2 d2 p1 p2) : Tr os h0 h2 n0 n2 (c1 + c2) (d1 + d2) p p2 where
  fds hf r h x := b.fds hf r h (a.fds hf r h x)
  cnt e x := b.cnt e (a.cnt e x)
  up := by have := a.up; have := b.up; omega
  pipe x y := b.pipe (a.cnt 0 x) (a.pipe x y)
  infos g := by rw [b.infos g, a.infos g]; omega
  leak := by have := a.leak; have := b.leak; omega
  zero x := b.zero (a.zero x)
  max x := b.max (a.max x)

theorem Tr.weaken {h0 h1 : List Nat} {n0 n1 c c' : Nat} {d d' : Int} {p p' : Proc} (a : Tr os h0 h1 n0 n1 c d p p') (hc : c ≤ c')
    (hd : d = d') : Tr os h0 h1 n0 n1 c' d' p p' :=
  ⟨a.fds, a.cnt, by have := a.up; omega, a.pipe, hd ▸ a.infos, hd ▸ a.leak, a.zero, a.max⟩

/-- What is not touched stays: on the right. -/
theorem Tr.frame {h0 h1 : List Nat} {n0 n1 c : Nat} {d : Int} {p p' : Proc} (a : Tr os h0 h1 n0 n1 c d p p') (k : List Nat) (m : Nat) :
    Tr os (h0 ++ k) (h1 ++ k) (n0 + m) (n1 + m) c d p p' where
  fds hf r h x := by
    rw [List.append_assoc] at x ⊢
    exact a.fds hf r _ x
  cnt e x := by have := a.cnt (m + e) (by omega); omega
  up := a.up
  pipe x := a.pipe (by omega)
  infos := a.infos
  leak := a.leak
  zero := a.zero
  max := a.max

theorem Tr.perm {h0 h1 k0 k1 : List Nat} {n0 n1 m0 m1 c : Nat} {d : Int} {p p' : Proc} (a : Tr os h0 h1 n0 n1 c d p p')
    (e0 : k0.Perm h0) (e1 : h1.Perm k1) (f0 : m0 = n0) (f1 : n1 = m1) : Tr os k0 k1 m0 m1 c d p p' := by
  subst f0 f1
  exact ⟨fun hf r h x => (a.fds hf r h (x.perm (e0.append_right _))).perm (e1.append_right _), a.cnt, a.up, a.pipe, a.infos, a.leak, a.zero, a.max⟩

/-- What is not touched stays: on the left. -/
theorem Tr.frameL {h0 h1 : List Nat} {n0 n1 c : Nat} {d : Int} {p p' : Proc} (a : Tr os h0 h1 n0 n1 c d p p') (k : List Nat) (m : Nat) :
    Tr os (k ++ h0) (k ++ h1) (m + n0) (m + n1) c d p p' :=
  (a.frame k m).perm List.perm_append_comm List.perm_append_comm (Nat.add_comm ..) (Nat.add_comm ..)

theorem Tr.tick (p : Proc) (h : List Nat) (n : Nat) : Tr os h h n n 0 0 p (tick p) :=
  ⟨fun _ _ _ x => x, fun _ x => x, by simp [Fd.tick], fun _ x => x, fun _ => by simp [Fd.tick], by simp [Fd.tick], fun x => x, fun x => x⟩

theorem startup_tr {p p' : Proc} (h : startup p = .ok p') (n : Nat) : Tr os [] [] n (n + 1) 1 0 p p' := by
  unfold startup at h
  split at h
  next h0 =>
    simp only [h0] at h
    cases h
    exact ⟨fun _ _ _ x => x, fun e x => by simp only at x ⊢; omega, by simp [h0], fun _ _ _ => rfl, fun _ => by simp, by simp [Fd.tick], fun x => x, fun _ => by simp only; omega⟩
  next h0 =>
    simp only at h
    split at h
    next => cases h; exact ⟨fun _ _ _ x => x, fun e x => by simp only at x ⊢; omega, by simp, fun x y _ => y (by omega), fun _ => by simp, by simp [Fd.tick], fun x => x, fun _ => by simp only; omega⟩
    next => exact absurd h (by simp)

theorem startup_def {p : Proc} (h : p.cnt + 1 < 2 ^ 31) : (startup p).Defined := by
  unfold startup
  by_cases h0 : p.cnt = 0
  · simp [h0]
  · simp only [if_neg h0]
    rw [if_pos (by omega)]; simp

theorem cleanup_tr {p p' : Proc} (h : cleanup p = .ok p') (n : Nat) : Tr os [] [] (n + 1) n 0 0 p p' := by
  unfold cleanup at h
  split at h
  next h0 =>
    cases h
    refine ⟨fun _ _ _ x => ?_, fun e x => ?_, ?_, fun x y => ?_, fun _ => ?_, ?_, fun x => ?_, fun x => ?_⟩ <;> split <;>
      first
      | exact x
      | (simp only at *; omega)
      | (intro _; exact y (by simp only at *; omega))
      | simp
  next => exact absurd h (by simp)

theorem cleanup_def {p : Proc} (h : 1 ≤ p.cnt) : (cleanup p).Defined := by
  unfold cleanup
  rw [if_pos (by omega)]; simp

theorem FdInv.erase {rest h : List Nat} {p : Proc} {fd : Nat} (x : FdInv rest (fd :: h) p) :
    FdInv rest h { p with fds := p.fds.erase fd } := by
  refine ⟨?_, x.2.1.erase _, x.2.2⟩
  have := x.1.erase fd
  simpa using this

theorem FdInv.cons {rest h : List Nat} {p : Proc} {fd : Nat} (x : FdInv rest h p) (hn : fd ∉ p.fds) :
    FdInv rest (fd :: h) { p with fds := fd :: p.fds } :=
  ⟨x.1.cons fd, List.nodup_cons.2 ⟨hn, x.2.1⟩, x.2.2⟩

/-- What `close` leaves in the socket. -/
theorem close_id (s : Sock) (p : Proc) : (close s p).1.id = none ∨ (∃ fd, s.id = some fd ∧ fd = 0) := by
  unfold Fd.close
  split
  next fd h =>
    split
    next => left; rfl
    next h0 => right; exact ⟨fd, h, by simp [isBound, h] at h0; exact h0⟩
  next h => left; exact h

theorem close_tr (s : Sock) (p : Proc) (n : Nat) : Tr os s.id.toList [] n n 0 0 p (close s p).2 := by
  unfold Fd.close
  split
  next fd h =>
    rw [h]
    split
    next h0 =>
      refine ⟨fun _ r k x => ?_, fun _ x => x, by simp, fun _ x => x, fun _ => by simp, by simp, fun x => ?_, fun x => x⟩
      · exact FdInv.erase x
      · simp [isBound, h] at h0
        exact (List.mem_erase_of_ne (by omega)).2 x
    next h0 =>
      refine ⟨fun _ r k x => ?_, fun _ x => x, by simp, fun _ x => x, fun _ => by simp, by simp, fun x => x, fun x => x⟩
      have := x.ne_zero (fd := fd) (by simp)
      simp [isBound, h] at h0
      omega
  next h => rw [h]; exact Tr.refl _ _ _

/-- After `close` the socket holds nothing, unless it had the descriptor 0. -/
theorem close_tr' (s : Sock) (p : Proc) (n : Nat) : Tr os s.id.toList (close s p).1.id.toList n n 0 0 p (close s p).2 := by
  rcases close_id s p with h | ⟨fd, h, rfl⟩
  · rw [h]; exact close_tr s p n
  · have : close s p = (s, p) := by simp [Fd.close, h, isBound]
    rw [this]; exact Tr.refl _ _ _

theorem sockDelete_tr {s : Sock} {p p' : Proc} (h : sockDelete s p = .ok p') (n : Nat) : Tr os s.id.toList [] (n + 1) n 0 0 p p' :=
  ((close_tr s p (n + 1)).trans (cleanup_tr h n)).weaken (by omega) (by omega)

theorem sockDelete_def {s : Sock} {p : Proc} (h : 1 ≤ p.cnt) : (sockDelete s p).Defined :=
  cleanup_def (by have := (close_tr (os := ⟨fun _ => true, fun _ _ => none, fun _ => true, fun _ => true, fun _ => true, fun _ => true,
    fun _ => [], fun _ => true⟩) s p 1).cnt 0 (by simpa using h); simpa using this)

theorem getaddrinfo_tr (p : Proc) (n : Nat) :
    Tr os [] [] n n 0 (if (getaddrinfo os p).1 then 1 else 0) p (getaddrinfo os p).2 := by
  unfold getaddrinfo
  split
  next => exact ⟨fun _ _ _ x => x, fun _ x => x, by simp [Fd.tick], fun _ x => x, fun _ => by simp, by simp [Fd.tick], fun x => x, fun x => x⟩
  next => exact ⟨fun _ _ _ x => x, fun _ x => x, by simp [Fd.tick], fun _ x => x, fun _ => by simp [Fd.tick], by simp [Fd.tick], fun x => x, fun x => x⟩

theorem freeaddrinfo_tr (p : Proc) (h : List Nat) (n : Nat) : Tr os h h n n 0 (-1) p (freeaddrinfo p) :=
  ⟨fun _ _ _ x => x, fun _ x => x, by simp [freeaddrinfo], fun _ x => x, fun _ => by simp [freeaddrinfo]; omega, by simp [freeaddrinfo]; omega, fun x => x, fun x => x⟩

theorem toSockAddrInfo_tr {b ok : Bool} {p p' : Proc} (h : toSockAddrInfo os b p = .ok (ok, p')) (n : Nat) :
    Tr os [] [] n (n + 1) 1 (if ok then 1 else 0) p p' := by
  unfold toSockAddrInfo at h
  rw [Res.bind_eq_ok] at h
  obtain ⟨p1, h1, h⟩ := h
  have t1 := startup_tr (os := os) h1 n
  have t2 := getaddrinfo_tr (os := os) p1 (n + 1)
  rcases hg : getaddrinfo os p1 with ⟨ok1, p2⟩
  rw [hg] at t2 h
  simp only at h t2
  cases ok1 with
  | false =>
    simp at h
    obtain ⟨rfl, rfl⟩ := h
    exact (t1.trans t2).weaken (by omega) (by simp)
  | true =>
    simp at h
    split at h
    next =>
      simp at h
      obtain ⟨rfl, rfl⟩ := h
      exact (t1.trans t2).weaken (by omega) (by simp)
    next =>
      have t3 := freeaddrinfo_tr (os := os) p2 [] (n + 1)
      have t4 := getaddrinfo_tr (os := os) (freeaddrinfo p2) (n + 1)
      simp at h
      rw [h] at t4
      exact ((t1.trans t2).trans (t3.trans t4)).weaken (by omega) (by simp; omega)

theorem toSockAddrInfo_def {b : Bool} {p : Proc} (h : p.cnt + 1 < 2 ^ 31) : (toSockAddrInfo os b p).Defined := by
  obtain ⟨p1, h1⟩ := startup_def h
  unfold toSockAddrInfo
  rw [h1]
  simp only [Res.bind_ok]
  rcases getaddrinfo os p1 with ⟨ok1, p2⟩
  cases ok1 <;> cases b <;> simp

theorem open_tr (s : Sock) (p : Proc) (n : Nat) :
    Tr os [] (open_ os s p).1.id.toList n n 0 0 p (open_ os s p).2 := by
  unfold open_
  split
  next fd h =>
    exact ⟨fun hf r k x => FdInv.cons (p := Fd.tick p) x (hf _ _ _ h), fun _ x => x, by simp [Fd.tick], fun _ x => x, fun _ => by simp [Fd.tick],
      by simp [Fd.tick], fun x => List.mem_cons_of_mem _ x, fun x => x⟩
  next h => exact Tr.tick p [] n

theorem bind_tr {k : Kind} {a : String} {s s' : Sock} {ok : Bool} {p p' : Proc} (h : Fd.bind os k a s p = .ok (ok, s', p'))
    (hs : s.id = none) (n : Nat) : Tr os [] s'.id.toList n (n + 1) 1 0 p p' := by
  unfold Fd.bind at h
  rw [Res.bind_eq_ok] at h
  obtain ⟨⟨ok1, p1⟩, h1, h⟩ := h
  have t1 := toSockAddrInfo_tr h1 n
  cases ok1 with
  | false =>
    simp at h
    obtain ⟨-, rfl, rfl⟩ := h
    rw [hs]; exact t1
  | true =>
    simp only [Bool.not_true, Bool.false_eq_true, if_false] at h
    have t2 := open_tr (os := os) s p1 (n + 1)
    rcases ho : open_ os s p1 with ⟨s2, p2⟩
    rw [ho] at h t2
    simp only at h t2
    by_cases hid : s2.id = none
    · rw [if_pos hid] at h
      have hno : ¬ NoSockErr os := by
        intro g
        unfold open_ at ho
        split at ho
        next => cases ho; simp at hid
        next h0 => exact g.1 _ _ h0
      have t3 := close_tr' (os := os) s2 p2 (n + 1)
      simp at h
      obtain ⟨-, h⟩ := h
      rw [h] at t3
      have t := (t1.trans t2).trans t3
      exact ⟨t.fds, t.cnt, by have := t.up; simp at this ⊢; omega, t.pipe, fun g => absurd g hno,
        by have := t.leak; simp at this ⊢; omega, t.zero, t.max⟩
    · rw [if_neg hid] at h
      simp only [setopt] at h
      cases hset : os.setsockopt p2.calls with
      | false =>
        simp [hset] at h
        obtain ⟨-, h⟩ := h
        have t3 := Tr.tick (os := os) p2 s2.id.toList (n + 1)
        have t4 := close_tr' (os := os) s2 (Fd.tick p2) (n + 1)
        rw [h] at t4
        have t := (t1.trans t2).trans (t3.trans t4)
        exact ⟨t.fds, t.cnt, by have := t.up; simp at this ⊢; omega, t.pipe, fun g => absurd (g.2 _) (by rw [hset]; simp),
          by have := t.leak; simp at this ⊢; omega, t.zero, t.max⟩
      | true =>
        simp [hset] at h
        have t3 := Tr.tick (os := os) p2 s2.id.toList (n + 1)
        have key : ∀ (ok2 : Bool) (q : Proc), Tr os s2.id.toList s2.id.toList (n + 1) (n + 1) 0 0 p2 q →
            (ok2 = false → ¬ NoSockErr os) →
            (if ok2 = false then Res.ok (false, Fd.close s2 q)
             else if os.bind q.calls = false then Res.ok (false, s2, freeaddrinfo (Fd.tick q))
             else Res.ok (true, { s2 with addr := a }, freeaddrinfo (Fd.tick q))) = Res.ok (ok, s', p') →
            Tr os [] s'.id.toList n (n + 1) 1 0 p p' := by
          intro ok2 q tq hno hx
          split at hx
          next hok2 =>
            simp at hx
            obtain ⟨-, hx⟩ := hx
            have t4 := close_tr' (os := os) s2 q (n + 1)
            rw [hx] at t4
            have t := (t1.trans t2).trans (tq.trans t4)
            exact ⟨t.fds, t.cnt, by have := t.up; simp at this ⊢; omega, t.pipe, fun g => absurd g (hno hok2),
              by have := t.leak; simp at this ⊢; omega, t.zero, t.max⟩
          next =>
            have t4 := Tr.tick (os := os) q s2.id.toList (n + 1)
            have t5 := freeaddrinfo_tr (os := os) (Fd.tick q) s2.id.toList (n + 1)
            have t := ((t1.trans t2).trans (tq.trans (t4.trans t5))).weaken (c' := 1) (d' := 0) (by omega) (by simp)
            split at hx
            next => simp at hx; obtain ⟨-, rfl, rfl⟩ := hx; exact t
            next => simp at hx; obtain ⟨-, rfl, rfl⟩ := hx; exact t
        cases k with
        | mcast =>
          refine key (os.setsockopt (Fd.tick p2).calls) (Fd.tick (Fd.tick p2)) (t3.trans (Tr.tick _ _ _)) (fun hf g => ?_) ?_
          · rw [g.2] at hf; cases hf
          · rw [← h]; simp
        | udp =>
          refine key true (Fd.tick p2) t3 (fun hf => by cases hf) ?_
          rw [← h]; simp

theorem bind_def {k : Kind} {a : String} {s : Sock} {p : Proc} (h : p.cnt + 1 < 2 ^ 31) : (Fd.bind os k a s p).Defined := by
  obtain ⟨⟨ok1, p1⟩, h1⟩ := toSockAddrInfo_def (os := os) (b := decide (k = .udp)) h
  unfold Fd.bind
  rw [h1]
  simp only [Res.bind_ok]
  cases ok1 with
  | false => simp
  | true =>
    rcases open_ os s p1 with ⟨s2, p2⟩
    rcases setopt os p2 with ⟨o, p3⟩
    simp only [Bool.not_true, Bool.false_eq_true, if_false]
    by_cases hid : s2.id = none
    · simp [hid]
    · simp only [if_neg hid]
      cases o with
      | false => simp
      | true =>
        simp only [Bool.not_true, Bool.false_eq_true, if_false]
        rcases (if k = .mcast then setopt os p3 else (true, p3)) with ⟨o, p4⟩
        cases o with
        | false => simp
        | true =>
          simp only [Bool.not_true, Bool.false_eq_true, if_false]
          cases os.bind p4.calls <;> simp

theorem sendTo_tr {s s' : Sock} {b : Bool} {p p' : Proc} (h : sendTo os s p = .ok (b, s', p')) (n : Nat) :
    Tr os s.id.toList s'.id.toList n (n + 1) 1 0 p p' := by
  unfold sendTo at h
  rw [Res.bind_eq_ok] at h
  obtain ⟨⟨ok1, p1⟩, h1, h⟩ := h
  have t1 := (toSockAddrInfo_tr h1 n).frameL s.id.toList 0
  simp only [List.append_nil, Nat.zero_add] at t1
  cases ok1 with
  | false =>
    simp at h
    obtain ⟨-, rfl, rfl⟩ := h
    exact t1
  | true =>
    simp only [Bool.not_true, Bool.false_eq_true, if_false] at h
    have fin : ∀ (s2 : Sock) (p2 : Proc), ∃ q, (if s2.id.isSome then (os.sendto p2.calls, Fd.tick p2) else (false, p2)).2 = q ∧
        Tr os s2.id.toList s2.id.toList (n + 1) (n + 1) 0 (-1) p2 (freeaddrinfo q) := by
      intro s2 p2
      refine ⟨_, rfl, ?_⟩
      split
      next => exact ((Tr.tick p2 _ _).trans (freeaddrinfo_tr _ _ _)).weaken (by omega) (by omega)
      next => exact freeaddrinfo_tr _ _ _
    cases hb : isBound s with
    | true =>
      simp only [hb, if_true] at h
      obtain ⟨q, hq, t⟩ := fin s p1
      rcases he : (if s.id.isSome then (os.sendto p1.calls, Fd.tick p1) else (false, p1)) with ⟨sent, q'⟩
      rw [he] at h hq
      simp at h hq
      subst hq
      obtain ⟨-, rfl, rfl⟩ := h
      exact (t1.trans t).weaken (by omega) (by simp)
    | false =>
      simp only [hb, Bool.false_eq_true, if_false] at h
      have t2 := open_tr (os := os) s p1 (n + 1)
      rcases ho : open_ os s p1 with ⟨s2, p2⟩
      rw [ho] at h t2
      simp only at h t2
      obtain ⟨q, hq, t⟩ := fin s2 p2
      rcases he : (if s2.id.isSome then (os.sendto p2.calls, Fd.tick p2) else (false, p2)) with ⟨sent, q'⟩
      rw [he] at h hq
      simp at h hq
      subst hq
      obtain ⟨-, h⟩ := h
      have t5 := close_tr' (os := os) s2 (freeaddrinfo q') (n + 1)
      rw [h] at t5
      have tt := (t2.trans t).trans t5
      refine ⟨fun hf r k x => ?_, fun e x => tt.cnt e (t1.cnt e x), by have := t1.up; have := tt.up; simp at *; omega,
        fun x y => tt.pipe (t1.cnt 0 x) (t1.pipe x y), fun g => by rw [tt.infos g, t1.infos g]; simp; omega,
        by have := tt.leak; have := t1.leak; simp at *; omega, fun z => tt.zero (t1.zero z), fun z => tt.max (t1.max z)⟩
      have hid : s.id = none := by
        cases hs : s.id with
        | none => rfl
        | some fd =>
          have := x.ne_zero (fd := fd) (by simp [hs])
          simp [isBound, hs] at hb
          omega
      have y := t1.fds hf r k x
      rw [hid] at y
      exact tt.fds hf r k y

theorem sendTo_def {s : Sock} {p : Proc} (h : p.cnt + 1 < 2 ^ 31) : (sendTo os s p).Defined := by
  obtain ⟨⟨ok1, p1⟩, h1⟩ := toSockAddrInfo_def (os := os) (b := true) h
  unfold sendTo
  rw [h1]
  simp only [Res.bind_ok]
  cases ok1 <;> cases isBound s <;> simp

end Uecho.Lemmas
