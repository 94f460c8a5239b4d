import Verif.Spec.Tcp
import Verif.Lemmas.Fd
/-! # What the functions of `Model/Tcp.lean` take and give back -/
namespace Uecho.Lemmas
open Uecho Uecho.Spec Uecho.Fd Uecho.Tcp

theorem socksHold_append (a b : List Sock) : socksHold (a ++ b) = socksHold a ++ socksHold b := by
  induction a with
  | nil => rfl
  | cons x a ih => simp [socksHold, ih]

/-- One socket and the others. -/
theorem socksHold_split {l : List Sock} : ∀ {i : Nat} {x : Sock}, l[i]? = some x → ∀ y : Sock,
    (socksHold l).Perm (x.id.toList ++ socksHold (l.eraseIdx i)) ∧ (socksHold (l.set i y)).Perm (y.id.toList ++ socksHold (l.eraseIdx i)) := by
  induction l with
  | nil => intro i x h; simp at h
  | cons z l ih =>
    intro i x h y
    cases i with
    | zero =>
      simp at h
      subst h
      exact ⟨List.Perm.refl _, List.Perm.refl _⟩
    | succ i =>
      simp at h
      obtain ⟨h1, h2⟩ := ih h y
      have sw : ∀ a b c : List Nat, (a ++ (b ++ c)).Perm (b ++ (a ++ c)) := fun a b c => by
        rw [← List.append_assoc, ← List.append_assoc]
        exact List.perm_append_comm.append_right c
      exact ⟨(h1.append_left z.id.toList).trans (sw _ _ _), (h2.append_left z.id.toList).trans (sw _ _ _)⟩

theorem connect_tr {os : StreamOs} {s s' : Sock} {ok : Bool} {p p' : Proc} (h : Tcp.connect os s p = .ok (ok, s', p'))
    (hs : s.id ≠ some 0) (n : Nat) : Tr os.base s.id.toList s'.id.toList n (n + 1) 1 0 p p' := by
  unfold Tcp.connect at h
  rw [Res.bind_eq_ok] at h
  obtain ⟨⟨ok1, p1⟩, h1, h⟩ := h
  have t1 := (toSockAddrInfo_tr h1 n).frame s.id.toList 0
  cases ok1 with
  | false =>
    simp at h
    obtain ⟨-, rfl, rfl⟩ := h
    simpa using t1
  | true =>
    simp only [Bool.not_true, Bool.false_eq_true, if_false] at h
    have t1 : Tr os.base s.id.toList s.id.toList n (n + 1) 1 1 p p1 := by simpa using t1
    by_cases hb : isBound s = true
    · rw [if_pos hb] at h
      simp at h
      obtain ⟨-, rfl, rfl⟩ := h
      exact ((t1.trans (Tr.tick p1 _ _)).trans (freeaddrinfo_tr _ _ _)).weaken (by omega) (by omega)
    · rw [if_neg hb] at h
      have hn : s.id = none := by
        cases hi : s.id with
        | none => rfl
        | some fd =>
          simp [isBound, hi] at hb
          exact absurd (by rw [hi, hb]) hs
      rw [hn] at t1 ⊢
      have t2 := open_tr (os := os.base) s p1 (n + 1)
      rcases ho : open_ os.base s p1 with ⟨s2, p2⟩
      rw [ho] at h t2
      simp at h
      obtain ⟨-, rfl, rfl⟩ := h
      exact (((t1.trans t2).trans (Tr.tick p2 _ _)).trans (freeaddrinfo_tr _ _ _)).weaken (by omega) (by omega)

theorem tcpStep_inv {os : StreamOs} (hf : FreshStream os) {app : List Nat} {op : TcpOp} {s s' : TcpSt} (h : tcpStep os op s = .ok s')
    (ht : TidyOp op s) (x : FdInv app (socksHold s.socks) s.proc) : FdInv app (socksHold s'.socks) s'.proc := by
  -- a call that turns socket `i` from `a` into `b`
  have one : ∀ {i : Nat} {a b : Sock} {p : Proc}, s.socks[i]? = some a →
      (∀ rest k, FdInv rest (a.id.toList ++ k) s.proc → FdInv rest (b.id.toList ++ k) p) → FdInv app (socksHold (s.socks.set i b)) p := by
    intro i a b p hi hk
    obtain ⟨h1, h2⟩ := socksHold_split hi b
    exact (hk app _ (x.perm h1)).perm h2.symm
  cases op with
  | new =>
    simp only [tcpStep] at h
    rw [Res.bind_eq_ok] at h
    obtain ⟨⟨k, p⟩, h1, h⟩ := h
    cases h
    unfold sockNew at h1
    rw [Res.bind_eq_ok] at h1
    obtain ⟨p1, h1, h2⟩ := h1
    cases h2
    have t := startup_tr (os := os.base) h1 0
    rw [socksHold_append]
    simpa [socksHold] using t.fds hf.1 app (socksHold s.socks) x
  | bind i k a =>
    simp only [tcpStep] at h
    cases hi : s.socks[i]? with
    | none => rw [hi] at h; cases h; exact x
    | some y =>
      rw [hi] at h
      simp only at h
      rw [Res.bind_eq_ok] at h
      obtain ⟨⟨o, y', p⟩, h1, h⟩ := h
      cases h
      have hy := ht y hi
      have t := bind_tr h1 hy 0
      exact one hi (fun rest k z => t.fds hf.1 rest k (by rw [hy] at z; exact z))
  | accept i j =>
    simp only [tcpStep] at h
    cases hi : s.socks[i]? with
    | none => rw [hi] at h; cases h; exact x
    | some v =>
      cases hj : s.socks[j]? with
      | none => rw [hi, hj] at h; cases h; exact x
      | some y =>
        rw [hi, hj] at h
        simp only at h
        have hy := ht y hj
        cases h
        refine one hj (fun rest k z => ?_)
        rw [hy] at z
        unfold Tcp.accept
        split
        next fd ha => exact FdInv.cons (p := tick s.proc) z (hf.2 _ _ _ ha)
        next => exact z
  | connect i =>
    simp only [tcpStep] at h
    cases hi : s.socks[i]? with
    | none => rw [hi] at h; cases h; exact x
    | some y =>
      rw [hi] at h
      simp only at h
      rw [Res.bind_eq_ok] at h
      obtain ⟨⟨o, y', p⟩, h1, h⟩ := h
      cases h
      have hy : y.id ≠ some 0 := by
        intro e
        have := (x.perm (socksHold_split hi y).1).ne_zero (fd := 0) (by simp [e])
        omega
      have t := connect_tr h1 hy 0
      exact one hi (fun rest k z => t.fds hf.1 rest k z)
  | close i =>
    simp only [tcpStep] at h
    cases hi : s.socks[i]? with
    | none => rw [hi] at h; cases h; exact x
    | some y =>
      rw [hi] at h
      cases h
      have t := close_tr' (os := os.base) y s.proc 0
      exact one hi (fun rest k z => t.fds hf.1 rest k z)
  | delete i =>
    simp only [tcpStep] at h
    cases hi : s.socks[i]? with
    | none => rw [hi] at h; cases h; exact x
    | some y =>
      rw [hi] at h
      simp only at h
      rw [Res.bind_eq_ok] at h
      obtain ⟨p, h1, h⟩ := h
      cases h
      have t := sockDelete_tr (os := os.base) h1 0
      exact t.fds hf.1 app _ (x.perm (socksHold_split hi y).1)

theorem tcpRun_inv {os : StreamOs} (hf : FreshStream os) {app : List Nat} (ops : List TcpOp) : ∀ {s s' : TcpSt}, tcpRun os ops s = .ok s' →
    Tidy os ops s → FdInv app (socksHold s.socks) s.proc → FdInv app (socksHold s'.socks) s'.proc := by
  induction ops with
  | nil => intro s s' h _ x; cases h; exact x
  | cons op ops ih =>
    intro s s' h ht x
    simp only [tcpRun] at h
    rw [Res.bind_eq_ok] at h
    obtain ⟨s1, h1, h2⟩ := h
    exact ih h2 (ht.2 s1 h1) (tcpStep_inv hf h1 ht.1 x)

theorem skipLoop_eq (n : Nat) : ∀ (cnt : Nat) (inp : Socket.Input), skipLoop n cnt inp = (cnt + min n inp.length, inp.drop n) := by
  induction n with
  | zero => intro cnt inp; simp [skipLoop]
  | succ n ih =>
    intro cnt inp
    cases inp with
    | nil => simp [skipLoop]
    | cons c cs => simp [skipLoop, ih]; omega

end Uecho.Lemmas
