import Verif.Lemmas.FdStart
import Verif.Spec.FdGrant
/-! # Lemmas for C103: what the operating system granted -/
namespace Uecho.Lemmas
open Uecho Uecho.Spec Uecho.Fd
open Uecho.Server (Kind)

variable {os : Os}

theorem yes_add (f : Nat → Bool) {a b c : Nat} (h1 : a ≤ b) (h2 : b ≤ c) : yes f a c = yes f a b + yes f b c := by
  have e : c - a = (b - a) + (c - b) := by omega
  have e2 : a + (b - a) = b := by omega
  unfold yes
  rw [e, ← List.range'_append_1, List.filter_append, List.length_append, e2]

theorem yes_one {f : Nat → Bool} {a : Nat} (h : f a = true) : yes f a (a + 1) = 1 := by
  simp [yes, h]

theorem yes_mem {f : Nat → Bool} {a b n : Nat} (h1 : a ≤ n) (h2 : n < b) (h : f n = true) : 1 ≤ yes f a b := by
  have e1 := yes_add f h1 (Nat.le_of_lt h2)
  have e2 := yes_add f (Nat.le_succ n) (Nat.succ_le_of_lt h2)
  have := yes_one h
  simp only [Nat.succ_eq_add_one] at e2
  omega

theorem _root_.Uecho.Spec.Granted.trans {p p1 p2 : Proc} {j b t j' b' t' : Nat} (x : Granted os p p1 j b t) (y : Granted os p1 p2 j' b' t') :
    Granted os p p2 (j + j') (b + b') (t + t') where
  later := Nat.le_trans x.later y.later
  join := by rw [yes_add _ x.later y.later]; have := x.join; have := y.join; omega
  bind := by rw [yes_add _ x.later y.later]; have := x.bind; have := y.bind; omega
  thread := by rw [yes_add _ x.later y.later]; have := x.thread; have := y.thread; omega

theorem _root_.Uecho.Spec.Granted.weaken {p p1 : Proc} {j b t j' b' t' : Nat} (x : Granted os p p1 j b t) (hj : j' ≤ j) (hb : b' ≤ b) (ht : t' ≤ t) :
    Granted os p p1 j' b' t' :=
  ⟨x.later, Nat.le_trans hj x.join, Nat.le_trans hb x.bind, Nat.le_trans ht x.thread⟩

theorem granted_later {p p' : Proc} (h : p.calls ≤ p'.calls) : Granted os p p' 0 0 0 := ⟨h, by simp, by simp, by simp⟩

theorem startup_calls {p p' : Proc} (h : startup p = .ok p') : p'.calls = p.calls := by
  unfold startup at h
  dsimp only at h
  split at h <;> split at h <;> first | cases h; rfl | cases h

theorem cleanup_calls {p p' : Proc} (h : cleanup p = .ok p') : p'.calls = p.calls := by
  unfold cleanup at h
  split at h
  · cases h; dsimp only; split <;> rfl
  · cases h

theorem close_calls (s : Sock) (p : Proc) : (close s p).2.calls = p.calls := by
  unfold Fd.close; split
  · split <;> rfl
  · rfl

theorem sockDelete_calls {s : Sock} {p p' : Proc} (h : sockDelete s p = .ok p') : p'.calls = p.calls :=
  (cleanup_calls h).trans (close_calls s p)

theorem closeSub_calls {b b' : Sub} {p p' : Proc} (h : closeSub b p = .ok (b', p')) : p'.calls = p.calls := by
  unfold closeSub at h
  split at h
  · cases h; rfl
  · dsimp only at h
    rw [Res.bind_eq_ok] at h
    obtain ⟨p1, h1, h⟩ := h
    cases h
    exact (sockDelete_calls h1).trans (close_calls _ p)

theorem stopSub_calls {b b' : Sub} {p p' : Proc} (h : stopSub b p = .ok (b', p')) : p'.calls = p.calls := by
  unfold stopSub at h
  split at h
  · rw [Res.bind_eq_ok] at h
    obtain ⟨⟨b1, p1⟩, h1, h⟩ := h
    cases h
    exact closeSub_calls h1
  · cases h; rfl

theorem deleteUdp_calls {b : Sub} {p p' : Proc} (h : deleteUdp b p = .ok p') : p'.calls = p.calls := by
  unfold deleteUdp at h
  split at h
  · cases h; rfl
  · exact sockDelete_calls h

theorem each_calls {f : Sub → Proc → Res (Sub × Proc)} (hf : ∀ {b b' p p'}, f b p = .ok (b', p') → p'.calls = p.calls) :
    ∀ {l l' : List Sub} {p p' : Proc}, each f l p = .ok (l', p') → p'.calls = p.calls := by
  intro l
  induction l with
  | nil => intro l' p p' h; cases h; rfl
  | cons b l ih =>
    intro l' p p' h
    unfold each at h
    rw [Res.bind_eq_ok] at h
    obtain ⟨⟨b1, p1⟩, h1, h⟩ := h
    rw [Res.bind_eq_ok] at h
    obtain ⟨⟨l2, p2⟩, h2, h⟩ := h
    cases h
    exact (ih h2).trans (hf h1)

theorem clear_calls : ∀ {l : List Sub} {p p' : Proc}, clear deleteUdp l p = .ok p' → p'.calls = p.calls := by
  intro l
  induction l with
  | nil => intro p p' h; cases h; rfl
  | cons b l ih =>
    intro p p' h
    unfold clear at h
    rw [Res.bind_eq_ok] at h
    obtain ⟨p1, h1, h⟩ := h
    exact (ih h).trans (deleteUdp_calls h1)

theorem stop_calls {v v' : Srv} {p p' : Proc} (h : stop v p = .ok (v', p')) : p'.calls = p.calls := by
  unfold stop at h
  rw [Res.bind_eq_ok] at h
  obtain ⟨⟨l1, p1⟩, h1, h⟩ := h
  rw [Res.bind_eq_ok] at h
  obtain ⟨⟨l2, p2⟩, h2, h⟩ := h
  rw [Res.bind_eq_ok] at h
  obtain ⟨p3, h3, h⟩ := h
  rw [Res.bind_eq_ok] at h
  obtain ⟨⟨l4, p4⟩, h4, h⟩ := h
  rw [Res.bind_eq_ok] at h
  obtain ⟨⟨l5, p5⟩, h5, h⟩ := h
  rw [Res.bind_eq_ok] at h
  obtain ⟨p6, h6, h⟩ := h
  cases h
  have e1 := each_calls closeSub_calls h1
  have e2 := each_calls stopSub_calls h2
  have e3 := clear_calls h3
  have e4 := each_calls closeSub_calls h4
  have e5 := each_calls stopSub_calls h5
  have e6 := clear_calls h6
  omega

theorem getaddrinfo_calls (p : Proc) : (getaddrinfo os p).2.calls = p.calls + 1 := by
  unfold getaddrinfo; split <;> rfl

theorem toSockAddrInfo_calls {b : Bool} {p : Proc} {r : Bool × Proc} (h : toSockAddrInfo os b p = .ok r) : p.calls ≤ r.2.calls := by
  unfold toSockAddrInfo at h
  rw [Res.bind_eq_ok] at h
  obtain ⟨q, h1, h⟩ := h
  have e := startup_calls h1
  have g := getaddrinfo_calls (os := os) q
  rcases hg : getaddrinfo os q with ⟨ok, q1⟩
  simp only [hg] at h g
  cases ok with
  | false => cases h; show p.calls ≤ q1.calls; omega
  | true =>
    cases b with
    | true => cases h; show p.calls ≤ q1.calls; omega
    | false =>
      cases h
      have g2 := getaddrinfo_calls (os := os) (freeaddrinfo q1)
      have : (freeaddrinfo q1).calls = q1.calls := rfl
      omega

theorem bind_granted {k : Kind} {a : String} {s s' : Sock} {p p' : Proc} {ok : Bool} (h : Fd.bind os k a s p = .ok (ok, s', p')) :
    p.calls ≤ p'.calls ∧ (ok = true → Granted os p p' 0 1 0) := by
  unfold Fd.bind at h
  rw [Res.bind_eq_ok] at h
  obtain ⟨⟨ok0, p0⟩, h0, h⟩ := h
  have c0 := toSockAddrInfo_calls h0
  simp only at c0
  cases ok0 with
  | false => cases h; exact ⟨c0, by simp⟩
  | true =>
    simp only [Bool.not_true, Bool.false_eq_true, if_false, setopt, open_] at h
    cases hs : os.socket p0.calls p0.fds with
    | none =>
      simp only [hs, if_true] at h
      cases h
      refine ⟨?_, by simp⟩
      simp only [tick]; omega
    | some fd =>
      simp only [hs, reduceCtorEq, if_false] at h
      by_cases h1 : os.setsockopt (p0.calls + 1) = true
      · simp only [tick, h1, Bool.not_true, Bool.false_eq_true, if_false] at h
        cases k with
        | udp =>
          simp only [reduceCtorEq, if_false, Bool.not_true, Bool.false_eq_true] at h
          by_cases h2 : os.bind (p0.calls + 1 + 1) = true
          · simp only [h2, Bool.not_true, Bool.false_eq_true, if_false] at h
            cases h
            refine ⟨by simp only [freeaddrinfo]; omega, fun _ => ⟨by simp only [freeaddrinfo]; omega, by simp, ?_, by simp⟩⟩
            exact yes_mem (n := p0.calls + 1 + 1) (by omega) (by simp only [freeaddrinfo]; omega) h2
          · simp only [h2, Bool.not_false, if_true] at h
            cases h; exact ⟨by simp only [freeaddrinfo]; omega, by simp⟩
        | mcast =>
          simp only [if_true] at h
          by_cases h3 : os.setsockopt (p0.calls + 1 + 1) = true
          · simp only [h3, Bool.not_true, Bool.false_eq_true, if_false] at h
            by_cases h2 : os.bind (p0.calls + 1 + 1 + 1) = true
            · simp only [h2, Bool.not_true, Bool.false_eq_true, if_false] at h
              cases h
              refine ⟨by simp only [freeaddrinfo]; omega, fun _ => ⟨by simp only [freeaddrinfo]; omega, by simp, ?_, by simp⟩⟩
              exact yes_mem (n := p0.calls + 1 + 1 + 1) (by omega) (by simp only [freeaddrinfo]; omega) h2
            · simp only [h2, Bool.not_false, if_true] at h
              cases h; exact ⟨by simp only [freeaddrinfo]; omega, by simp⟩
          · simp only [h3, Bool.not_false, if_true] at h
            have hx := Res.ok.inj h
            have hk : false = ok := congrArg (·.1) hx
            have hp := congrArg (·.2.2) hx
            simp only at hp
            subst hk; rw [← hp, close_calls]; exact ⟨by simp only; omega, by simp⟩
      · simp only [tick, h1, Bool.not_false, if_true] at h
        have hx := Res.ok.inj h
        have hk : false = ok := congrArg (·.1) hx
        have hp := congrArg (·.2.2) hx
        simp only at hp
        subst hk; rw [← hp, close_calls]; exact ⟨by simp only; omega, by simp⟩

theorem joinGroup_granted (p : Proc) : p.calls ≤ (joinGroup os p).2.calls ∧ ((joinGroup os p).1 = true → Granted os p (joinGroup os p).2 1 0 0) := by
  unfold joinGroup getaddrinfo setopt freeaddrinfo Fd.tick
  by_cases h1 : os.addrinfo p.calls = true
  · by_cases h2 : os.addrinfo (p.calls + 1) = true
    · simp only [h1, h2, if_true, Bool.not_true, Bool.false_eq_true, if_false]
      refine ⟨by omega, fun h => ⟨by simp only; omega, ?_, by simp, by simp⟩⟩
      rw [Bool.and_eq_true] at h
      exact yes_mem (n := p.calls + 1 + 1 + 1) (by omega) (by simp only; omega) h.1
    · simp only [h1, h2, if_true, Bool.not_true, Bool.not_false, Bool.false_eq_true, if_false]
      exact ⟨by omega, by simp⟩
  · simp only [h1, Bool.not_false, Bool.false_eq_true, if_false, if_true]
    exact ⟨by omega, by simp⟩

/-- The memberships that servers of a kind have. -/
def joinsOf (k : Kind) (n : Nat) : Nat := if k = .mcast then n else 0

theorem openSub_granted {k : Kind} {a : String} {b : Sub} {p p' : Proc} {ok : Bool} (h : openSub os k a ⟨none, false⟩ p = .ok (ok, b, p')) :
    p.calls ≤ p'.calls ∧ (ok = true → Granted os p p' (joinsOf k 1) 1 0) := by
  unfold openSub at h
  simp only [closeSub, Res.bind_ok] at h
  rw [Res.bind_eq_ok] at h
  obtain ⟨⟨s, p1⟩, h1, h⟩ := h
  have c1 : p1.calls = p.calls := by
    unfold sockNew at h1
    rw [Res.bind_eq_ok] at h1
    obtain ⟨q, hq, h1⟩ := h1
    cases h1
    exact startup_calls hq
  rw [Res.bind_eq_ok] at h
  obtain ⟨⟨ok1, s1, p2⟩, h2, h⟩ := h
  obtain ⟨c2, g2⟩ := bind_granted h2
  simp only at c2
  cases ok1 with
  | false =>
    simp only [Bool.not_false, if_true] at h
    rw [Res.bind_eq_ok] at h
    obtain ⟨⟨b3, p3⟩, h3, h⟩ := h
    cases h
    have c3 : p3.calls = p2.calls := closeSub_calls (b := ⟨some s1, false⟩) h3
    refine ⟨?_, by simp⟩
    show p.calls ≤ p3.calls
    omega
  | true =>
    have g2 := g2 rfl
    have g1 : Granted os p p1 0 0 0 := granted_later (by omega)
    simp only [Bool.not_true, Bool.false_eq_true, if_false] at h
    cases k with
    | udp =>
      simp only [reduceCtorEq, if_false, Bool.not_true, Bool.false_eq_true] at h
      cases h
      exact ⟨by omega, fun _ => (g1.trans g2).weaken (by simp [joinsOf]) (by simp) (by simp)⟩
    | mcast =>
      simp only [if_true] at h
      obtain ⟨cj, gj⟩ := joinGroup_granted (os := os) p2
      by_cases hj : (joinGroup os p2).1 = true
      · simp only [hj, Bool.not_true, Bool.false_eq_true, if_false] at h
        cases h
        exact ⟨by omega, fun _ => ((g1.trans g2).trans (gj hj)).weaken (by simp [joinsOf]) (by simp) (by simp)⟩
      · simp only [hj, Bool.not_false, if_true] at h
        rw [Res.bind_eq_ok] at h
        obtain ⟨⟨b3, p3⟩, h3, h⟩ := h
        cases h
        have c3 : p3.calls = (joinGroup os p2).2.calls := closeSub_calls (b := ⟨some s1, false⟩) h3
        refine ⟨?_, by simp⟩
        show p.calls ≤ p3.calls
        omega

theorem openLoop_granted {k : Kind} : ∀ {as : List String} {l : List Sub} {p p' : Proc}, openLoop os k as p = .ok (true, l, p') →
    Granted os p p' (joinsOf k as.length) as.length 0 := by
  intro as
  induction as with
  | nil => intro l p p' h; cases h; exact (granted_later (Nat.le_refl _)).weaken (by simp [joinsOf]) (by simp) (by simp)
  | cons a as ih =>
    intro l p p' h
    unfold openLoop at h
    rw [Res.bind_eq_ok] at h
    obtain ⟨⟨ok1, b, p1⟩, h1, h⟩ := h
    obtain ⟨-, g1⟩ := openSub_granted h1
    cases ok1 with
    | false =>
      simp only [Bool.false_eq_true, if_false] at h
      split at h
      all_goals
        rw [Res.bind_eq_ok] at h
        obtain ⟨_, -, h⟩ := h
        cases h
    | true =>
      simp only [if_true] at h
      rw [Res.bind_eq_ok] at h
      obtain ⟨⟨ok2, l2, p2⟩, h2, h⟩ := h
      cases h
      refine ((g1 rfl).trans (ih h2)).weaken ?_ (by simp; omega) (by simp)
      unfold joinsOf
      split <;> simp <;> omega

theorem openList_granted {k : Kind} {l : List Sub} {p p' : Proc} (h : openList os k [] p = .ok (true, l, p')) :
    Granted os p p' (joinsOf k (os.ifaces p.calls).length) (os.ifaces p.calls).length 0 := by
  unfold openList at h
  simp only [each_nil, Res.bind_ok, List.nil_append] at h
  split at h
  · cases h
  · rw [Res.bind_eq_ok] at h
    obtain ⟨⟨ok1, r, p1⟩, h1, h⟩ := h
    cases ok1 with
    | true =>
      cases h
      have g : Granted os p (tick p) 0 0 0 := granted_later (by simp [tick])
      exact (g.trans (openLoop_granted h1)).weaken (by simp) (by simp) (by simp)
    | false =>
      simp only [Bool.false_eq_true, if_false] at h
      rw [Res.bind_eq_ok] at h
      obtain ⟨_, -, h⟩ := h
      cases h

theorem startSub_granted {b b' : Sub} {p p' : Proc} {ok : Bool} (h : startSub os b p = .ok (ok, b', p')) :
    p.calls ≤ p'.calls ∧ (ok = true → Granted os p p' 0 0 1) := by
  unfold startSub at h
  rw [Res.bind_eq_ok] at h
  obtain ⟨⟨b1, p1⟩, h1, h⟩ := h
  have c1 := stopSub_calls h1
  simp only at h
  split at h
  · cases h; exact ⟨by omega, by simp⟩
  · by_cases ht : os.thread p1.calls = true
    · simp only [ht, if_true] at h
      cases h
      refine ⟨by simp only [tick]; omega, fun _ => ⟨by simp only [tick]; omega, by simp, by simp, ?_⟩⟩
      exact yes_mem (n := p1.calls) (by omega) (by simp only [tick]; omega) ht
    · simp only [ht, Bool.false_eq_true, if_false] at h
      rw [Res.bind_eq_ok] at h
      obtain ⟨⟨b2, p2⟩, h2, h⟩ := h
      cases h
      have c2 := stopSub_calls h2
      simp only [tick] at c2
      refine ⟨?_, by simp⟩
      show p.calls ≤ p2.calls
      omega

theorem startLoop_granted : ∀ {l l' : List Sub} {p p' : Proc} {ok : Bool}, startLoop os l p = .ok (ok, l', p') →
    p.calls ≤ p'.calls ∧ (ok = true → Granted os p p' 0 0 l.length) := by
  intro l
  induction l with
  | nil => intro l' p p' ok h; cases h; exact ⟨Nat.le_refl _, fun _ => granted_later (Nat.le_refl _)⟩
  | cons b l ih =>
    intro l' p p' ok h
    unfold startLoop at h
    rw [Res.bind_eq_ok] at h
    obtain ⟨⟨ok1, b1, p1⟩, h1, h⟩ := h
    rw [Res.bind_eq_ok] at h
    obtain ⟨⟨ok2, l2, p2⟩, h2, h⟩ := h
    obtain ⟨c1, g1⟩ := startSub_granted h1
    obtain ⟨c2, g2⟩ := ih h2
    cases h
    refine ⟨Nat.le_trans c1 c2, fun ho => ?_⟩
    rw [Bool.and_eq_true] at ho
    exact ((g1 ho.1).trans (g2 ho.2)).weaken (by simp) (by simp) (by simp; omega)

theorem each_stop_length : ∀ {f : Sub → Proc → Res (Sub × Proc)} {l l' : List Sub} {p p' : Proc}, each f l p = .ok (l', p') →
    l'.length = l.length := by
  intro f l
  induction l with
  | nil => intro l' p p' h; cases h; rfl
  | cons b l ih =>
    intro l' p p' h
    unfold each at h
    rw [Res.bind_eq_ok] at h
    obtain ⟨⟨b1, p1⟩, h1, h⟩ := h
    rw [Res.bind_eq_ok] at h
    obtain ⟨⟨l2, p2⟩, h2, h⟩ := h
    cases h
    simp [ih h2]

theorem startList_granted {l l' : List Sub} {p p' : Proc} (h : startList os l p = .ok (true, l', p')) : Granted os p p' 0 0 l.length := by
  unfold startList at h
  rw [Res.bind_eq_ok] at h
  obtain ⟨⟨l1, p1⟩, h1, h⟩ := h
  have g : Granted os p p1 0 0 0 := granted_later (by have := each_calls stopSub_calls h1; omega)
  have := (startLoop_granted h).2 rfl
  rw [each_stop_length h1] at this
  exact (g.trans this).weaken (by simp) (by simp) (by simp)

end Uecho.Lemmas
