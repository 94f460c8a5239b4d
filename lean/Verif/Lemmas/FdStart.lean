import Verif.Lemmas.FdRun
/-! # Lemmas for C103: what a start takes -/
namespace Uecho.Lemmas
open Uecho Uecho.Spec Uecho.Fd
open Uecho.Server (Kind)

variable {os : Os}

theorem toSockAddrInfo_willing (w : Willing os) {b : Bool} {p : Proc} {r : Bool × Proc} (h : toSockAddrInfo os b p = .ok r) : r.1 = true := by
  unfold toSockAddrInfo at h
  rw [Res.bind_eq_ok] at h
  obtain ⟨q, -, h⟩ := h
  simp only [getaddrinfo, w.addrinfo, if_true, Bool.not_true, Bool.false_eq_true, if_false] at h
  cases b <;> cases h <;> rfl

theorem bind_says {k : Kind} {a : String} {s s' : Sock} {p p' : Proc} {ok : Bool} (h : Fd.bind os k a s p = .ok (ok, s', p')) :
    (ok = true → ∃ fd, s' = ⟨some fd, a⟩) ∧ (Willing os → ok = true) := by
  unfold Fd.bind at h
  rw [Res.bind_eq_ok] at h
  obtain ⟨⟨ok0, p0⟩, h0, h⟩ := h
  have w0 : Willing os → ok0 = true := fun w => toSockAddrInfo_willing w h0
  cases ok0 with
  | false => cases h; exact ⟨by simp, fun w => by simp at w0; exact absurd w w0⟩
  | true =>
    simp only [Bool.not_true, Bool.false_eq_true, if_false, setopt, open_] at h
    cases hs : os.socket p0.calls p0.fds with
    | none =>
      simp only [hs, if_true] at h
      cases h
      exact ⟨by simp, fun w => absurd hs (w.socket _ _)⟩
    | some fd =>
      simp only [hs, reduceCtorEq, if_false] at h
      by_cases h1 : os.setsockopt (p0.calls + 1) = true
      · simp only [tick, h1, Bool.not_true, Bool.false_eq_true, if_false] at h
        cases k with
        | udp =>
          simp only [reduceCtorEq, if_false, Bool.not_true, Bool.false_eq_true] at h
          by_cases h2 : os.bind (p0.calls + 1 + 1) = true
          · simp only [h2, Bool.not_true, Bool.false_eq_true, if_false] at h
            cases h; exact ⟨fun _ => ⟨fd, rfl⟩, fun _ => rfl⟩
          · simp only [h2, Bool.not_false, if_true] at h
            cases h; exact ⟨by simp, fun w => absurd (w.bind _) h2⟩
        | mcast =>
          simp only [if_true] at h
          by_cases h3 : os.setsockopt (p0.calls + 1 + 1) = true
          · simp only [h3, Bool.not_true, Bool.false_eq_true, if_false] at h
            by_cases h2 : os.bind (p0.calls + 1 + 1 + 1) = true
            · simp only [h2, Bool.not_true, Bool.false_eq_true, if_false] at h
              cases h; exact ⟨fun _ => ⟨fd, rfl⟩, fun _ => rfl⟩
            · simp only [h2, Bool.not_false, if_true] at h
              cases h; exact ⟨by simp, fun w => absurd (w.bind _) h2⟩
          · simp only [h3, Bool.not_false, if_true] at h
            have hk : false = ok := congrArg (·.1) (Res.ok.inj h)
            subst hk; exact ⟨by simp, fun w => absurd (w.setsockopt _) h3⟩
      · simp only [tick, h1, Bool.not_false, if_true] at h
        have hk : false = ok := congrArg (·.1) (Res.ok.inj h)
        subst hk; exact ⟨by simp, fun w => absurd (w.setsockopt _) h1⟩

theorem joinGroup_says (w : Willing os) (p : Proc) : (joinGroup os p).1 = true := by
  unfold joinGroup getaddrinfo setopt
  simp only [w.addrinfo, w.setsockopt, w.join, if_true, Bool.not_true, Bool.false_eq_true, if_false, Bool.and_self]

theorem openSub_says {k : Kind} {a : String} {b : Sub} {p p' : Proc} {ok : Bool} (h : openSub os k a ⟨none, false⟩ p = .ok (ok, b, p')) :
    (ok = true → ∃ fd, b = ⟨some ⟨some fd, a⟩, false⟩) ∧ (Willing os → ok = true) := by
  unfold openSub at h
  simp only [closeSub, Res.bind_ok] at h
  rw [Res.bind_eq_ok] at h
  obtain ⟨⟨s, p1⟩, h1, h⟩ := h
  rw [Res.bind_eq_ok] at h
  obtain ⟨⟨ok1, s1, p2⟩, h2, h⟩ := h
  obtain ⟨e1, w1⟩ := bind_says h2
  cases ok1 with
  | false =>
    simp only [Bool.not_false, if_true] at h
    rw [Res.bind_eq_ok] at h
    obtain ⟨_, -, h⟩ := h
    cases h
    exact ⟨by simp, fun w => by simp at w1; exact absurd w w1⟩
  | true =>
    obtain ⟨fd, rfl⟩ := e1 rfl
    simp only [Bool.not_true, Bool.false_eq_true, if_false] at h
    cases k with
    | udp =>
      simp only [reduceCtorEq, if_false, Bool.not_true, Bool.false_eq_true] at h
      cases h; exact ⟨fun _ => ⟨fd, rfl⟩, fun _ => rfl⟩
    | mcast =>
      simp only [if_true] at h
      by_cases hj : (joinGroup os p2).1 = true
      · simp only [hj, Bool.not_true, Bool.false_eq_true, if_false] at h
        cases h; exact ⟨fun _ => ⟨fd, rfl⟩, fun _ => rfl⟩
      · simp only [hj, Bool.not_false, if_true] at h
        rw [Res.bind_eq_ok] at h
        obtain ⟨_, -, h⟩ := h
        cases h
        exact ⟨by simp, fun w => absurd (joinGroup_says w p2) hj⟩

theorem openLoop_says {k : Kind} : ∀ {as : List String} {l : List Sub} {p p' : Proc} {ok : Bool}, openLoop os k as p = .ok (ok, l, p') →
    (ok = true → Receives false l as) ∧ (Willing os → ok = true) := by
  intro as
  induction as with
  | nil => intro l p p' ok h; cases h; exact ⟨fun _ => ⟨rfl, by simp⟩, fun _ => rfl⟩
  | cons a as ih =>
    intro l p p' ok h
    unfold openLoop at h
    rw [Res.bind_eq_ok] at h
    obtain ⟨⟨ok1, b, p1⟩, h1, h⟩ := h
    obtain ⟨e1, w1⟩ := openSub_says h1
    cases ok1 with
    | false =>
      simp only [Bool.false_eq_true, if_false] at h
      split at h
      all_goals
        rw [Res.bind_eq_ok] at h
        obtain ⟨_, -, h⟩ := h
        cases h
        exact ⟨by simp, fun w => by simp at w1; exact absurd w w1⟩
    | true =>
      simp only [if_true] at h
      rw [Res.bind_eq_ok] at h
      obtain ⟨⟨ok2, l2, p2⟩, h2, h⟩ := h
      cases h
      obtain ⟨e2, w2⟩ := ih h2
      obtain ⟨fd, rfl⟩ := e1 rfl
      refine ⟨fun ho => ?_, w2⟩
      obtain ⟨x1, x2⟩ := e2 ho
      refine ⟨by rw [List.map_cons, x1]; rfl, ?_⟩
      intro b hb
      rcases List.mem_cons.mp hb with rfl | hb
      · exact ⟨rfl, _, fd, rfl, rfl⟩
      · exact x2 b hb

theorem each_nil {f : Sub → Proc → Res (Sub × Proc)} {p : Proc} : each f [] p = .ok ([], p) := rfl

theorem openList_says {k : Kind} {l : List Sub} {p p' : Proc} {ok : Bool} (h : openList os k [] p = .ok (ok, l, p')) :
    (ok = true → os.ifaces p.calls ≠ [] ∧ Receives false l (os.ifaces p.calls)) ∧ (Willing os → ok = true) := by
  unfold openList at h
  simp only [each_nil, Res.bind_ok, List.nil_append] at h
  split at h
  · rename_i he
    cases h; exact ⟨by simp, fun w => absurd he (w.ifaces _)⟩
  · rename_i he
    rw [Res.bind_eq_ok] at h
    obtain ⟨⟨ok1, r, p1⟩, h1, h⟩ := h
    obtain ⟨e1, w1⟩ := openLoop_says h1
    cases ok1 with
    | true => cases h; exact ⟨fun _ => ⟨he, e1 rfl⟩, fun _ => rfl⟩
    | false =>
      simp only [Bool.false_eq_true, if_false] at h
      rw [Res.bind_eq_ok] at h
      obtain ⟨_, -, h⟩ := h
      cases h
      exact ⟨by simp, fun w => by simp at w1; exact absurd w w1⟩

theorem each_stop_idle : ∀ {l : List Sub} {p : Proc}, (∀ b ∈ l, b.thread = false) → each stopSub l p = .ok (l, p) := by
  intro l
  induction l with
  | nil => intro p _; rfl
  | cons b l ih =>
    intro p h
    have hb : b.thread = false := h b (by simp)
    simp [each, stopSub, hb, ih (fun b hb => h b (by simp [hb]))]

theorem startLoop_says : ∀ {l l' : List Sub} {p p' : Proc} {ok : Bool}, startLoop os l p = .ok (ok, l', p') →
    ∀ as, Receives false l as → (ok = true → Receives true l' as) ∧ (Willing os → ok = true) := by
  intro l
  induction l with
  | nil => intro l' p p' ok h as hr; cases h; exact ⟨fun _ => ⟨hr.1, by simp⟩, fun _ => rfl⟩
  | cons b l ih =>
    intro l' p p' ok h as hr
    unfold startLoop at h
    rw [Res.bind_eq_ok] at h
    obtain ⟨⟨ok1, b1, p1⟩, h1, h⟩ := h
    rw [Res.bind_eq_ok] at h
    obtain ⟨⟨ok2, l2, p2⟩, h2, h⟩ := h
    cases h
    cases as with
    | nil => simp [Receives] at hr
    | cons a as =>
      have hrl : Receives false l as := ⟨by have := hr.1; rw [List.map_cons, List.map_cons, List.cons.injEq] at this; exact this.2,
        fun b hb => hr.2 b (by simp [hb])⟩
      obtain ⟨e2, w2⟩ := ih h2 as hrl
      obtain ⟨hbt, s, fd, hs, hfd⟩ := hr.2 b (by simp)
      have ha : b.sock.map (·.addr) = some a := by
        have := hr.1; rw [List.map_cons, List.map_cons, List.cons.injEq] at this; exact this.1
      unfold startSub stopSub at h1
      simp only [hbt, Bool.false_eq_true, if_false, Res.bind_ok, hs, reduceCtorEq] at h1
      by_cases ht : os.thread p.calls = true
      · simp only [ht, if_true] at h1
        cases h1
        refine ⟨fun ho => ?_, fun w => by simpa using w2 w⟩
        obtain ⟨y1, y2⟩ := e2 (by simpa using ho)
        refine ⟨?_, ?_⟩
        · rw [List.map_cons, y1, List.map_cons]; rw [hs] at ha; simp only [ha]
        · intro b' hb'
          rcases List.mem_cons.mp hb' with rfl | hb'
          · exact ⟨rfl, s, fd, rfl, hfd⟩
          · exact y2 b' hb'
      · simp only [ht, Bool.false_eq_true, if_false] at h1
        rw [Res.bind_eq_ok] at h1
        obtain ⟨⟨_, _⟩, -, h1⟩ := h1
        cases h1
        exact ⟨by simp, fun w => absurd (w.thread _) ht⟩

theorem startList_says {l l' : List Sub} {p p' : Proc} {ok : Bool} (h : startList os l p = .ok (ok, l', p')) (as : List String)
    (hr : Receives false l as) : (ok = true → Receives true l' as) ∧ (Willing os → ok = true) := by
  unfold startList at h
  rw [each_stop_idle (fun b hb => (hr.2 b hb).1), Res.bind_ok] at h
  exact startLoop_says h as hr

theorem stop_empty {v v' : Srv} {p p' : Proc} (h : Fd.stop v p = .ok (v', p')) : v' = { v with mcast := [], udp := [] } := by
  unfold Fd.stop at h
  simp only [Res.bind_eq_ok] at h
  obtain ⟨_, -, _, -, _, -, _, -, _, -, _, -, h⟩ := h
  cases h; rfl

end Uecho.Lemmas
