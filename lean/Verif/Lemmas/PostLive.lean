import Verif.Lemmas.Post
/-! # Posts in progress keep their request, whatever the listener does (for C75) -/
namespace Uecho.Lemmas
open Uecho Uecho.Spec Uecho.Post

/-- Nothing that exists in `h` is missing in `h'`. -/
def Keeps (h h' : Heap) : Prop := ∀ p, (h p).isSome = true → (h' p).isSome = true

theorem Keeps.refl (h : Heap) : Keeps h h := fun _ hp => hp
theorem Keeps.trans {a b c : Heap} (h1 : Keeps a b) (h2 : Keeps b c) : Keeps a c := fun p hp => h2 p (h1 p hp)
theorem Keeps.set (h : Heap) (q : Nat) (m : Message) : Keeps h (h.set q m) := by
  intro p hp
  unfold Heap.set
  split
  · rfl
  · exact hp

theorem recvStep_keeps {e : Endian} {s s' : Sys} {m : Message} {pc pc' : RecvPc} (h : recvStep e s m pc = .ok (s', pc')) :
    s'.thr = s.thr ∧ Keeps s.heap s'.heap := by
  have triv : ∀ {x : RecvPc}, (Res.ok (s, x) : Res (Sys × RecvPc)) = .ok (s', pc') → s'.thr = s.thr ∧ Keeps s.heap s'.heap := by
    intro x h
    simp only [Res.ok.injEq, Prod.mk.injEq] at h
    rw [← h.1]
    exact ⟨rfl, .refl _⟩
  cases pc with
  | waitReq => exact triv h
  | waitRes => exact triv h
  | hasReq => exact triv h
  | getRes => exact triv h
  | done => exact triv h
  | compare =>
    simp only [recvStep] at h
    split at h
    · exact triv h
    · split at h
      · cases h
      · exact triv h
  | signal =>
    simp only [recvStep, Res.ok.injEq, Prod.mk.injEq] at h
    rw [← h.1]
    exact ⟨rfl, .refl _⟩
  | copy p =>
    cases p with
    | none => exact triv h
    | some p =>
      simp only [recvStep] at h
      split at h
      · cases h
      · simp only [Res.bind_eq_ok, Res.pure_eq, Res.ok.injEq, Prod.mk.injEq] at h
        obtain ⟨r, _, rfl, _⟩ := h
        exact ⟨rfl, .set _ _ _⟩

theorem deliver_keeps {e : Endian} {s s' : Sys} {m : Message} (h : Post.deliver e s m = .ok s') : s'.thr = s.thr ∧ Keeps s.heap s'.heap := by
  simp only [Post.deliver, Res.bind_eq_ok, Res.pure_eq, Res.ok.injEq] at h
  obtain ⟨⟨s1, p1⟩, h1, ⟨s2, p2⟩, h2, ⟨s3, p3⟩, h3, ⟨s4, p4⟩, h4, ⟨s5, p5⟩, h5, ⟨s6, p6⟩, h6, ⟨s7, p7⟩, h7, rfl⟩ := h
  have k1 := recvStep_keeps h1
  have k2 := recvStep_keeps h2
  have k3 := recvStep_keeps h3
  have k4 := recvStep_keeps h4
  have k5 := recvStep_keeps h5
  have k6 := recvStep_keeps h6
  have k7 := recvStep_keeps h7
  refine ⟨?_, k1.2.trans (k2.2.trans (k3.2.trans (k4.2.trans (k5.2.trans (k6.2.trans k7.2)))))⟩
  simp only at k1 k2 k3 k4 k5 k6 k7
  rw [k7.1, k6.1, k5.1, k4.1, k3.1, k2.1, k1.1]
  rfl

/-- The thread `t` may go on with its post or be without one; the others stay. -/
def Moves (s s' : Sys) (t : Nat) : Prop := ∃ x, s'.thr = (s.goto t x).thr ∧ (jobOf x = jobOf (s.thr t) ∨ jobOf x = none)

theorem Moves.jobs {s s' : Sys} {t : Nat} (h : Moves s s' t) {u : Nat} {j : Job} (hj : jobOf (s'.thr u) = some j) : jobOf (s.thr u) = some j := by
  obtain ⟨x, h1, h2⟩ := h
  rw [h1] at hj
  simp only [Sys.goto] at hj
  split at hj
  · rename_i e
    rcases h2 with h2 | h2
    · rw [e, ← h2]; exact hj
    · rw [h2] at hj; cases hj
  · exact hj

theorem postStep_keeps {e : Endian} {s s' : Sys} {t : Nat} {j : Job} {pc : PostPc} (ht : s.thr t = .post j pc) (h : postStep e s t j pc = .ok (some s')) :
    Moves s s' t ∧ Keeps s.heap s'.heap := by
  have hj : jobOf (s.thr t) = some j := by rw [ht]; rfl
  cases pc with
  | lock =>
    simp only [postStep] at h
    split at h
    · simp only [Res.ok.injEq, Option.some.injEq] at h
      rw [← h]
      exact ⟨⟨_, rfl, .inl (by rw [hj]; rfl)⟩, .refl _⟩
    · simp at h
  | tid p =>
    simp only [postStep] at h
    split at h <;>
    · simp only [Res.ok.injEq, Option.some.injEq] at h
      rw [← h]
      exact ⟨⟨_, rfl, .inl (by rw [hj]; rfl)⟩, .refl _⟩
  | setTid v =>
    simp only [postStep] at h
    split at h
    · cases h
    · simp only [Res.ok.injEq, Option.some.injEq] at h
      rw [← h]
      exact ⟨⟨_, rfl, .inl (by rw [hj]; rfl)⟩, .set _ _ _⟩
  | send =>
    simp only [postStep] at h
    split at h
    · cases h
    · simp only [Res.ok.injEq, Option.some.injEq] at h
      rw [← h]
      exact ⟨⟨_, rfl, .inl (by rw [hj]; rfl)⟩, .refl _⟩
  | waiting =>
    simp only [postStep] at h
    split at h
    · simp at h
    · simp only [Res.ok.injEq, Option.some.injEq] at h
      rw [← h]
      exact ⟨⟨_, rfl, .inl (by rw [hj]; rfl)⟩, .refl _⟩
  | unlock r =>
    simp only [postStep, Res.ok.injEq, Option.some.injEq] at h
    rw [← h]
    exact ⟨⟨_, rfl, .inr rfl⟩, .refl _⟩
  | setReq | setRes | condWait | clearReq _ | clearRes _ =>
    simp only [postStep, Res.ok.injEq, Option.some.injEq] at h
    rw [← h]
    exact ⟨⟨_, rfl, .inl (by rw [hj]; rfl)⟩, .refl _⟩

/-- Every post in progress has its request. -/
def LInv (s : Sys) : Prop := ∀ t j, jobOf (s.thr t) = some j → (s.heap j.req).isSome = true

theorem LInv.move {s s' : Sys} {t : Nat} (h : LInv s) (hm : Moves s s' t) (hk : Keeps s.heap s'.heap) : LInv s' :=
  fun u j hj => hk _ (h u j (hm.jobs hj))

theorem step_linv {e : Endian} {s s' : Sys} {l : Label} (h : LInv s) (hu : UserOK e s l) (hs : Post.step e s l = .ok (some s')) : LInv s' := by
  cases l with
  | callPost t j =>
    simp only [Post.step] at hs
    split at hs
    · simp only [Res.ok.injEq, Option.some.injEq] at hs
      rw [← hs]
      intro u k hk
      simp only [Sys.goto] at hk
      split at hk
      · simp only [jobOf, Option.some.injEq] at hk
        obtain ⟨m, hm, _⟩ := hu.1
        rw [← hk]
        show (s.heap j.req).isSome = true
        rw [hm]; rfl
      · exact h u k hk
    · simp at hs
  | callSend t =>
    simp only [Post.step] at hs
    split at hs
    · simp only [Res.ok.injEq, Option.some.injEq] at hs
      rw [← hs]
      exact h.move ⟨_, rfl, .inr rfl⟩ (.refl _)
    · simp at hs
  | arrive t m =>
    simp only [Post.step] at hs
    split at hs
    · simp only [Res.ok.injEq, Option.some.injEq] at hs
      rw [← hs]
      exact h.move (t := t) ⟨_, rfl, .inr rfl⟩ (.refl _)
    · simp at hs
  | step t =>
    simp only [Post.step, threadStep] at hs
    split at hs
    · simp at hs
    · rename_i j pc ht
      obtain ⟨h1, h2⟩ := postStep_keeps ht hs
      exact h.move h1 h2
    · simp only [Res.ok.injEq, Option.some.injEq] at hs
      rw [← hs]
      exact h.move (t := t) ⟨_, rfl, .inr rfl⟩ (.refl _)
    · simp only [Res.ok.injEq, Option.some.injEq] at hs
      rw [← hs]
      exact h.move (t := t) ⟨_, rfl, .inr rfl⟩ (.refl _)
    · rename_i m _ _
      simp only [Res.bind_eq_ok, Res.pure_eq, Res.ok.injEq, Option.some.injEq] at hs
      obtain ⟨⟨s1, pc⟩, h1, rfl⟩ := hs
      obtain ⟨k1, k2⟩ := recvStep_keeps h1
      refine h.move (t := t) ⟨if pc = .done then .idle else .recv m pc, ?_, .inr ?_⟩ k2
      · funext u
        simp only [Sys.goto, k1]
      · split <;> rfl
  | sendFail t =>
    simp only [Post.step] at hs
    split at hs
    · rename_i j ht
      split at hs
      · cases hs
      · simp only [Res.ok.injEq, Option.some.injEq] at hs
        rw [← hs]
        exact h.move (t := t) ⟨_, rfl, .inl (by rw [ht]; rfl)⟩ (.refl _)
    · simp at hs
  | timeout t =>
    simp only [Post.step] at hs
    split at hs
    · rename_i j ht
      split at hs
      · simp only [Res.ok.injEq, Option.some.injEq] at hs
        rw [← hs]
        exact h.move (t := t) ⟨_, rfl, .inl (by rw [ht]; rfl)⟩ (.refl _)
      · simp at hs
    · simp at hs
  | spurious t =>
    simp only [Post.step] at hs
    split at hs
    · rename_i j ht
      split at hs
      · simp only [Res.ok.injEq, Option.some.injEq] at hs
        rw [← hs]
        exact h.move (t := t) ⟨_, rfl, .inl (by rw [ht]; rfl)⟩ (.refl _)
      · simp at hs
    · simp at hs
  | deliver m =>
    simp only [Post.step, Res.bind_eq_ok, Res.pure_eq, Res.ok.injEq, Option.some.injEq] at hs
    obtain ⟨s1, h1, rfl⟩ := hs
    obtain ⟨k1, k2⟩ := deliver_keeps h1
    intro u j hj
    rw [k1] at hj
    exact k2 _ (h u j hj)
  | store p m =>
    simp only [Post.step, Res.ok.injEq, Option.some.injEq] at hs
    rw [← hs]
    exact fun u j hj => Keeps.set s.heap p m _ (h u j hj)
  | free p =>
    simp only [Post.step, Res.ok.injEq, Option.some.injEq] at hs
    rw [← hs]
    intro u j hj
    have hne : j.req ≠ p := by
      intro e
      obtain ⟨pc, hpc⟩ := jobOf_some.1 hj
      exact hu ⟨u, j, pc, hpc, .inl e.symm⟩
    show ((if j.req = p then none else s.heap j.req) : Option Message).isSome = true
    rw [if_neg hne]
    exact h u j hj

theorem run_linv {e : Endian} {s s' : Sys} {ls : List Label} (hs : LInv s) (h : Run e s ls s') : LInv s' := by
  induction h with
  | nil => exact hs
  | snoc l _ hu hst ih => exact step_linv ih hu hst

/-! ## How many steps a post takes -/

/-- A bound for the steps that are left. -/
def rank : PostPc → Nat
  | .lock => 14
  | .setReq => 13
  | .setRes => 12
  | .tid .cmp => 11
  | .tid .inc => 10
  | .tid (.store _) => 9
  | .tid .ret => 8
  | .setTid _ => 7
  | .send => 6
  | .condWait => 5
  | .waiting => 4
  | .clearReq _ => 3
  | .clearRes _ => 2
  | .unlock _ => 1

theorem rank_pos (pc : PostPc) : 0 < rank pc := by
  cases pc with
  | tid p => cases p <;> simp [rank]
  | _ => simp [rank]

theorem recvStep_log {e : Endian} {s s' : Sys} {m : Message} {pc pc' : RecvPc} (h : recvStep e s m pc = .ok (s', pc')) : s'.log = s.log := by
  have triv : ∀ {x : RecvPc}, (Res.ok (s, x) : Res (Sys × RecvPc)) = .ok (s', pc') → s'.log = s.log := by
    intro x h
    simp only [Res.ok.injEq, Prod.mk.injEq] at h
    rw [← h.1]
  cases pc with
  | waitReq => exact triv h
  | waitRes => exact triv h
  | hasReq => exact triv h
  | getRes => exact triv h
  | done => exact triv h
  | compare =>
    simp only [recvStep] at h
    split at h
    · exact triv h
    · split at h
      · cases h
      · exact triv h
  | signal =>
    simp only [recvStep, Res.ok.injEq, Prod.mk.injEq] at h
    rw [← h.1]
  | copy p =>
    cases p with
    | none => exact triv h
    | some p =>
      simp only [recvStep] at h
      split at h
      · cases h
      · simp only [Res.bind_eq_ok, Res.pure_eq, Res.ok.injEq, Prod.mk.injEq] at h
        obtain ⟨r, _, rfl, _⟩ := h
        rfl

theorem deliver_log {e : Endian} {s s' : Sys} {m : Message} (h : Post.deliver e s m = .ok s') : s'.log = s.log ++ [.arrived m] := by
  simp only [Post.deliver, Res.bind_eq_ok, Res.pure_eq, Res.ok.injEq] at h
  obtain ⟨⟨s1, p1⟩, h1, ⟨s2, p2⟩, h2, ⟨s3, p3⟩, h3, ⟨s4, p4⟩, h4, ⟨s5, p5⟩, h5, ⟨s6, p6⟩, h6, ⟨s7, p7⟩, h7, rfl⟩ := h
  have k1 := recvStep_log h1
  have k2 := recvStep_log h2
  have k3 := recvStep_log h3
  have k4 := recvStep_log h4
  have k5 := recvStep_log h5
  have k6 := recvStep_log h6
  have k7 := recvStep_log h7
  simp only at k1 k2 k3 k4 k5 k6 k7
  rw [k7, k6, k5, k4, k3, k2, k1]
  rfl

/-- What a step of the post `j` of thread `t` does: the log gets longer, and the post has fewer steps left, or has returned. -/
def Nearer (s s' : Sys) (t : Nat) (j : Job) (pc : PostPc) : Prop :=
  ∃ add, s'.log = s.log ++ add ∧ ((∃ pc', s'.thr t = .post j pc' ∧ rank pc' < rank pc) ∨ ∃ ok q r, Ev.returned t j ok q r ∈ add)

theorem goto_self (s : Sys) (t : Nat) (x : Thread) : (s.goto t x).thr t = x := by simp [Sys.goto]

theorem postStep_nearer {e : Endian} {s s' : Sys} {t : Nat} {j : Job} {pc : PostPc} (h : postStep e s t j pc = .ok (some s')) : Nearer s s' t j pc := by
  cases pc with
  | lock =>
    simp only [postStep] at h
    split at h
    · simp only [Res.ok.injEq, Option.some.injEq] at h
      rw [← h]
      exact ⟨[], by simp [Sys.goto], .inl ⟨_, goto_self _ _ _, by simp [rank]⟩⟩
    · simp at h
  | tid p =>
    cases p <;>
    · simp only [postStep, tidStep] at h
      simp only [Res.ok.injEq, Option.some.injEq] at h
      rw [← h]
      refine ⟨[], by simp [Sys.goto], .inl ⟨_, goto_self _ _ _, ?_⟩⟩
      first | (simp [rank]; done) | (split <;> simp [rank])
  | setTid v =>
    simp only [postStep] at h
    split at h
    · cases h
    · simp only [Res.ok.injEq, Option.some.injEq] at h
      rw [← h]
      exact ⟨[], by simp [Sys.goto], .inl ⟨_, goto_self _ _ _, by simp [rank]⟩⟩
  | send =>
    simp only [postStep] at h
    split at h
    · cases h
    · simp only [Res.ok.injEq, Option.some.injEq] at h
      rw [← h]
      exact ⟨_, by simp [Sys.goto, Sys.emit]; rfl, .inl ⟨_, goto_self _ _ _, by simp [rank]⟩⟩
  | waiting =>
    simp only [postStep] at h
    split at h
    · simp at h
    · simp only [Res.ok.injEq, Option.some.injEq] at h
      rw [← h]
      exact ⟨[], by simp [Sys.goto], .inl ⟨_, goto_self _ _ _, by simp [rank]⟩⟩
  | unlock r =>
    simp only [postStep, Res.ok.injEq, Option.some.injEq] at h
    rw [← h]
    exact ⟨_, rfl, .inr ⟨r, _, _, List.mem_singleton.2 rfl⟩⟩
  | setReq | setRes | condWait | clearReq _ | clearRes _ =>
    simp only [postStep, Res.ok.injEq, Option.some.injEq] at h
    rw [← h]
    exact ⟨[], by simp [Sys.goto], .inl ⟨_, goto_self _ _ _, by simp [rank]⟩⟩

/-- The steps of the thread `t` itself, with the end of its wait. -/
def own (t : Nat) : Label → Bool
  | .step u | .sendFail u | .timeout u | .spurious u => u == t
  | _ => false

theorem goto_other {s : Sys} {t u : Nat} (h : t ≠ u) (x : Thread) : (s.goto u x).thr t = s.thr t := by simp [Sys.goto, h]

/-- A step of another thread does not change the post of `t`; a step of its own brings it nearer to its end. -/
theorem step_nearer {e : Endian} {s s' : Sys} {l : Label} {t : Nat} {j : Job} {pc : PostPc} (ht : s.thr t = .post j pc)
    (hs : Post.step e s l = .ok (some s')) :
    (own t l = true → Nearer s s' t j pc) ∧ (own t l = false → s'.thr t = .post j pc ∧ ∃ add, s'.log = s.log ++ add) := by
  have other : ∀ {u : Nat} {x : Thread} {s1 : Sys}, s.thr u = .idle → s1.thr = s.thr → (s1.goto u x).thr t = .post j pc := by
    intro u x s1 hu h1
    have hne : t ≠ u := by
      intro e
      rw [e] at ht
      rw [hu] at ht
      cases ht
    rw [goto_other hne, h1, ht]
  cases l with
  | callPost u k =>
    simp only [Post.step] at hs
    split at hs
    · rename_i hu
      simp only [Res.ok.injEq, Option.some.injEq] at hs
      rw [← hs]
      exact ⟨(by intro h; cases h), fun _ => ⟨other hu rfl, [], by simp [Sys.goto]⟩⟩
    · simp at hs
  | callSend u =>
    simp only [Post.step] at hs
    split at hs
    · rename_i hu
      simp only [Res.ok.injEq, Option.some.injEq] at hs
      rw [← hs]
      exact ⟨(by intro h; cases h), fun _ => ⟨other hu rfl, [], by simp [Sys.goto]⟩⟩
    · simp at hs
  | arrive u m =>
    simp only [Post.step] at hs
    split at hs
    · rename_i hu
      simp only [Res.ok.injEq, Option.some.injEq] at hs
      rw [← hs]
      exact ⟨(by intro h; cases h), fun _ => ⟨other hu rfl, [.arrived m], rfl⟩⟩
    · simp at hs
  | deliver m =>
    simp only [Post.step, Res.bind_eq_ok, Res.pure_eq, Res.ok.injEq, Option.some.injEq] at hs
    obtain ⟨s1, h1, rfl⟩ := hs
    exact ⟨(by intro h; cases h), fun _ => ⟨by rw [(deliver_keeps h1).1, ht], _, deliver_log h1⟩⟩
  | store p m =>
    simp only [Post.step, Res.ok.injEq, Option.some.injEq] at hs
    rw [← hs]
    exact ⟨(by intro h; cases h), fun _ => ⟨ht, [], by simp⟩⟩
  | free p =>
    simp only [Post.step, Res.ok.injEq, Option.some.injEq] at hs
    rw [← hs]
    exact ⟨(by intro h; cases h), fun _ => ⟨ht, [], by simp⟩⟩
  | sendFail u =>
    simp only [Post.step] at hs
    split at hs
    · rename_i k hu
      split at hs
      · cases hs
      · simp only [Res.ok.injEq, Option.some.injEq] at hs
        rw [← hs]
        refine ⟨fun h => ?_, fun h => ⟨?_, _, rfl⟩⟩
        · have e : u = t := by simpa [own] using h
          subst e
          rw [ht] at hu
          cases hu
          exact ⟨_, rfl, .inl ⟨_, goto_self _ _ _, by simp [rank]⟩⟩
        · have e : t ≠ u := by intro e; simp [own, e] at h
          rw [goto_other e]; exact ht
    · simp at hs
  | timeout u =>
    simp only [Post.step] at hs
    split at hs
    · rename_i k hu
      split at hs
      · simp only [Res.ok.injEq, Option.some.injEq] at hs
        rw [← hs]
        refine ⟨fun h => ?_, fun h => ⟨?_, [], by simp [Sys.goto]⟩⟩
        · have e : u = t := by simpa [own] using h
          subst e
          rw [ht] at hu
          cases hu
          exact ⟨[], by simp [Sys.goto], .inl ⟨_, goto_self _ _ _, by simp [rank]⟩⟩
        · have e : t ≠ u := by intro e; simp [own, e] at h
          rw [goto_other e]; exact ht
      · simp at hs
    · simp at hs
  | spurious u =>
    simp only [Post.step] at hs
    split at hs
    · rename_i k hu
      split at hs
      · simp only [Res.ok.injEq, Option.some.injEq] at hs
        rw [← hs]
        refine ⟨fun h => ?_, fun h => ⟨?_, [], by simp [Sys.goto]⟩⟩
        · have e : u = t := by simpa [own] using h
          subst e
          rw [ht] at hu
          cases hu
          exact ⟨[], by simp [Sys.goto], .inl ⟨_, goto_self _ _ _, by simp [rank]⟩⟩
        · have e : t ≠ u := by intro e; simp [own, e] at h
          rw [goto_other e]; exact ht
      · simp at hs
    · simp at hs
  | step u =>
    by_cases e : u = t
    · subst e
      refine ⟨fun _ => ?_, fun h => by simp [own] at h⟩
      simp only [Post.step, threadStep, ht] at hs
      exact postStep_nearer hs
    · refine ⟨fun h => by simp [own, e] at h, fun _ => ?_⟩
      have ne : t ≠ u := fun h => e h.symm
      simp only [Post.step, threadStep] at hs
      split at hs
      · simp at hs
      · rename_i k q hu
        obtain ⟨x, h1, _⟩ := (postStep_keeps hu hs).1
        obtain ⟨add, h2, _⟩ := postStep_nearer hs
        exact ⟨by rw [h1, goto_other ne, ht], add, h2⟩
      · simp only [Res.ok.injEq, Option.some.injEq] at hs
        rw [← hs]
        exact ⟨by rw [goto_other ne]; exact ht, [], by simp [Sys.goto]⟩
      · simp only [Res.ok.injEq, Option.some.injEq] at hs
        rw [← hs]
        exact ⟨by rw [goto_other ne]; exact ht, _, rfl⟩
      · simp only [Res.bind_eq_ok, Res.pure_eq, Res.ok.injEq, Option.some.injEq] at hs
        obtain ⟨⟨s1, pc1⟩, h1, rfl⟩ := hs
        refine ⟨?_, [], ?_⟩
        · rw [goto_other ne, (recvStep_keeps h1).1, ht]
        · simp only [Sys.goto, recvStep_log h1, List.append_nil]

theorem step_grows {e : Endian} {s s' : Sys} {l : Label} (hs : Post.step e s l = .ok (some s')) : ∃ add, s'.log = s.log ++ add := by
  cases l with
  | callPost u k | callSend u | arrive u m =>
    simp only [Post.step] at hs
    split at hs
    · simp only [Res.ok.injEq, Option.some.injEq] at hs
      rw [← hs]
      first | exact ⟨_, rfl⟩ | exact ⟨[], by simp [Sys.goto]⟩
    · simp at hs
  | deliver m =>
    simp only [Post.step, Res.bind_eq_ok, Res.pure_eq, Res.ok.injEq, Option.some.injEq] at hs
    obtain ⟨s1, h1, rfl⟩ := hs
    exact ⟨_, deliver_log h1⟩
  | store p m | free p =>
    simp only [Post.step, Res.ok.injEq, Option.some.injEq] at hs
    rw [← hs]
    exact ⟨[], by simp⟩
  | sendFail u =>
    simp only [Post.step] at hs
    split at hs
    · split at hs
      · cases hs
      · simp only [Res.ok.injEq, Option.some.injEq] at hs
        rw [← hs]
        exact ⟨_, rfl⟩
    · simp at hs
  | timeout u | spurious u =>
    simp only [Post.step] at hs
    split at hs
    · split at hs
      · simp only [Res.ok.injEq, Option.some.injEq] at hs
        rw [← hs]
        exact ⟨[], by simp [Sys.goto]⟩
      · simp at hs
    · simp at hs
  | step u =>
    simp only [Post.step, threadStep] at hs
    split at hs
    · simp at hs
    · obtain ⟨add, h, _⟩ := postStep_nearer hs
      exact ⟨add, h⟩
    · simp only [Res.ok.injEq, Option.some.injEq] at hs
      rw [← hs]
      exact ⟨[], by simp [Sys.goto]⟩
    · simp only [Res.ok.injEq, Option.some.injEq] at hs
      rw [← hs]
      exact ⟨_, rfl⟩
    · simp only [Res.bind_eq_ok, Res.pure_eq, Res.ok.injEq, Option.some.injEq] at hs
      obtain ⟨⟨s1, pc1⟩, h1, rfl⟩ := hs
      exact ⟨[], by simp only [Sys.goto, recvStep_log h1, List.append_nil]⟩

theorem run_nearer {e : Endian} {s s' : Sys} {ls : List Label} (h : Run e s ls s') {t : Nat} {j : Job} {pc : PostPc} (ht : s.thr t = .post j pc) :
    ∃ add, s'.log = s.log ++ add ∧ ((∃ pc', s'.thr t = .post j pc' ∧ rank pc' + (ls.filter (own t)).length ≤ rank pc) ∨ ∃ ok q r, Ev.returned t j ok q r ∈ add) := by
  induction h with
  | nil => exact ⟨[], by simp, .inl ⟨pc, ht, by simp⟩⟩
  | @snoc s1 s2 ls l hr hu hst ih =>
    obtain ⟨add, h1, h2⟩ := ih
    obtain ⟨more, h3⟩ := step_grows hst
    refine ⟨add ++ more, by rw [h3, h1, List.append_assoc], ?_⟩
    rcases h2 with ⟨pc', h4, h5⟩ | ⟨ok, q, r, h4⟩
    · obtain ⟨k1, k2⟩ := step_nearer h4 hst
      rw [List.filter_append, List.length_append]
      cases ho : own t l with
      | true =>
        obtain ⟨more', h6, h7⟩ := k1 ho
        have : more' = more := List.append_cancel_left (h6.symm.trans h3)
        subst this
        rcases h7 with ⟨pc2, h7, h8⟩ | ⟨ok, q, r, h7⟩
        · exact .inl ⟨pc2, h7, by simp only [List.filter_cons, ho, if_true, List.filter_nil, List.length_cons, List.length_nil]; omega⟩
        · exact .inr ⟨ok, q, r, List.mem_append_right _ h7⟩
      | false => exact .inl ⟨pc', (k2 ho).1, by simp only [List.filter_cons, ho, Bool.false_eq_true, if_false, List.filter_nil, List.length_nil]; omega⟩
    · exact .inr ⟨ok, q, r, List.mem_append_left _ h4⟩

end Uecho.Lemmas
