import Verif.Spec.Signals
/-! # Lemmas about `Model/Signals.lean` -/
namespace Uecho.Lemmas
open Uecho Uecho.Spec Uecho.Signals

theorem modify_all {α : Type} {P : α → Prop} {f : α → α} : ∀ {l : List α} {i : Nat}, (∀ t ∈ l, P t) → (∀ t, l[i]? = some t → P (f t)) →
    ∀ t ∈ l.modify i f, P t := by
  intro l
  induction l with
  | nil => intro i _ _ t ht; simp at ht
  | cons a l ih =>
    intro i h hf t ht
    cases i with
    | zero =>
      simp only [List.modify_zero_cons, List.mem_cons] at ht
      rcases ht with rfl | ht
      · exact hf a (by simp)
      · exact h t (by simp [ht])
    | succ i =>
      simp only [List.modify_succ_cons, List.mem_cons] at ht
      rcases ht with rfl | ht
      · exact h _ (by simp)
      · exact ih (fun t ht => h t (by simp [ht])) (fun t ht => hf t (by simpa using ht)) t ht

/-- A receiver that has set its mask blocks every signal but SIGQUIT, SIGKILL and SIGSTOP. -/
def Blocking (t : Th) : Prop :=
  t.receiver = true → t.phase ≠ .created → t.phase ≠ .ended → ∀ n, n ≠ quit → n ≠ kill → n ≠ halt → t.blocks n = true

theorem step_blocking {op : SigOp} {s : St} (h : ∀ t ∈ s.th, Blocking t) : ∀ t ∈ (sigStep op s).th, Blocking t := by
  cases op with
  | action n a =>
    simp only [sigStep, sigaction]
    split <;> (try split) <;> exact h
  | thread b =>
    intro t ht
    simp only [sigStep, List.mem_append, List.mem_singleton] at ht
    rcases ht with ht | rfl
    · exact h t ht
    · intro hr; simp [setMask] at hr
  | exit i =>
    refine modify_all h fun t ht => ?_
    have := h t (List.mem_of_getElem? ht)
    by_cases hr : t.receiver = true
    · simp only [hr, if_true]; exact this
    · rw [if_neg hr]; intro h'; exact absurd h' hr
  | mask i b =>
    refine modify_all h fun t ht => ?_
    have := h t (List.mem_of_getElem? ht)
    by_cases hr : t.receiver = true
    · simp only [hr, if_true]; exact this
    · rw [if_neg hr]; intro h'; exact absurd h' hr
  | start i =>
    simp only [sigStep, Signals.start]
    split
    · split
      · exact h
      · intro t ht
        simp only [List.mem_append, List.mem_singleton] at ht
        rcases ht with ht | rfl
        · exact h t ht
        · intro _ hc; exact absurd rfl hc
    · exact h
  | step i =>
    simp only [sigStep, Signals.step]
    split
    · exact h
    next t0 ht0 =>
      have h0 := h t0 (List.mem_of_getElem? ht0)
      split
      next hr =>
        split
        next hp =>
          refine modify_all h fun t ht => ?_
          intro _ _ _ n h1 h2 h3
          simp [setMask, h1, h2, h3]
        next hp =>
          refine modify_all (by simp only [sigaction]; split <;> exact h) fun t ht => ?_
          have : t = t0 := by
            have : s.th[i]? = some t := by simpa only [sigaction, apply_ite St.th, ite_self] using ht
            rw [ht0] at this; exact (Option.some.inj this).symm
          subst this
          exact fun hr _ _ => h0 hr (by rw [hp]; simp) (by rw [hp]; simp)
        next hp =>
          refine modify_all h fun t ht => ?_
          rw [ht0] at ht; cases ht
          exact fun hr _ _ => h0 hr (by rw [hp]; simp) (by rw [hp]; simp)
        next hp =>
          refine modify_all h fun t ht => ?_
          rw [ht0] at ht; cases ht
          exact fun hr _ _ => h0 hr (by rw [hp]; simp) (by rw [hp]; simp)
        · exact h
      · exact h
  | stop i =>
    refine modify_all h fun t ht => ?_
    have := h t (List.mem_of_getElem? ht)
    by_cases hr : t.receiver = true
    · rw [if_pos hr]; exact fun _ _ he => absurd rfl he
    · rw [if_neg hr]; exact this
  | signal sig i =>
    simp only [sigStep, deliver]
    split
    next s' hs =>
      split at hs
      · cases hs
      · split at hs
        · cases hs
        · split at hs
          · cases hs
            exact modify_all h fun t _ _ _ he => absurd rfl he
          · cases hs; exact h
    · exact h

theorem run_blocking : ∀ (ops : List SigOp) {s : St}, (∀ t ∈ s.th, Blocking t) → ∀ t ∈ (sigRun ops s).th, Blocking t := by
  intro ops
  induction ops with
  | nil => intro s h; exact h
  | cons op ops ih => intro s h; exact ih (step_blocking h)

theorem init_blocking (disp : Nat → Act) (b : Nat → Bool) : ∀ t ∈ (sigInit disp b).th, Blocking t := by
  intro t ht hr
  simp only [sigInit, List.mem_singleton] at ht
  subst ht
  simp [setMask] at hr

/-- SIGKILL and SIGSTOP do what they do by default. -/
def KillKept (s : St) : Prop := s.disp kill = .dfl ∧ s.disp halt = .dfl

theorem sigaction_kept {sig : Nat} {a : Act} {s : St} (h : KillKept s) : KillKept (sigaction sig a s) := by
  unfold sigaction
  split
  · exact h
  next hn =>
    have h1 : kill ≠ sig := fun e => hn (.inl e.symm)
    have h2 : halt ≠ sig := fun e => hn (.inr e.symm)
    exact ⟨by simp [h1, h.1], by simp [h2, h.2]⟩

theorem sigaction_disp {sig n : Nat} {a : Act} {s : St} (h : n ≠ sig) : (sigaction sig a s).disp n = s.disp n := by
  unfold sigaction
  split
  · rfl
  · simp [h]

theorem deliver_disp {sig i : Nat} {s s' : St} {a : Act} (h : deliver sig i s = some (a, s')) : s'.disp = s.disp := by
  unfold deliver at h
  split at h
  · cases h
  · split at h
    · cases h
    · split at h <;> cases h <;> rfl

/-- Only `sigaction` changes what signals do. -/
theorem step_disp {op : SigOp} {s : St} {n : Nat} (hq : n ≠ quit) (hk : n ≠ kill) (hh : n ≠ halt) :
    (sigStep op s).disp n = lastAction n [op] (s.disp n) := by
  cases op with
  | action m a =>
    simp only [sigStep, lastAction]
    by_cases ha : a = .lib
    · simp [ha]
    · rw [if_neg ha]
      by_cases hm : m = n
      · subst hm
        simp [sigaction, hk, hh, ha]
      · rw [sigaction_disp (fun e => hm e.symm)]
        simp [hm]
  | thread b => rfl
  | exit i => rfl
  | mask i b => rfl
  | start i =>
    simp only [sigStep, Signals.start, lastAction]
    split
    · split <;> rfl
    · rfl
  | step i =>
    simp only [sigStep, Signals.step, lastAction]
    split
    · rfl
    · split
      · split
        · rfl
        · exact sigaction_disp hq
        · rfl
        · rfl
        · rfl
      · rfl
  | stop i => rfl
  | signal sig i =>
    simp only [sigStep, lastAction]
    split
    next h => rw [deliver_disp h]
    · rfl

theorem lastAction_cons {n : Nat} {op : SigOp} {ops : List SigOp} {d : Act} : lastAction n (op :: ops) d = lastAction n ops (lastAction n [op] d) := by
  cases op <;> rfl

theorem run_disp {n : Nat} (hq : n ≠ quit) (hk : n ≠ kill) (hh : n ≠ halt) : ∀ (ops : List SigOp) (s : St),
    (sigRun ops s).disp n = lastAction n ops (s.disp n) := by
  intro ops
  induction ops with
  | nil => intro s; rfl
  | cons op ops ih => intro s; rw [lastAction_cons, ← step_disp hq hk hh]; exact ih _

theorem step_kept {op : SigOp} {s : St} (h : KillKept s) : KillKept (sigStep op s) := by
  cases op with
  | action m a =>
    simp only [sigStep]
    split
    · exact h
    · exact sigaction_kept h
  | thread b => exact h
  | exit i => exact h
  | mask i b => exact h
  | start i =>
    simp only [sigStep, Signals.start]
    split
    · split <;> exact h
    · exact h
  | step i =>
    simp only [sigStep, Signals.step]
    split
    · exact h
    · split
      · split
        · exact h
        · have x : KillKept (sigaction quit .lib s) := sigaction_kept h
          exact ⟨x.1, x.2⟩
        · exact h
        · exact h
        · exact h
      · exact h
  | stop i => exact h
  | signal sig i =>
    simp only [sigStep]
    split
    next hs => simp only [KillKept, deliver_disp hs]; exact h
    · exact h

theorem run_kept : ∀ (ops : List SigOp) {s : St}, KillKept s → KillKept (sigRun ops s) := by
  intro ops
  induction ops with
  | nil => intro s h; exact h
  | cons op ops ih => intro s h; exact ih (step_kept h)

/-- SIGQUIT stays with the library. -/
theorem step_quit {op : SigOp} {s : St} (h : s.disp quit = .lib) (ho : ∀ a, op ≠ .action quit a) : (sigStep op s).disp quit = .lib := by
  cases op with
  | action m a =>
    simp only [sigStep]
    split
    · exact h
    · rw [sigaction_disp (fun e => ho a (by rw [e]))]; exact h
  | thread b => exact h
  | exit i => exact h
  | mask i b => exact h
  | start i =>
    simp only [sigStep, Signals.start]
    split
    · split <;> exact h
    · exact h
  | step i =>
    simp only [sigStep, Signals.step]
    split
    · exact h
    · split
      · split
        · exact h
        · simp [update, sigaction, quit, kill, halt]
        · exact h
        · exact h
        · exact h
      · exact h
  | stop i => exact h
  | signal sig i =>
    simp only [sigStep]
    split
    next hs => simp only [deliver_disp hs]; exact h
    · exact h

theorem run_quit : ∀ (ops : List SigOp) {s : St}, s.disp quit = .lib → (∀ a, SigOp.action quit a ∉ ops) → (sigRun ops s).disp quit = .lib := by
  intro ops
  induction ops with
  | nil => intro s h _; exact h
  | cons op ops ih =>
    intro s h ho
    exact ih (step_quit h fun a e => ho a (by simp [e])) fun a ha => ho a (by simp [ha])

/-- A receiver that waits or will wait. -/
def Lives (t : Th) : Prop := t.receiver = true → t.phase ≠ .ended

theorem step_lives {op : SigOp} {s : St} (hb : ∀ t ∈ s.th, Blocking t) (hk : KillKept s) (h : ∀ t ∈ s.th, Lives t)
    (ho : ∀ i, op ≠ .stop i) (hq : ∀ i, op ≠ .signal quit i) : ∀ t ∈ (sigStep op s).th, Lives t := by
  cases op with
  | action n a =>
    simp only [sigStep, sigaction]
    split <;> (try split) <;> exact h
  | thread b =>
    intro t ht
    simp only [sigStep, List.mem_append, List.mem_singleton] at ht
    rcases ht with ht | rfl
    · exact h t ht
    · intro hr; simp [setMask] at hr
  | exit i =>
    refine modify_all h fun t ht => ?_
    have := h t (List.mem_of_getElem? ht)
    by_cases hr : t.receiver = true
    · simp only [hr, if_true]; exact this
    · rw [if_neg hr]; intro h'; exact absurd h' hr
  | mask i b =>
    refine modify_all h fun t ht => ?_
    have := h t (List.mem_of_getElem? ht)
    by_cases hr : t.receiver = true
    · simp only [hr, if_true]; exact this
    · rw [if_neg hr]; intro h'; exact absurd h' hr
  | start i =>
    simp only [sigStep, Signals.start]
    split
    · split
      · exact h
      · intro t ht
        simp only [List.mem_append, List.mem_singleton] at ht
        rcases ht with ht | rfl
        · exact h t ht
        · intro _; simp
    · exact h
  | step i =>
    simp only [sigStep, Signals.step]
    split
    · exact h
    next t0 ht0 =>
      split
      · split
        · exact modify_all h fun t _ _ => by simp
        · exact modify_all (by simp only [sigaction]; split <;> exact h) fun t _ _ => by simp
        · exact modify_all h fun t _ _ => by simp
        · exact modify_all h fun t _ _ => by simp
        · exact h
      · exact h
  | stop i => exact absurd rfl (ho i)
  | signal sig i =>
    simp only [sigStep]
    split
    next a s' hs =>
      unfold deliver at hs
      split at hs
      · cases hs
      next t ht =>
        have hbt := hb t (List.mem_of_getElem? ht)
        split at hs
        · cases hs
        next hn =>
          split at hs
          next hi =>
            exfalso
            have h1 : t.phase ≠ .ended := fun e => hn (.inl e)
            have h2 : t.blocks sig ≠ true := fun e => hn (.inr e)
            have h3 : sig ≠ quit := fun e => hq i (by rw [e])
            by_cases h4 : sig = kill
            · rw [h4, hk.1] at hi; simp [interrupts] at hi
            by_cases h5 : sig = halt
            · rw [h5, hk.2] at hi; simp [interrupts] at hi
            exact h2 (hbt hi.1 (by rw [hi.2.1]; simp) h1 sig h3 h4 h5)
          · cases hs; exact h
    · exact h

theorem run_lives : ∀ (ops : List SigOp) {s : St}, (∀ t ∈ s.th, Blocking t) → KillKept s → (∀ t ∈ s.th, Lives t) →
    (∀ i, SigOp.stop i ∉ ops) → (∀ i, SigOp.signal quit i ∉ ops) → ∀ t ∈ (sigRun ops s).th, Lives t := by
  intro ops
  induction ops with
  | nil => intro s _ _ h _ _; exact h
  | cons op ops ih =>
    intro s hb hk h ho hq
    refine ih (step_blocking hb) (step_kept hk) (step_lives hb hk h (fun i e => ho i (by simp [e])) fun i e => hq i (by simp [e]))
      (fun i hi => ho i (by simp [hi])) fun i hi => hq i (by simp [hi])

/-- Thread `i` is a receiver that has ended. -/
def EndedAt (i : Nat) (s : St) : Prop := ∃ t, s.th[i]? = some t ∧ t.receiver = true ∧ t.phase = .ended

theorem update_ended {i j : Nat} {f : Th → Th} {s : St} (h : EndedAt i s)
    (hf : ∀ t, s.th[j]? = some t → t.receiver = true → t.phase = .ended → (f t).receiver = true ∧ (f t).phase = .ended) :
    EndedAt i (update j f s) := by
  obtain ⟨t, h1, h2, h3⟩ := h
  by_cases e : j = i
  · subst e
    exact ⟨f t, by simp [update, h1], hf t h1 h2 h3⟩
  · exact ⟨t, by simp [update, e, h1], h2, h3⟩

theorem append_ended {i : Nat} {s : St} {l : List Th} (h : EndedAt i s) : EndedAt i { s with th := s.th ++ l } := by
  obtain ⟨t, h1, h2⟩ := h
  refine ⟨t, ?_, h2⟩
  have : i < s.th.length := by
    rcases Nat.lt_or_ge i s.th.length with h | h
    · exact h
    · rw [List.getElem?_eq_none h] at h1; cases h1
  simp only [List.getElem?_append_left this, h1]

theorem step_ended {i : Nat} {op : SigOp} {s : St} (h : EndedAt i s) : EndedAt i (sigStep op s) := by
  cases op with
  | action n a =>
    simp only [sigStep, sigaction]
    split <;> (try split) <;> exact h
  | thread b => exact append_ended h
  | exit j => exact update_ended h fun t _ h2 h3 => by simp [h2, h3]
  | mask j b => exact update_ended h fun t _ h2 h3 => by simp [h2, h3]
  | start j =>
    simp only [sigStep, Signals.start]
    split
    · split
      · exact h
      · exact append_ended h
    · exact h
  | step j =>
    simp only [sigStep, Signals.step]
    split
    · exact h
    next t0 ht0 =>
      have no : ∀ {p : Phase} {t : Th}, t0.phase = p → p ≠ .ended → s.th[j]? = some t → t.phase = .ended → False := by
        intro p t h1 h2 h3 h4
        rw [ht0] at h3; cases h3
        exact h2 (h1.symm.trans h4)
      split
      · split
        next hp => exact update_ended h fun t ht _ he => (no hp (by simp) ht he).elim
        next hp =>
          have h' : EndedAt i (sigaction quit .lib s) := by simp only [sigaction]; split <;> exact h
          refine update_ended h' fun t ht _ he => (no hp (by simp) ?_ he).elim
          simpa only [sigaction, apply_ite St.th, ite_self] using ht
        next hp => exact update_ended h fun t ht _ he => (no hp (by simp) ht he).elim
        next hp => exact update_ended h fun t ht _ he => (no hp (by simp) ht he).elim
        · exact h
      · exact h
  | stop j => exact update_ended h fun t _ h2 h3 => by simp [h2]
  | signal sig j =>
    simp only [sigStep]
    split
    next hs =>
      unfold deliver at hs
      split at hs
      · cases hs
      · split at hs
        · cases hs
        · split at hs <;> cases hs
          · exact update_ended h fun t _ h2 h3 => ⟨h2, rfl⟩
          · exact h
    · exact h

theorem run_ended : ∀ (ops : List SigOp) {i : Nat} {s : St}, EndedAt i s → EndedAt i (sigRun ops s) := by
  intro ops
  induction ops with
  | nil => intro i s h; exact h
  | cons op ops ih => intro i s h; exact ih (step_ended h)

theorem sigRun_append : ∀ (a b : List SigOp) (s : St), sigRun (a ++ b) s = sigRun b (sigRun a s) := by
  intro a
  induction a with
  | nil => intro b s; rfl
  | cons x a ih => intro b s; exact ih b _

end Uecho.Lemmas
