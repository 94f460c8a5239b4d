import Verif.Lemmas.Esp32Cond
/-! # C154: waiting for a condition on ESP32 -/
namespace Uecho.Props
open Uecho Uecho.Spec Uecho.Lemmas Uecho.Esp32Cond

/-- **C154.** Nothing that any number of tasks do with a mutex and a condition variable is undefined; no two of them are inside the mutex; and a task that comes
back from a wait is inside. -/
theorem C154_mutex {ls : List Label} {s : Esp32Cond.Sys} (h : CondRun ls s) :
    (∀ l, Esp32Cond.step s l ≠ .ub) ∧ (∀ t u, s.pc t = .inside → s.pc u = .inside → t = u) ∧
    ∀ t s', Esp32Cond.step s (.back t) = .ok (some s') → s'.pc t = .inside ∧ ∀ u, s'.pc u = .inside → u = t := by
  have k := condInv_run h
  refine ⟨fun l hl => ?_, fun t u ht hu => ?_, fun t s' hs => ?_⟩
  · cases l with
    | lock t => simp only [Esp32Cond.step] at hl; split at hl <;> cases hl
    | unlock t =>
      simp only [Esp32Cond.step] at hl
      split at hl
      next hp => rw [if_pos ((k.own t).1 hp)] at hl; cases hl
      next => cases hl
    | wait t ms =>
      simp only [Esp32Cond.step] at hl
      split at hl
      next hp => rw [if_pos ((k.own t).1 hp)] at hl; cases hl
      next => cases hl
    | take t =>
      simp only [Esp32Cond.step] at hl
      split at hl
      · split at hl <;> cases hl
      · cases hl
    | timeout t => simp only [Esp32Cond.step] at hl; split at hl <;> cases hl
    | back t => simp only [Esp32Cond.step] at hl; split at hl <;> cases hl
    | signal =>
      simp only [Esp32Cond.step] at hl
      split at hl
      · cases hl
      · split at hl <;> cases hl
  · have a := (k.own t).1 ht
    have b := (k.own u).1 hu
    rw [a] at b
    exact Option.some.inj b
  · have k' := condInv_step k hs
    have hi : s'.pc t = .inside := by
      simp only [Esp32Cond.step] at hs
      split at hs
      · simp only [Res.ok.injEq, Option.some.injEq] at hs
        subst hs
        simp [Sys.emit, Sys.goto]
      · cases hs
    refine ⟨hi, fun u hu => ?_⟩
    have a := (k'.own t).1 hi
    have b := (k'.own u).1 hu
    rw [a] at b
    exact (Option.some.inj b).symm

/-- **C154.** A wait returns true just when it was woken before its time had passed, and false just when the time passed before it was woken; it is woken at most by one
signal. -/
theorem C154_result {ls : List Label} {s : Esp32Cond.Sys} (h : CondRun ls s) {before after : List Ev} {t : Nat} {b : Bool}
    (e : s.log = before ++ .returns t b :: after) : ∃ a c, WaitsSince before t a c ∧
    (b = true ↔ Ev.woken t ∈ c) ∧ (b = false ↔ Ev.timesOut t ∈ c) := by
  obtain ⟨a, c, h1, h2⟩ := (condInv_run h).ret before t b after e
  refine ⟨a, c, h1, ?_⟩
  cases b <;> simp at h2 <;> simp [h2]

/-- **C154.** Signals are neither lost nor doubled: those that succeeded are as many as the waits that were woken, but for at most one that is kept for the next wait;
one that finds tasks blocked wakes the first of them in the queue of the semaphore, and only if no task is blocked one is kept. -/
theorem C154_signals {ls : List Label} {s : Esp32Cond.Sys} (h : CondRun ls s) :
    wakes s.log ≤ signals s.log ∧ signals s.log ≤ wakes s.log + 1 ∧ ∃ s', Esp32Cond.step s .signal = .ok (some s') ∧
      (∀ t q, s.queue = t :: q → signals s.log = wakes s.log ∧ s'.log = s.log ++ [.signal true, .woken t] ∧ s'.pc t = .relock true) ∧
      (s.queue = [] → s'.log = s.log ++ [.signal (signals s.log = wakes s.log)] ∧ s'.given = true ∧ s'.pc = s.pc) ∧
      ∀ t f, s.pc t = .blocked f → t ∈ s.queue := by
  have k := condInv_run h
  have p := k.pre s.log [] (by simp)
  refine ⟨p.1, p.2, ?_⟩
  cases hq : s.queue with
  | nil =>
    have kb : ∀ t f, s.pc t = .blocked f → t ∈ ([] : List Nat) := fun t f hf => by rw [← hq]; exact (k.que t).2 ⟨f, hf⟩
    by_cases hg : s.given = true
    · have c := k.cnt
      rw [if_pos hg] at c
      refine ⟨s.emit (.signal false), by simp [Esp32Cond.step, hq, hg], by simp, fun _ => ⟨?_, hg, rfl⟩, kb⟩
      have : signals s.log ≠ wakes s.log := by omega
      simp [Sys.emit, this]
    · have c := k.cnt
      rw [if_neg hg] at c
      refine ⟨{ s with given := true }.emit (.signal true), by simp [Esp32Cond.step, hq, hg], by simp, fun _ => ⟨?_, rfl, rfl⟩, kb⟩
      have : signals s.log = wakes s.log := by omega
      simp [Sys.emit, this]
  | cons t q =>
    have hg := k.none (by simp [hq])
    have c := k.cnt
    rw [hg] at c
    refine ⟨_, by simp only [Esp32Cond.step, hq]; rfl, fun u r e => ?_, by simp, fun u f hf => by rw [← hq]; exact (k.que u).2 ⟨f, hf⟩⟩
    simp only [List.cons.injEq] at e
    obtain ⟨rfl, rfl⟩ := e
    exact ⟨by simpa using c, by simp [Sys.emit, Sys.goto], by simp [Sys.emit, Sys.goto]⟩

theorem wakes_append (a b : List Ev) : wakes (a ++ b) = wakes a + wakes b := by simp [wakes, List.countP_append]
theorem signals_append (a b : List Ev) : signals (a ++ b) = signals a + signals b := by simp [signals, List.count_append]

/-- **C154, partial** (no signal was kept when the wait began). A wait that returns true was signalled while it waited. -/
theorem C154_signalled_partial {ls : List Label} {s : Esp32Cond.Sys} (h : CondRun ls s) {a c after : List Ev} {t : Nat}
    (e : s.log = a ++ .waits t :: c ++ .returns t true :: after) (hk : signals a = wakes a) : Ev.signal true ∈ c := by
  have k := condInv_run h
  obtain ⟨a', c', ⟨h1, h2, h3⟩, h4, _⟩ := C154_result h e
  have hw : Ev.woken t ∈ c' := h4.1 rfl
  have hsub : Ev.woken t ∈ c := by
    -- both `a ++ waits :: c` and `a' ++ waits :: c'` end with the part after the last wait of `t`
    have : ∃ m, c = m ++ c' := by
      have h5 : a ++ .waits t :: c = a' ++ .waits t :: c' := h1
      rcases List.append_eq_append_iff.1 h5 with ⟨m, m1, m2⟩ | ⟨m, m1, m2⟩
      · cases m with
        | nil => exact ⟨[], by simpa using m2⟩
        | cons x m =>
          simp only [List.cons_append, List.cons.injEq] at m2
          exact ⟨m ++ [.waits t], by simp [m2.2]⟩
      · cases m with
        | nil => exact ⟨[], by simpa using m2.symm⟩
        | cons x m =>
          simp only [List.cons_append, List.cons.injEq] at m2
          exact absurd (by rw [m2.2]; simp) h3
    obtain ⟨m, rfl⟩ := this
    exact List.mem_append_right _ hw
  obtain ⟨m1, m2, rfl⟩ := List.append_of_mem hsub
  have p := k.pre (a ++ .waits t :: m1 ++ [.woken t]) (m2 ++ .returns t true :: after) (by rw [e]; simp)
  have : 0 < signals m1 := by
    have q1 := p.1
    rw [wakes_append, signals_append, signals_append, wakes_append] at q1
    have e1 : wakes ([.woken t] : List Ev) = 1 := rfl
    have e2 : signals ([.woken t] : List Ev) = 0 := by simp [signals]
    have e3 : signals (Ev.waits t :: m1) = signals m1 := by simp [signals]
    rw [e1, e2, e3] at q1
    omega
  exact List.mem_append_left _ (List.count_pos_iff.1 this)

/-- The run of a list of choices. -/
def condRuns : List Label → Esp32Cond.Sys → Option Esp32Cond.Sys
  | [], s => some s
  | l :: ls, s => match Esp32Cond.step s l with
    | .ok (some s) => condRuns ls s
    | _ => none

theorem condRun_of {ls ls0 : List Label} {s s' : Esp32Cond.Sys} (h0 : CondRun ls0 s) (h : condRuns ls s = some s') : CondRun (ls0 ++ ls) s' := by
  induction ls generalizing ls0 s with
  | nil => simp only [condRuns, Option.some.injEq] at h; subst h; simpa using h0
  | cons l ls ih =>
    simp only [condRuns] at h
    split at h
    next s1 e =>
      have := ih (h0.snoc l e) h
      simpa using this
    next => cases h

/-- A wait that is woken while it blocks: the hypotheses of the theorems above. -/
example : ∃ s, CondRun [.lock 1, .wait 1 100, .take 1, .signal, .back 1] s ∧ s.log = [.waits 1, .signal true, .woken 1, .returns 1 true] :=
  ⟨_, condRun_of (ls := [.lock 1, .wait 1 100, .take 1, .signal, .back 1]) .nil rfl, rfl⟩

/-- **C154**, violated. The signal for a wait whose time had passed is kept, however long, and makes a later wait return true at once although nothing was
signalled while it waited. -/
theorem C154_stale_violated : ∃ ls s, CondRun ls s ∧
    s.log = [.waits 1, .timesOut 1, .returns 1 false, .signal true, .waits 1, .woken 1, .returns 1 true] :=
  ⟨_, _, condRun_of (ls := [.lock 1, .wait 1 100, .take 1, .timeout 1, .back 1, .signal, .wait 1 100, .take 1, .back 1]) .nil rfl, rfl⟩

/-- **C154**, violated. A wait for zero milliseconds does not end at once: as long as nobody signals it blocks for ever. -/
theorem C154_zero_violated {ls ls' : List Label} {s s' : Esp32Cond.Sys} {t : Nat} (_ : CondRun ls s) (hb : s.pc t = .blocked true)
    (hn : Label.signal ∉ ls') (h' : condRuns ls' s = some s') : s'.pc t = .blocked true := by
  induction ls' generalizing s ls with
  | nil => simp only [condRuns, Option.some.injEq] at h'; subst h'; exact hb
  | cons l ls' ih =>
    simp only [condRuns] at h'
    split at h'
    next s1 e =>
      refine ih (.snoc l ‹CondRun ls s› e) ?_ (fun hm => hn (List.mem_cons_of_mem _ hm)) h'
      cases l with
      | signal => exact absurd (by simp) hn
      | _ u =>
        simp only [Esp32Cond.step] at e
        repeat' split at e
        all_goals first
          | cases e; done
          | (simp only [Res.ok.injEq, Option.some.injEq] at e
             subst e
             simp only [Sys.emit, Sys.goto]
             by_cases hu : t = u
             · subst hu; simp_all
             · simp only [if_neg hu]; exact hb)
    next => cases h'

example : ∃ s, CondRun [.lock 1, .wait 1 0, .take 1] s ∧ s.pc 1 = .blocked true ∧ ∃ s', condRuns [.lock 2, .unlock 2] s = some s' :=
  ⟨_, condRun_of (ls := [.lock 1, .wait 1 0, .take 1]) .nil rfl, rfl, _, rfl⟩

end Uecho.Props
