import Verif.Lemmas.Signals
/-!
# C151: the application's signals
-/
namespace Uecho.Props
open Uecho Uecho.Spec Uecho.Lemmas Uecho.Signals

/-- **C151, partial** (signals other than SIGQUIT). Whatever the library does, a signal does what the application last set it to. Missing:
SIGQUIT, see `C151_quit_violated`; SIGPIPE is C105. -/
theorem C151_set_by_application_partial (disp : Nat → Act) (blocks : Nat → Bool) (ops : List SigOp) (sig : Nat) (hq : sig ≠ quit)
    (hk : sig ≠ kill) (hh : sig ≠ halt) : (sigRun ops (sigInit disp blocks)).disp sig = lastAction sig ops (disp sig) :=
  run_disp hq hk hh ops _

example : (sigRun [.start 0, .step 1, .step 1, .action 2 (.app 5 false), .step 1, .signal 2 0, .signal 3 1] (sigInit (fun _ => .dfl) fun _ => false)).disp 2
    = .app 5 false := by decide +kernel

/-- **C151, partial** (receivers that have begun). A receiver never runs a handler of the application, and no signal but SIGQUIT, SIGKILL and SIGSTOP
is given to it. Missing: before its first step a receiver has the mask of the thread that started it, see `C151_early_violated`. -/
theorem C151_own_threads_partial (disp : Nat → Act) (blocks : Nat → Bool) (ops : List SigOp) (sig i : Nat) (t : Th)
    (ht : (sigRun ops (sigInit disp blocks)).th[i]? = some t) (hr : t.receiver = true) (hp : t.phase ≠ .created) (hq : sig ≠ quit)
    (hk : sig ≠ kill) (hh : sig ≠ halt) : deliver sig i (sigRun ops (sigInit disp blocks)) = none := by
  have hb := run_blocking ops (init_blocking disp blocks) t (List.mem_of_getElem? ht) hr hp
  unfold deliver
  rw [ht]
  simp only
  by_cases he : t.phase = .ended
  · rw [if_pos (.inl he)]
  · rw [if_pos (.inr (hb he sig hq hk hh))]

/-- **C151**, violated. A receiver can run a handler of the application, before its first step. -/
theorem C151_early_violated (h sig : Nat) (r : Bool) (disp : Nat → Act) (hd : disp sig = .app h r) (blocks : Nat → Bool) (hb : blocks sig = false) :
    ∃ s t, sigRun [.start 0] (sigInit disp blocks) = s ∧ s.th[1]? = some t ∧ t.receiver = true ∧
      deliver sig 1 s = some (.app h r, s) := by
  refine ⟨_, _, rfl, rfl, rfl, ?_⟩
  simp [sigRun, sigStep, Signals.start, sigInit, setMask, deliver, hb, hd]

example : ∃ s t, sigRun [.start 0] (sigInit (fun _ => .app 7 true) fun _ => false) = s ∧ s.th[1]? = some t ∧ t.receiver = true ∧
    deliver 2 1 s = some (.app 7 true, s) := C151_early_violated 7 2 true _ rfl _ rfl

/-- **C151 fails for SIGQUIT.** A receiver takes it over when it begins, whatever the application set before (even after the start), and it is
not given back: not when the receiver has ended, not ever, until the application sets it again. -/
theorem C151_quit_violated (disp : Nat → Act) (blocks : Nat → Bool) (ops ops' : List SigOp) (i : Nat) (t : Th)
    (ht : (sigRun ops (sigInit disp blocks)).th[i]? = some t) (hr : t.receiver = true) (hp : t.phase = .masked)
    (ho : ∀ a, SigOp.action quit a ∉ ops') : (sigRun (ops ++ .step i :: ops') (sigInit disp blocks)).disp quit = .lib := by
  rw [sigRun_append]
  refine run_quit ops' ?_ ho
  simp only [sigStep, Signals.step, ht, hr, if_true, hp]
  simp [update, sigaction, quit, kill, halt]

/-- The whole life of a receiver: started, at work, stopped. SIGQUIT would have ended the process before, or called the application's
handler; afterwards nothing happens. -/
theorem C151_quit_ignored_violated (disp : Nat → Act) (blocks : Nat → Bool) (hb : blocks quit = false) :
    ∃ s, sigRun [.start 0, .step 1, .step 1, .step 1, .stop 1] (sigInit disp blocks) = s ∧
      deliver quit 0 (sigInit disp blocks) = some (disp quit, sigInit disp blocks) ∧ deliver quit 0 s = some (.lib, s) ∧
      s.th[1]?.map (·.phase) = some .ended := by
  have hb : blocks 3 = false := hb
  refine ⟨_, rfl, ?_, ?_, ?_⟩
  · simp [sigInit, setMask, deliver, hb, quit, kill, halt]
  · simp [sigRun, sigStep, Signals.start, Signals.step, Signals.stop, sigInit, setMask, deliver, hb, update, sigaction, quit, kill, halt]
  · rfl

/-- **C151, partial** (no SIGQUIT). Signals do not end a receiver: unless it is stopped or SIGQUIT arrives, it is at work. -/
theorem C151_receives_partial (disp : Nat → Act) (hd : PlainSignals disp) (blocks : Nat → Bool) (ops : List SigOp)
    (ho : ∀ i, SigOp.stop i ∉ ops) (hq : ∀ i, SigOp.signal quit i ∉ ops) :
    ∀ t ∈ (sigRun ops (sigInit disp blocks)).th, t.receiver = true → t.phase ≠ .ended := by
  refine run_lives ops (init_blocking disp blocks) ⟨hd.1, hd.2.1⟩ ?_ ho hq
  intro t ht hr
  simp only [sigInit, List.mem_singleton] at ht
  subst ht
  simp [setMask] at hr

example : ((sigRun [.start 0, .step 1, .step 1, .step 1, .signal 2 1, .signal 15 0, .step 1] (sigInit (fun _ => .dfl) fun _ => false)).th.map (·.phase))
    = [.running, .running] := by decide +kernel

/-- **C151 fails: SIGQUIT makes a node deaf.** It interrupts a receiver that waits, which ends and does not begin again, whatever happens later;
nobody stopped the node. So it is with the handler of the library, and with one that the application set since, unless that has SA_RESTART. -/
theorem C151_deaf_violated (disp : Nat → Act) (blocks : Nat → Bool) (ops more : List SigOp) (i : Nat) (t : Th)
    (hs : (sigRun ops (sigInit disp blocks)).disp quit = .lib ∨ ∃ h, (sigRun ops (sigInit disp blocks)).disp quit = .app h false) (ht : (sigRun ops (sigInit disp blocks)).th[i]? = some t)
    (hr : t.receiver = true) (hp : t.phase = .waiting) (hb : t.blocks quit = false) :
    ∃ t', (sigRun (ops ++ .signal quit i :: more) (sigInit disp blocks)).th[i]? = some t' ∧ t'.receiver = true ∧ t'.phase = .ended := by
  rw [sigRun_append]
  refine run_ended more ⟨{ t with phase := .ended }, ?_, hr, rfl⟩
  rcases hs with hs | ⟨h, hs⟩ <;> simp [sigStep, deliver, ht, hr, hp, hb, hs, interrupts, update]

/-- **C151.** A handler of the application for SIGQUIT that has SA_RESTART runs, and the receiver goes on waiting. -/
theorem C151_restarted (disp : Nat → Act) (blocks : Nat → Bool) (ops : List SigOp) (i h : Nat) (t : Th)
    (hs : (sigRun ops (sigInit disp blocks)).disp quit = .app h true) (ht : (sigRun ops (sigInit disp blocks)).th[i]? = some t)
    (hp : t.phase = .waiting) (hb : t.blocks quit = false) :
    deliver quit i (sigRun ops (sigInit disp blocks)) = some (.app h true, sigRun ops (sigInit disp blocks)) := by
  simp [deliver, ht, hp, hb, hs, interrupts]

example (disp : Nat → Act) (blocks : Nat → Bool) :
    deliver quit 1 (sigRun [.start 0, .step 1, .step 1, .step 1, .action quit (.app 5 true)] (sigInit disp blocks)) =
      some (.app 5 true, sigRun [.start 0, .step 1, .step 1, .step 1, .action quit (.app 5 true)] (sigInit disp blocks)) :=
  C151_restarted disp blocks _ 1 5 _ rfl rfl rfl rfl

/-- A receiver that waits; no `stop` is among the events. -/
example (disp : Nat → Act) (blocks : Nat → Bool) :
    ∃ t', (sigRun [.start 0, .step 1, .step 1, .step 1, .signal quit 1, .step 1, .step 1] (sigInit disp blocks)).th[1]? = some t' ∧
      t'.receiver = true ∧ t'.phase = .ended :=
  C151_deaf_violated disp blocks [.start 0, .step 1, .step 1, .step 1] [.step 1, .step 1] 1 _ (.inl rfl) rfl rfl rfl rfl

/-- The receiver has taken SIGQUIT over: the hypotheses of `C151_quit_violated`, and those of `C151_own_threads_partial`. -/
example (disp : Nat → Act) (blocks : Nat → Bool) :
    (sigRun [.start 0, .action quit (.app 1 true), .step 1, .step 1, .stop 1] (sigInit disp blocks)).disp quit = .lib ∧
    deliver 15 1 (sigRun [.start 0, .step 1] (sigInit disp blocks)) = none :=
  ⟨C151_quit_violated disp blocks [.start 0, .action quit (.app 1 true), .step 1] [.stop 1] 1 _ rfl rfl rfl (by simp),
    C151_own_threads_partial disp blocks [.start 0, .step 1] 15 1 _ rfl rfl (by simp) (by decide) (by decide) (by decide)⟩

end Uecho.Props
