import Verif.Spec.StdDb
/-! # C121: the life of the standard database -/
namespace Uecho.Props
open Uecho Uecho.Spec Uecho.StdDb

theorem stdRun_append (es fs : List Ev) : ∀ s, run (es ++ fs) s = (run es s).bind (run fs) := by
  induction es with
  | nil => intro s; rfl
  | cons e es ih =>
    intro s
    simp only [List.cons_append, run]
    cases ev s e with
    | ub => rfl
    | ok s1 => exact ih s1

/-- What one thread alone can reach. -/
def OneInv (t : Nat) (s : Sys) : Prop :=
  (∀ u, u ≠ t → s.pc u = .idle) ∧
  match s.pc t with
  | .idle | .make => s.ptr = none ∧ s.dbs = [] ∧ s.handlers = 0
  | .check => (s.ptr = none ∧ s.dbs = [] ∧ s.handlers = 0) ∨ (s.ptr = some 0 ∧ s.dbs = [finished] ∧ s.handlers = 1)
  | .recheck => (s.ptr = none ∧ s.dbs = [] ∧ s.handlers = 0) ∨ (s.ptr = some 0 ∧ s.dbs = [⟨0, 0, true⟩] ∧ s.handlers = 0)
  | .addMans => s.ptr = some 0 ∧ s.dbs = [⟨0, 0, true⟩] ∧ s.handlers = 0
  | .addObjs => s.ptr = some 0 ∧ s.dbs = [⟨1, 0, true⟩] ∧ s.handlers = 0
  | .register => s.ptr = some 0 ∧ s.dbs = [⟨1, 1, true⟩] ∧ s.handlers = 0
  | .result => s.ptr = some 0 ∧ s.dbs = [finished] ∧ s.handlers = 1
  | .got none => s.ptr = none ∧ s.dbs = [] ∧ s.handlers = 0
  | .got (some a) => a = 0 ∧ s.ptr = some 0 ∧ s.dbs = [finished] ∧ s.handlers = 1

theorem one_step {t : Nat} {s : Sys} {e : Ev} (h : OneInv t s) (he : ByThread t e) : ∃ s', ev s e = .ok s' ∧ OneInv t s' := by
  obtain ⟨ho, h⟩ := h
  cases e with
  | exit => exact absurd he id
  | call u =>
    cases he
    cases hp : s.pc t with
    | idle =>
      rw [hp] at h
      exact ⟨s.at t .check, by simp [ev, hp], fun u hu => by simp [Sys.at, hu, ho u hu], by simp [Sys.at, h]⟩
    | got a =>
      rw [hp] at h
      refine ⟨s.at t .check, by simp [ev, hp], fun u hu => by simp [Sys.at, hu, ho u hu], ?_⟩
      cases a <;> simp_all [Sys.at]
    | _ => exact ⟨s, by simp [ev, hp], ho, h⟩
  | use u =>
    cases he
    cases hp : s.pc t with
    | got a =>
      cases a with
      | none => exact ⟨s, by simp [ev, hp], ho, h⟩
      | some a =>
        have h' := h
        rw [hp] at h'
        obtain ⟨rfl, h1, h2, h3⟩ := h'
        refine ⟨s, ?_, ho, h⟩
        simp only [ev, hp, touch, h2, finished]
        cases s
        simp_all [finished]
    | _ => exact ⟨s, by simp [ev, hp], ho, h⟩
  | step u mem =>
    cases he
    cases hp : s.pc t with
    | idle => exact ⟨s, by simp [ev, step, hp], ho, h⟩
    | got a => exact ⟨s, by simp [ev, step, hp], ho, h⟩
    | check =>
      rw [hp] at h
      refine ⟨s.at t (if s.ptr = none then .make else .result), by simp [ev, step, hp], fun u hu => by simp [Sys.at, hu, ho u hu], ?_⟩
      rcases h with h | h <;> simp [Sys.at, h]
    | make =>
      rw [hp] at h
      cases mem
      · exact ⟨Sys.at { s with ptr := none } t .recheck, by simp [ev, step, hp], fun u hu => by simp [Sys.at, hu, ho u hu], by simp [Sys.at, h]⟩
      · exact ⟨Sys.at { s with ptr := some s.dbs.length, dbs := s.dbs ++ [⟨0, 0, true⟩] } t .recheck, by simp [ev, step, hp],
          fun u hu => by simp [Sys.at, hu, ho u hu], by simp [Sys.at, h]⟩
    | recheck =>
      rw [hp] at h
      refine ⟨s.at t (if s.ptr = none then .got none else .addMans), by simp [ev, step, hp], fun u hu => by simp [Sys.at, hu, ho u hu], ?_⟩
      rcases h with h | h <;> simp [Sys.at, h]
    | addMans =>
      rw [hp] at h
      refine ⟨Sys.at { s with dbs := [⟨1, 0, true⟩] } t .addObjs, ?_, fun u hu => by simp [Sys.at, hu, ho u hu], by simp [Sys.at, h]⟩
      simp [ev, step, hp, touchShared, touch, h]
    | addObjs =>
      rw [hp] at h
      refine ⟨Sys.at { s with dbs := [⟨1, 1, true⟩] } t .register, ?_, fun u hu => by simp [Sys.at, hu, ho u hu], by simp [Sys.at, h]⟩
      simp [ev, step, hp, touchShared, touch, h]
    | register =>
      rw [hp] at h
      refine ⟨Sys.at { s with handlers := s.handlers + 1 } t .result, by simp [ev, step, hp], fun u hu => by simp [Sys.at, hu, ho u hu], ?_⟩
      simp [Sys.at, h, finished]
    | result =>
      rw [hp] at h
      refine ⟨s.at t (.got s.ptr), by simp [ev, step, hp], fun u hu => by simp [Sys.at, hu, ho u hu], ?_⟩
      simp [Sys.at, h]

theorem one_run {t : Nat} (es : List Ev) : ∀ {s : Sys}, OneInv t s → (∀ e ∈ es, ByThread t e) → ∃ s', run es s = .ok s' ∧ OneInv t s' := by
  induction es with
  | nil => intro s h _; exact ⟨s, rfl, h⟩
  | cons e es ih =>
    intro s h he
    obtain ⟨s1, h1, i1⟩ := one_step h (he e (by simp))
    obtain ⟨s2, h2, i2⟩ := ih i1 (fun e' h' => he e' (by simp [h']))
    exact ⟨s2, by simp [run, h1, h2], i2⟩

/-- When the database is there, threads can only read it. -/
def AllInv (s : Sys) : Prop :=
  s.ptr = some 0 ∧ s.dbs = [finished] ∧ s.handlers = 1 ∧ ∀ u, s.pc u ∈ [.idle, .check, .result, .got none, .got (some 0)]

theorem all_step {s : Sys} {e : Ev} (h : AllInv s) (he : e ≠ .exit) : ∃ s', ev s e = .ok s' ∧ AllInv s' ∧ (∀ u, s.pc u ≠ .got none → s'.pc u ≠ .got none) := by
  obtain ⟨h1, h2, h3, h4⟩ := h
  have keep : ∀ (t : Nat) (c : Pc), c ∈ [.idle, .check, .result, .got none, .got (some 0)] → c ≠ .got none →
      AllInv (s.at t c) ∧ (∀ u, s.pc u ≠ .got none → (s.at t c).pc u ≠ .got none) := by
    intro t c hc hn
    refine ⟨⟨h1, h2, h3, fun u => ?_⟩, fun u hu => ?_⟩
    · simp only [Sys.at]; split
      · exact hc
      · exact h4 u
    · simp only [Sys.at]; split
      · exact hn
      · exact hu
  have stay : AllInv s ∧ (∀ u, s.pc u ≠ .got none → s.pc u ≠ .got none) := ⟨⟨h1, h2, h3, h4⟩, fun _ h => h⟩
  cases e with
  | exit => exact absurd rfl he
  | call t =>
    have := h4 t
    simp only [List.mem_cons, List.not_mem_nil, or_false] at this
    rcases this with hp | hp | hp | hp | hp
    · exact ⟨_, by simp only [ev, hp], keep t .check (by simp) (by simp)⟩
    · exact ⟨s, by simp [ev, hp], stay⟩
    · exact ⟨s, by simp [ev, hp], stay⟩
    · exact ⟨_, by simp only [ev, hp], keep t .check (by simp) (by simp)⟩
    · exact ⟨_, by simp only [ev, hp], keep t .check (by simp) (by simp)⟩
  | use t =>
    have := h4 t
    simp only [List.mem_cons, List.not_mem_nil, or_false] at this
    rcases this with hp | hp | hp | hp | hp
    · exact ⟨s, by simp [ev, hp], stay⟩
    · exact ⟨s, by simp [ev, hp], stay⟩
    · exact ⟨s, by simp [ev, hp], stay⟩
    · exact ⟨s, by simp [ev, hp], stay⟩
    · refine ⟨s, ?_, stay⟩
      cases s
      simp_all [ev, touch, finished]
  | step t mem =>
    have := h4 t
    simp only [List.mem_cons, List.not_mem_nil, or_false] at this
    rcases this with hp | hp | hp | hp | hp
    · exact ⟨s, by simp [ev, step, hp], stay⟩
    · exact ⟨s.at t .result, by simp [ev, step, hp, h1], keep t .result (by simp) (by simp)⟩
    · exact ⟨s.at t (.got (some 0)), by simp [ev, step, hp, h1], keep t _ (by simp) (by simp)⟩
    · exact ⟨s, by simp [ev, step, hp], stay⟩
    · exact ⟨s, by simp [ev, step, hp], stay⟩

theorem all_run (es : List Ev) : ∀ {s : Sys}, AllInv s → Ev.exit ∉ es →
    ∃ s', run es s = .ok s' ∧ AllInv s' ∧ (∀ u, s.pc u ≠ .got none → s'.pc u ≠ .got none) := by
  induction es with
  | nil => intro s h _; exact ⟨s, rfl, h, fun _ h => h⟩
  | cons e es ih =>
    intro s h he
    obtain ⟨s1, h1, i1, k1⟩ := all_step (e := e) h (fun c => he (by simp [c]))
    obtain ⟨s2, h2, i2, k2⟩ := ih i1 (fun c => he (by simp [c]))
    exact ⟨s2, by simp [run, h1, h2], i2, fun u hu => k2 u (k1 u hu)⟩

theorem exit_one {s : Sys} (h1 : s.ptr = some 0) (h2 : s.dbs = [finished]) (h3 : s.handlers = 1) :
    ∃ s', ev s .exit = .ok s' ∧ s'.dbs = [gone] :=
  ⟨{ s with dbs := [gone], handlers := 0 }, by simp [ev, h1, h2, h3, atExit, free, touchShared, touch, finished, gone], rfl⟩

/-- **C121, partial** (one thread has the database before another one asks for it, and no thread uses it after `main` was left). Whatever the
threads do, and however they interleave: every call is defined, all of them get the one finished database; and when the program ends, it is
freed, once. -/
theorem C121_database_partial (t : Nat) (es fs : List Ev) (a : Nat) (s1 : Sys) (he : ∀ e ∈ es, ByThread t e) (h1 : run es init = .ok s1)
    (ha : Has s1 t a) (hf : Ev.exit ∉ fs) :
    ∃ s2 s3, run (es ++ fs) init = .ok s2 ∧ s2.dbs[a]? = some finished ∧ s2.dbs.length = 1 ∧ (∀ u b, Has s2 u b → b = a) ∧
      (∀ u, s2.pc u ≠ .got none) ∧ run (es ++ fs ++ [.exit]) init = .ok s3 ∧ s3.dbs = [gone] := by
  have i0 : OneInv t init := ⟨fun _ _ => rfl, by simp [init]⟩
  obtain ⟨s1', g1, ho, i1⟩ := one_run es i0 he
  rw [h1] at g1
  cases g1
  unfold Has at ha
  rw [ha] at i1
  obtain ⟨rfl, p1, p2, p3⟩ := i1
  have ia : AllInv s1 := ⟨p1, p2, p3, fun u => by
    by_cases hu : u = t
    · subst hu; simp [ha]
    · simp [ho u hu]⟩
  obtain ⟨s2, g2, ⟨q1, q2, q3, q4⟩, k2⟩ := all_run fs ia hf
  obtain ⟨s3, g3, r3⟩ := exit_one q1 q2 q3
  have e2 : run (es ++ fs) init = .ok s2 := by rw [stdRun_append, h1]; exact g2
  refine ⟨s2, s3, e2, by simp [q2], by simp [q2], fun u b hb => ?_, fun u => k2 u ?_, ?_, r3⟩
  · have := q4 u
    unfold Has at hb
    rw [hb] at this
    simpa using this
  · by_cases hu : u = t
    · subst hu; simp [ha]
    · simp [ho u hu]
  · rw [stdRun_append, e2]
    simp [Res.bind, run, g3]

/-- **C121, partial** (one thread). Whatever it does, and whether or not there is memory: it never has more than one database, and those that it
gets are finished. -/
theorem C121_one_thread_partial (t : Nat) (es : List Ev) (he : ∀ e ∈ es, ByThread t e) :
    ∃ s, run es init = .ok s ∧ s.dbs.length ≤ 1 ∧ ∀ a, Has s t a → s.dbs[a]? = some finished := by
  have i0 : OneInv t init := ⟨fun _ _ => rfl, by simp [init]⟩
  obtain ⟨s, g, ho, i⟩ := one_run es i0 he
  refine ⟨s, g, ?_, fun a ha => ?_⟩
  · cases hp : s.pc t with
    | got a => rw [hp] at i; cases a <;> simp_all
    | check => rw [hp] at i; rcases i with i | i <;> simp [i]
    | recheck => rw [hp] at i; rcases i with i | i <;> simp [i]
    | _ => rw [hp] at i; simp [i]
  · unfold Has at ha
    rw [ha] at i
    simp [i]

/-- The first call of thread `t`, with memory. -/
def firstCall (t : Nat) : List Ev := .call t :: List.replicate 7 (.step t true)

theorem final_eq {es : List Ev} {f : Sys → Bool} (h : (match run es init with | .ok s => f s | .ub => false) = true) :
    ∃ s, run es init = .ok s ∧ f s = true := by
  cases g : run es init with
  | ok s => rw [g] at h; exact ⟨s, rfl, h⟩
  | ub => rw [g] at h; exact absurd h (by simp)

/-- Thread 0 gets the database, threads 1 and 2 ask for it at the same time. -/
example : ∃ s1, (∀ e ∈ firstCall 0, ByThread 0 e) ∧ run (firstCall 0) init = .ok s1 ∧ Has s1 0 0 ∧
    Ev.exit ∉ [Ev.call 1, .call 2, .step 1 true, .step 2 true, .step 2 true, .use 2, .step 1 true] := by
  obtain ⟨s, h, e⟩ := final_eq (es := firstCall 0) (f := fun s => s.pc 0 == .got (some 0)) (by decide +kernel)
  exact ⟨s, by simp [firstCall, ByThread], h, by simpa [Has] using e, by decide⟩

/-- **C121**, violated. Two threads that ask for the database first, at the same time: both make one and both register the handler, so
that the end of the program frees one of them twice. -/
theorem C121_race_violated : ∃ es : List Ev, Ev.exit ∉ es ∧ (run es init).Defined ∧ run (es ++ [.exit]) init = .ub := by
  refine ⟨[.call 0, .call 1, .step 0 true, .step 1 true] ++ List.replicate 6 (.step 0 true) ++ List.replicate 6 (.step 1 true), by decide, ?_, ?_⟩
  · obtain ⟨s, h, _⟩ := final_eq (es := [.call 0, .call 1, .step 0 true, .step 1 true] ++ List.replicate 6 (.step 0 true) ++
      List.replicate 6 (.step 1 true)) (f := fun _ => true) (by decide +kernel)
    exact ⟨s, h⟩
  · cases h : run ([.call 0, .call 1, .step 0 true, .step 1 true] ++ List.replicate 6 (.step 0 true) ++ List.replicate 6 (.step 1 true) ++
      [.exit]) init with
    | ub => rfl
    | ok s =>
      have : (match run ([.call 0, .call 1, .step 0 true, .step 1 true] ++ List.replicate 6 (.step 0 true) ++
        List.replicate 6 (.step 1 true) ++ [.exit]) init with | .ok _ => false | .ub => true) = true := by decide +kernel
      rw [h] at this
      exact absurd this (by simp)

/-- **C121**, violated. A thread that asks while another one fills the database gets an empty one: objects that it makes lack their standard
properties. -/
theorem C121_unfinished_violated : ∃ es s t a, run es init = .ok s ∧ Ev.exit ∉ es ∧ Has s t a ∧ s.dbs[a]? = some ⟨0, 0, true⟩ := by
  obtain ⟨s, h, e⟩ := final_eq (es := [.call 0, .step 0 true, .step 0 true, .call 1, .step 1 true, .step 1 true])
    (f := fun s => s.pc 1 == .got (some 0) && s.dbs[0]? == some ⟨0, 0, true⟩) (by decide +kernel)
  simp at e
  exact ⟨_, s, 1, 0, h, by decide, e.1, e.2⟩

theorem step_result {s : Sys} {t a : Nat} (h : s.ptr = some a) (hc : s.pc t = .idle ∨ s.pc t = .got (some a)) :
    run [.call t, .step t true, .step t true] s = .ok ({ s with pc := fun u => if u = t then .got (some a) else s.pc u }) := by
  rcases hc with hc | hc <;>
  · simp only [run, ev, hc, step, Sys.at, Res.bind_ok, if_pos, h]
    simp
    funext u
    by_cases hu : u = t <;> simp [hu]

/-- **C121**, violated. After `main` was left the static pointer points to freed memory: a receiver that is still running, and that makes an object for a
node that it just heard of, asks for the database and reads freed memory — whatever happened before. -/
theorem C121_exit_violated (t u : Nat) (es fs : List Ev) (a : Nat) (s1 s2 : Sys) (he : ∀ e ∈ es, ByThread t e) (h1 : run es init = .ok s1)
    (ha : Has s1 t a) (hf : Ev.exit ∉ fs) (h2 : run (es ++ fs) init = .ok s2) (hu : s2.pc u = .idle ∨ Has s2 u a) :
    run (es ++ fs ++ [.exit, .call u, .step u true, .step u true, .use u]) init = .ub := by
  have i0 : OneInv t init := ⟨fun _ _ => rfl, by simp [init]⟩
  obtain ⟨s1', g1, ho, i1⟩ := one_run es i0 he
  rw [h1] at g1
  cases g1
  unfold Has at ha
  rw [ha] at i1
  obtain ⟨rfl, p1, p2, p3⟩ := i1
  have ia : AllInv s1 := ⟨p1, p2, p3, fun u => by
    by_cases hu : u = t
    · subst hu; simp [ha]
    · simp [ho u hu]⟩
  obtain ⟨s2', g2, ⟨q1, q2, q3, q4⟩, k2⟩ := all_run fs ia hf
  rw [stdRun_append, h1] at h2
  have h2' : run fs s1 = .ok s2 := h2
  rw [g2] at h2'
  cases h2'
  rw [stdRun_append, stdRun_append, h1]
  show (run fs s1).bind _ = _
  rw [g2]
  have hx : ev s2 .exit = .ok { s2 with dbs := [gone], handlers := 0 } := by
    simp [ev, q1, q2, q3, atExit, free, touchShared, touch, finished, gone]
  show run ([.exit] ++ ([.call u, .step u true, .step u true] ++ [.use u])) s2 = .ub
  rw [stdRun_append]
  simp only [run, hx, Res.bind_ok]
  show run _ _ = _
  rw [stdRun_append, step_result (a := 0) (by simpa using q1) (by simpa [Has] using hu)]
  show run _ _ = _
  simp [run, ev, touch, gone]

example : run (firstCall 0 ++ [.exit, .call 1, .step 1 true, .step 1 true, .use 1]) init = .ub := by
  have : ∃ s1, run (firstCall 0) init = .ok s1 ∧ Has s1 0 0 ∧ s1.pc 1 = .idle := by
    obtain ⟨s, h, e⟩ := final_eq (es := firstCall 0) (f := fun s => s.pc 0 == .got (some 0) && s.pc 1 == .idle) (by decide +kernel)
    simp at e
    exact ⟨s, h, e.1, e.2⟩
  obtain ⟨s1, h, h0, hi⟩ := this
  have := C121_exit_violated 0 1 (firstCall 0) [] 0 s1 s1 (by simp [firstCall, ByThread]) h h0 (by simp) (by simpa using h) (.inl hi)
  simpa using this

end Uecho.Props
