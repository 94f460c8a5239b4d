import Verif.Model.Thread
/-!
# C63: stopping a server
-/
namespace Uecho.Props
open Uecho Uecho.Thread

/-- The receiver is beyond its last check and will call, or is calling, a handler. -/
def Committed (s : St) : Prop := s.rx = .deliver ∨ s.rx = .handler

/-- `uecho_server_stop` has closed the socket and cleared the flag. -/
def Halted (s : St) : Prop := s.socket = false ∧ (s.runnable = some false ∨ s.runnable = none)

/-- What the progress of `uecho_server_stop` says about the shared state. -/
def Progress (s : St) : Prop :=
  match s.tx with
  | .idle | .close => s.runnable = some true ∧ s.socket = true ∧ s.server = true
  | .flag => s.runnable = some true ∧ s.socket = false ∧ s.server = true
  | .sleep | .freeThread => s.runnable = some false ∧ s.socket = false ∧ s.server = true
  | .freeServer => s.runnable = none ∧ s.socket = false ∧ s.server = true
  | .returned => s.runnable = none ∧ s.socket = false ∧ s.server = false

theorem progress_step {m : Move} {s s' : St} (h : Progress s) (e : Thread.step m s = .ok (some s')) : Progress s' := by
  cases m with
  | tx =>
    obtain ⟨rx, tx, r, so, se, c⟩ := s
    cases tx <;> simp only [Thread.step, stepTx, Res.ok.injEq, Option.some.injEq, reduceCtorEq] at e <;> subst e <;>
      simp_all [Progress]
  | rx d =>
    have hsame : s'.tx = s.tx ∧ s'.runnable = s.runnable ∧ s'.socket = s.socket ∧ s'.server = s.server := by
      obtain ⟨rx, tx, r, so, se, c⟩ := s
      cases rx <;> simp only [Thread.step, stepRx] at e <;> (repeat' split at e) <;>
        simp only [Res.ok.injEq, Option.some.injEq, reduceCtorEq] at e <;> subst e <;> simp
    unfold Progress at h ⊢
    rw [hsame.1, hsame.2.1, hsame.2.2.1, hsame.2.2.2]
    exact h

theorem reach_progress {ms : List Move} {s : St} (h : run ms started = .ok s) : Progress s := by
  have hp : ∀ (ms : List Move) (a b : St), Progress a → run ms a = .ok b → Progress b := by
    intro ms
    induction ms with
    | nil => intro a b h e; simp only [run, Res.ok.injEq] at e; exact e ▸ h
    | cons m ms ih =>
      intro a b h e
      simp only [run, Res.bind_eq_ok] at e
      obtain ⟨o, e1, e2⟩ := e
      cases o with
      | none => exact ih a b h e2
      | some a' => exact ih a' b (progress_step h e1) e2
  exact hp ms started s ⟨rfl, rfl, rfl⟩ h

theorem halted_step {m : Move} {s s' : St} (h : Halted s) (e : Thread.step m s = .ok (some s')) : Halted s' := by
  cases m with
  | tx =>
    obtain ⟨rx, tx, r, so, se, c⟩ := s
    cases tx <;> simp only [Thread.step, stepTx, Res.ok.injEq, Option.some.injEq, reduceCtorEq] at e <;> subst e <;>
      simp_all [Halted]
  | rx d =>
    have hsame : s'.runnable = s.runnable ∧ s'.socket = s.socket := by
      obtain ⟨rx, tx, r, so, se, c⟩ := s
      cases rx <;> simp only [Thread.step, stepRx] at e <;> (repeat' split at e) <;>
        simp only [Res.ok.injEq, Option.some.injEq, reduceCtorEq] at e <;> subst e <;> simp
    unfold Halted at h ⊢
    rw [hsame.1, hsame.2]
    exact h

theorem uncommitted_step {m : Move} {s s' : St} (h : Halted s) (hc : ¬ Committed s) (e : Thread.step m s = .ok (some s')) :
    ¬ Committed s' ∧ s'.calls = s.calls := by
  cases m with
  | tx =>
    obtain ⟨rx, tx, r, so, se, c⟩ := s
    cases tx <;> simp only [Thread.step, stepTx, Res.ok.injEq, Option.some.injEq, reduceCtorEq] at e <;> subst e <;>
      simp_all [Committed]
  | rx d =>
    obtain ⟨rx, tx, r, so, se, c⟩ := s
    simp only [Halted] at h
    obtain ⟨rfl, h⟩ := h
    rcases h with rfl | rfl <;> cases rx <;> cases se <;> cases d <;>
      simp_all [Thread.step, stepRx, Committed] <;> subst e <;> simp

/-- C63 (partial: the receiver must not be beyond its last check at that moment): once `uecho_server_stop` has closed the socket
and cleared the flag, a receiver that has not passed its last check calls no handler any more, whatever the schedule and
whatever arrives. -/
theorem C63_no_new_call_partial (pre post : List Move) (s s' : St) (hpre : run pre started = .ok s)
    (htx : s.tx ≠ .idle ∧ s.tx ≠ .close ∧ s.tx ≠ .flag) (hc : ¬ Committed s) (hpost : run post s = .ok s') :
    ¬ Committed s' ∧ s'.calls = s.calls := by
  have hprog := reach_progress hpre
  have hh : Halted s := by
    unfold Progress at hprog
    cases ht : s.tx <;> simp_all [Halted]
  clear hpre hprog htx
  induction post generalizing s with
  | nil => simp only [run, Res.ok.injEq] at hpost; subst hpost; exact ⟨hc, rfl⟩
  | cons m ms ih =>
    simp only [run, Res.bind_eq_ok] at hpost
    obtain ⟨o, e1, e2⟩ := hpost
    cases o with
    | none => exact ih s hc e2 hh
    | some a =>
      obtain ⟨h1, h2⟩ := uncommitted_step hh hc e1
      obtain ⟨h3, h4⟩ := ih a h1 e2 (halted_step hh e1)
      exact ⟨h3, by rw [h4, h2]⟩

/-- C63 (partial: the receiver ends during the sleep): if the receiver has ended before `uecho_server_stop` frees anything, the rest
of the stop is defined, and after it no handler runs or will run. -/
theorem C63_clean_stop_partial (s : St) (hrx : s.rx = .done) (post : List Move) :
    ∃ s', run post s = .ok s' ∧ s'.rx = .done ∧ s'.calls = s.calls := by
  induction post generalizing s with
  | nil => exact ⟨s, rfl, hrx, rfl⟩
  | cons m ms ih =>
    simp only [run]
    cases m with
    | rx d =>
      obtain ⟨s', e, h⟩ := ih s hrx
      refine ⟨s', ?_, h⟩
      simp only [Thread.step, stepRx, hrx, Res.bind_ok]
      exact e
    | tx =>
      have htx : stepTx s = .ok none ∨ ∃ s2, stepTx s = .ok (some s2) ∧ s2.rx = s.rx ∧ s2.calls = s.calls := by
        unfold stepTx
        cases s.tx <;> simp
      rcases htx with e | ⟨s2, e, h1, h2⟩
      · obtain ⟨s', e', h⟩ := ih s hrx
        exact ⟨s', by simp only [Thread.step, e, Res.bind_ok]; exact e', h⟩
      · obtain ⟨s', e', h3, h4⟩ := ih s2 (h1.trans hrx)
        exact ⟨s', by simp only [Thread.step, e, Res.bind_ok]; exact e', h3, h4.trans h2⟩

/-- C63 (partial: the receiver must get three steps while `uecho_server_stop` sleeps, and must not be between the return of `recvfrom` and
the end of `uecho_socket_recv` when the socket is closed): then, if a `recvfrom` that was waiting fails, the receiver has ended
before anything is freed, the rest of the stop is defined for every schedule, and no handler runs afterwards. -/
theorem C63_drain_partial (pre post : List Move) (s : St) (hpre : run pre started = .ok s) (htx : s.tx = .sleep) (hgot : s.rx ≠ .got)
    (d1 d2 d3 : Bool) (hwait : s.rx = .blocked → d1 = false) :
    ∃ s1, run [.rx d1, .rx d2, .rx d3] s = .ok s1 ∧ s1.rx = .done ∧ s1.tx = .sleep ∧
      ∃ s', run ([.rx d1, .rx d2, .rx d3] ++ post) s = .ok s' ∧ s'.rx = .done ∧ s'.calls = s1.calls := by
  have hrun : ∀ (ms ns : List Move) (a : St), run (ms ++ ns) a = (run ms a).bind (run ns) := by
    intro ms ns
    induction ms with
    | nil => intro a; rfl
    | cons m ms ih =>
      intro a
      simp only [List.cons_append, run]
      cases Thread.step m a with
      | ub => rfl
      | ok o => cases o <;> exact ih _
  have hprog := reach_progress hpre
  have h4 : ∃ s1, run [.rx d1, .rx d2, .rx d3] s = .ok s1 ∧ s1.rx = .done ∧ s1.tx = .sleep := by
    obtain ⟨rx, tx, r, so, se, c⟩ := s
    simp only at htx hgot hwait
    subst htx
    simp only [Progress] at hprog
    obtain ⟨rfl, rfl, rfl⟩ := hprog
    cases rx with
    | got => exact absurd rfl hgot
    | blocked => cases hwait rfl; exact ⟨_, rfl, rfl, rfl⟩
    | _ => exact ⟨_, rfl, rfl, rfl⟩
  obtain ⟨s1, e, h1, h2⟩ := h4
  obtain ⟨s', e', h3, h5⟩ := C63_clean_stop_partial s1 h1 post
  exact ⟨s1, e, h1, h2, s', by rw [hrun, e]; exact e', h3, h5⟩

/-- The schedule in which a frame arrives and its handler begins. -/
def untilHandler : List Move := [.rx true, .rx true, .rx true, .rx true, .rx true, .rx true, .rx true]

/-- C63 violated: `uecho_server_stop` returns while a handler of the server is running, and the receiver then reads memory that
the stop has freed. -/
theorem C63_handler_running_violated :
    (∃ s, run (untilHandler ++ List.replicate 6 .tx) started = .ok s ∧ s.tx = .returned ∧ s.rx = .handler) ∧
    run (untilHandler ++ List.replicate 6 .tx ++ [.rx true]) started = .ub := by
  constructor
  · exact ⟨⟨.handler, .returned, none, false, false, 1⟩, rfl, rfl, rfl⟩
  · rfl

/-- C63 violated: for a receiver that has just started, is about to read its flag, or has just received a datagram, a complete stop in
that moment makes its next step read freed memory. -/
theorem C63_use_after_free_violated (s : St) (hidle : s.tx = .idle)
    (hrx : s.rx = .begin ∨ s.rx = .loop ∨ s.rx = .recv ∨ s.rx = .got ∨ s.rx = .check ∨ s.rx = .deliver ∨ s.rx = .handler) (d : Bool) :
    run (List.replicate 6 .tx ++ [.rx d]) s = .ub := by
  obtain ⟨rx, tx, r, so, se, c⟩ := s
  simp only at hidle hrx
  subst hidle
  rcases hrx with rfl | rfl | rfl | rfl | rfl | rfl | rfl <;> rfl

-- a schedule in which the receiver is blocked when the stop begins, wakes up with an error, and all is well
example : ∃ s, run ([.rx true, .rx true, .rx true] ++ [.tx, .tx, .tx] ++ [.rx false] ++ [.tx, .tx, .tx]) started = .ok s ∧
    s.tx = .returned ∧ s.rx = .done := ⟨⟨.done, .returned, none, false, false, 0⟩, rfl, rfl, rfl⟩

-- the stop begins while a handler runs
example : ∃ s, run (untilHandler ++ [.tx, .tx, .tx]) started = .ok s ∧ s.tx = .sleep ∧ s.rx ≠ .got :=
  ⟨⟨.handler, .sleep, some false, false, true, 1⟩, rfl, rfl, by simp⟩

example : ∃ s, run ([.rx true, .rx true, .rx true] ++ [.tx, .tx, .tx]) started = .ok s ∧
    (s.tx ≠ .idle ∧ s.tx ≠ .close ∧ s.tx ≠ .flag) ∧ ¬ Committed s :=
  ⟨⟨.blocked, .sleep, some false, false, true, 0⟩, rfl, by simp, by simp [Committed]⟩

end Uecho.Props
