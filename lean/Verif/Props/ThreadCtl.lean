import Verif.Spec.ThreadCtl
/-! # C122: starting and stopping threads -/
namespace Uecho.Props
open Uecho Uecho.Spec Uecho.ThreadCtl

/-- **C122.** A start tells whether an action runs now that did not run before, and so does `uecho_thread_isrunning`. -/
theorem C122_start_reports (es : List ThEv) (ok : Bool) :
    let t := thRun es new
    let r := start ok t
    (r.1 = true ↔ ∃ i ∈ r.2.live, i ∉ t.live) ∧ isRunning r.2 = r.1 ∧ (∀ i ∈ t.live, i ∈ r.2.live) := by
  have key : ∀ (es : List ThEv) (t : Th), (∀ i ∈ t.live, i < t.next) → ∀ i ∈ (thRun es t).live, i < (thRun es t).next := by
    intro es
    induction es with
    | nil => intro t h; exact h
    | cons e es ih =>
      intro t h
      refine ih (thStep e t) ?_
      intro i hi
      cases e with
      | start o =>
        cases o
        · exact h i hi
        · simp only [thStep, start, if_pos, List.mem_cons] at hi ⊢
          rcases hi with rfl | hi
          · omega
          · have := h i hi; omega
      | stop =>
        simp only [thStep, stop] at hi ⊢
        split at hi <;> split <;> first | exact h i hi | contradiction
      | restart o =>
        have hs : (stop t).2.live = t.live ∧ (stop t).2.next = t.next := by simp only [stop]; split <;> exact ⟨rfl, rfl⟩
        cases o
        · simp only [thStep, restart, start, hs] at hi ⊢
          simp at hi ⊢
          exact h i hi
        · simp only [thStep, restart, start, hs, if_pos, List.mem_cons] at hi ⊢
          rcases hi with rfl | hi
          · omega
          · have := h i hi; omega
      | ask j =>
        simp only [thStep, ask] at hi ⊢
        split at hi
        next => rename_i hr; simp only [hr, if_pos]; exact h i hi
        next => rename_i hr; simp only [hr]; exact h i ((List.mem_filter.1 hi).1)
  intro t r
  have hl := key es new (by simp [new])
  cases ok
  · refine ⟨⟨fun h => absurd h (by simp [r, start]), fun ⟨i, h1, h2⟩ => absurd h1 (by simpa [r, start] using h2)⟩, rfl, fun i hi => by simpa [r, start] using hi⟩
  · refine ⟨⟨fun _ => ⟨t.next, by simp [r, start], fun h => ?_⟩, fun _ => rfl⟩, rfl, fun i hi => by simp [r, start, hi]⟩
    have := hl _ h
    exact absurd this (Nat.lt_irrefl _)

example : (start true (thRun [.start true, .stop, .ask 0] new)).1 = true ∧ (start true (thRun [.start true, .stop, .ask 0] new)).2.live = [1] := by decide

theorem stop_keeps (t : Th) : (stop t).2.runnable = false ∧ (stop t).2.live = t.live := by
  simp only [stop]
  split
  next => exact ⟨rfl, rfl⟩
  next h => exact ⟨by simpa using h, rfl⟩

/-- When the object is stopped, asking makes actions end. -/
theorem asks_end (is : List Nat) : ∀ (t : Th), t.runnable = false → (thRun (is.map .ask) t).runnable = false ∧
    ∀ i, i ∈ (thRun (is.map .ask) t).live ↔ i ∈ t.live ∧ i ∉ is := by
  induction is with
  | nil => intro t h; exact ⟨h, fun i => by simp [thRun]⟩
  | cons j is ih =>
    intro t h
    have e : ask j t = { t with live := t.live.filter (· ≠ j) } := by simp [ask, h]
    have := ih (ask j t) (by rw [e]; exact h)
    refine ⟨this.1, fun i => ?_⟩
    show i ∈ (thRun (is.map .ask) (ask j t)).live ↔ _
    rw [this.2 i, e]
    simp only [List.mem_filter, List.mem_cons, not_or]
    simp
    exact ⟨fun ⟨⟨a, b⟩, c⟩ => ⟨a, b, c⟩, fun ⟨a, b, c⟩ => ⟨⟨a, b⟩, c⟩⟩

/-- **C122.** A stop succeeds, and after it every action of the thread ends as soon as it looks, unless the object is started again before. -/
theorem C122_stop_ends (es : List ThEv) (is : List Nat) (h : ∀ i ∈ (thRun es new).live, i ∈ is) :
    let t := thRun (es ++ [.stop] ++ is.map .ask) new
    (stop (thRun es new)).1 = true ∧ t.live = [] ∧ isRunning t = false := by
  intro t
  have e : t = thRun (is.map .ask) (stop (thRun es new)).2 := by
    simp [t, thRun, List.foldl_append, thStep]
  have hs := stop_keeps (thRun es new)
  obtain ⟨h1, h2⟩ := asks_end is _ hs.1
  rw [e]
  refine ⟨rfl, ?_, h1⟩
  rw [List.eq_nil_iff_forall_not_mem]
  intro i hi
  rw [h2, hs.2] at hi
  exact hi.2 (h i hi.1)

example : ∀ i ∈ (thRun [.start true, .start true] new).live, i ∈ [0, 1] := by decide

/-- **C122.** `uecho_thread_isrunning` answers yes just when the last thing the application did with the object was to start it, or to start it again,
and the operating system made a thread. -/
theorem C122_is_running (es : List ThEv) : isRunning (thRun es new) = true ↔
    ∃ (before : List ThEv) (e : ThEv) (is : List Nat), es = before ++ e :: is.map .ask ∧ (e = .start true ∨ e = .restart true) := by
  have app : ∀ (es : List ThEv) (e : ThEv), thRun (es ++ [e]) new = thStep e (thRun es new) := by
    intro es e; simp [thRun, List.foldl_append]
  suffices key : ∀ (n : Nat) (es : List ThEv), es.length = n → (isRunning (thRun es new) = true ↔
      ∃ (before : List ThEv) (e : ThEv) (is : List Nat), es = before ++ e :: is.map .ask ∧ (e = .start true ∨ e = .restart true)) from key _ es rfl
  intro n
  induction n with
  | zero =>
    intro es hn
    obtain rfl := List.length_eq_zero_iff.1 hn
    refine ⟨fun h => absurd h (by decide), fun ⟨b, e, is, h, _⟩ => ?_⟩
    simp at h
  | succ n ih =>
    intro es hn
    rcases List.eq_nil_or_concat es with rfl | ⟨fs, e, rfl⟩
    · simp at hn
    rw [List.concat_eq_append] at hn ⊢
    have hf : fs.length = n := by simpa using hn
    have last : ∀ {b : List ThEv} {x : ThEv} {is : List Nat}, fs ++ [e] = b ++ x :: is.map .ask → (x = .start true ∨ x = .restart true) →
        (e = x ∧ is = []) ∨ ∃ i js, is = js ++ [i] ∧ e = .ask i ∧ fs = b ++ x :: js.map .ask := by
      intro b x is h hx
      rcases List.eq_nil_or_concat is with rfl | ⟨js, i, rfl⟩
      · left
        have := List.append_inj' h rfl
        exact ⟨by simpa using this.2, rfl⟩
      · right
        refine ⟨i, js, List.concat_eq_append, ?_⟩
        rw [List.concat_eq_append, List.map_append, ← List.cons_append, ← List.append_assoc] at h
        have := List.append_inj' h rfl
        exact ⟨by simpa using this.2, this.1⟩
    rw [app]
    cases e with
    | start ok =>
      cases ok with
      | true => exact ⟨fun _ => ⟨fs, .start true, [], rfl, .inl rfl⟩, fun _ => rfl⟩
      | false =>
        refine ⟨fun h => absurd h (by simp [thStep, start, isRunning]), fun ⟨b, x, is, h, hx⟩ => ?_⟩
        rcases last h hx with ⟨h1, _⟩ | ⟨_, _, _, h1, _⟩
        · subst h1; rcases hx with h | h <;> cases h
        · cases h1
    | restart ok =>
      cases ok with
      | true => exact ⟨fun _ => ⟨fs, .restart true, [], rfl, .inr rfl⟩, fun _ => rfl⟩
      | false =>
        refine ⟨fun h => absurd h (by simp [thStep, restart, start, isRunning]), fun ⟨b, x, is, h, hx⟩ => ?_⟩
        rcases last h hx with ⟨h1, _⟩ | ⟨_, _, _, h1, _⟩
        · subst h1; rcases hx with h | h <;> cases h
        · cases h1
    | stop =>
      refine ⟨fun h => ?_, fun ⟨b, x, is, h, hx⟩ => ?_⟩
      · rw [isRunning, thStep, (stop_keeps _).1] at h; cases h
      rcases last h hx with ⟨h1, _⟩ | ⟨_, _, _, h1, _⟩
      · subst h1; rcases hx with h | h <;> cases h
      · cases h1
    | ask i =>
      have e1 : isRunning (thStep (.ask i) (thRun fs new)) = isRunning (thRun fs new) := by
        simp only [thStep, ask, isRunning]; split <;> rfl
      rw [e1, ih fs hf]
      refine ⟨fun ⟨b, x, is, h, hx⟩ => ⟨b, x, is ++ [i], by simp [h], hx⟩, fun ⟨b, x, is, h, hx⟩ => ?_⟩
      rcases last h hx with ⟨h1, _⟩ | ⟨j, js, _, _, h2⟩
      · subst h1; rcases hx with h | h <;> cases h
      · exact ⟨b, x, js, h2, hx⟩

example : isRunning (thRun [.start true, .stop, .restart true, .ask 0] new) = true ∧ isRunning (thRun [.start true, .start false] new) = false := by decide

/-- **C122, partial** (the object is started only when no action runs). Never do two threads run the action. -/
theorem C122_one_action_partial (es : List ThEv) (h : StartsIdle es new) : (thRun es new).live.length ≤ 1 := by
  have key : ∀ (es : List ThEv) (t : Th), t.live.length ≤ 1 → StartsIdle es t → (thRun es t).live.length ≤ 1 := by
    intro es
    induction es with
    | nil => intro t h _; exact h
    | cons e es ih =>
      intro t ht hs
      refine ih (thStep e t) ?_ hs.2
      cases e with
      | start o =>
        have : t.live = [] := hs.1
        cases o <;> simp [thStep, start, this]
      | stop => rw [thStep, (stop_keeps t).2]; exact ht
      | restart o =>
        have : t.live = [] := hs.1
        cases o <;> simp [thStep, restart, start, (stop_keeps t).2, this]
      | ask j =>
        simp only [thStep, ask]
        split
        · exact ht
        · exact Nat.le_trans (List.length_filter_le _ _) ht
  exact key es new (by simp [new]) h

example : StartsIdle [.start true, .ask 0, .stop, .ask 0, .start true] new := by simp [StartsIdle, thStep, start, stop, ask, new]

/-- **C122**, violated. A restart can leave two threads that run the action, and as long as nobody stops them both go on: the old one did not
look between the stop and the start. -/
theorem C122_restart_violated (is : List Nat) : (thRun ([.start true, .restart true] ++ is.map .ask) new).live = [1, 0] := by
  have key : ∀ (is : List Nat) (t : Th), t.runnable = true → (thRun (is.map .ask) t).live = t.live := by
    intro is
    induction is with
    | nil => intro t _; rfl
    | cons j is ih =>
      intro t h
      have e : ask j t = t := by simp [ask, h]
      show (thRun (is.map .ask) (ask j t)).live = _
      rw [e]
      exact ih t h
  show (thRun (is.map .ask) ⟨true, [1, 0], 2⟩).live = _
  exact key is _ rfl

/-- **C122**, violated. Starting a list of threads succeeds even if the operating system makes none of them. -/
theorem C122_list_violated (ts : List Th) : (listStart (ts.map fun t => (false, t))).1 = true ∧
    ∀ t ∈ (listStart (ts.map fun t => (false, t))).2, isRunning t = false := by
  refine ⟨rfl, fun t ht => ?_⟩
  simp only [listStart, List.map_map, List.mem_map] at ht
  obtain ⟨u, _, rfl⟩ := ht
  rfl

/-- **C122, partial** (the result of starting aside). Starting a list starts each thread for which the operating system makes one; stopping it
stops all and says so. -/
theorem C122_list_partial (l : List (Bool × Th)) : (listStart l).2.map isRunning = l.map (·.1) ∧
    (listStop (listStart l).2).2.map isRunning = (l.map fun _ => false) ∧ (listStop (listStart l).2).1 = true := by
  refine ⟨?_, ?_, rfl⟩
  · simp only [listStart, List.map_map]
    apply List.map_congr_left
    rintro ⟨ok, t⟩ _
    cases ok <;> rfl
  · simp only [listStop, listStart, List.map_map]
    apply List.map_congr_left
    rintro ⟨ok, t⟩ _
    simpa [isRunning] using (stop_keeps _).1

example : (listStart [(true, new), (false, new)]).2.map isRunning = [true, false] := by decide

end Uecho.Props
