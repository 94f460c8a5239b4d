import Verif.Model.Server
/-!
# C136 Receivers started, stopped and started again

The full statement: starting a receiver, or a list of them, makes it receive; stopping makes it not receive; a list says it is
running iff one of its receivers is. It is violated where a running receiver is started again (`C136_restart_violated`), and
by what a list says after it was stopped (`C136_stopped_violated`).
-/
namespace Uecho.Props
open Uecho Uecho.Server

/-- C136 (partial: the receiver is not running): starting an opened receiver succeeds iff the operating system grants a thread. Then it
is running, on the same socket. If the thread is refused the receiver is closed; a receiver that is not opened stays as it was. -/
theorem C136_start_partial (os : Os) (k : Kind) (s : Sub) (h : subRunning s = false) :
    ((startSub os k s).2 = true ↔ ∃ a, s.socket = some a ∧ os.threadOk k a = true) ∧
    ((startSub os k s).2 = true → subRunning (startSub os k s).1 = true ∧ (startSub os k s).1.socket = s.socket) ∧
    ((startSub os k s).2 = false → subRunning (startSub os k s).1 = false ∧ (startSub os k s).1.socket = none) ∧
    (startSub os k s).1.observers = s.observers := by
  obtain ⟨sock, th, ob⟩ := s
  have h' : th = false := h
  subst h'
  cases sock with
  | none => simp [startSub, stopSub, subRunning]
  | some a =>
    by_cases ht : os.threadOk k a = true
    · simp [startSub, stopSub, subRunning, ht]
    · simp [startSub, stopSub, subRunning, ht, closeSub]

/-- C136: a receiver that was stopped is not running. If it was running its socket is closed, otherwise nothing changes: a receiver
that was opened and never started stays open. -/
theorem C136_stop (s : Sub) :
    subRunning (stopSub s) = false ∧ (subRunning s = true → (stopSub s).socket = none) ∧
    (subRunning s = false → stopSub s = s) ∧ (stopSub s).observers = s.observers ∧ stopSub (stopSub s) = stopSub s := by
  obtain ⟨sock, th, ob⟩ := s
  cases th <;> simp [stopSub, subRunning, closeSub]

/-- C136 is violated: starting a running receiver closes its socket, reports failure and leaves it not running, whatever the operating
system grants. -/
theorem C136_restart_violated (os : Os) (k : Kind) (s : Sub) (h : subRunning s = true) :
    (startSub os k s).2 = false ∧ (startSub os k s).1.socket = none ∧ subRunning (startSub os k s).1 = false := by
  obtain ⟨sock, th, ob⟩ := s
  have h' : th = true := h
  subst h'
  simp [startSub, stopSub, subRunning, closeSub]

/-- C136 is violated: starting a list of running receivers again fails unless the list is empty, closes all of them and binds no
address; and yet the list says that it is running. Stopping a list leaves none of its receivers running, and a list with at least one
receiver says that it is running. -/
theorem C136_stopped_violated (os : Os) (k : Kind) (l : List Sub) (hne : l ≠ []) :
    ((∀ s ∈ l, subRunning s = true) → (startList os k l).2 = false ∧ (∀ s ∈ (startList os k l).1, subRunning s = false) ∧
      (∀ a, listBound (startList os k l).1 a = false) ∧ listRunning (startList os k l).1 = true) ∧
    (∀ s ∈ stopList l, subRunning s = false) ∧ listRunning (stopList l) = true := by
  have hpos : 0 < l.length := List.length_pos_iff.mpr hne
  refine ⟨fun hall => ?_, ?_, ?_⟩
  · have key : ∀ s ∈ l, startSub os k (stopSub s) = (stopSub s, false) ∧ (stopSub s).socket = none := by
      intro s hs
      obtain ⟨sock, th, ob⟩ := s
      have h' : th = true := hall _ hs
      subst h'
      simp [startSub, stopSub, closeSub]
    have e : (startList os k l).1 = stopList l := by
      simp only [startList, stopList, List.map_map]
      exact List.map_congr_left fun s hs => by simp [key s hs]
    refine ⟨?_, ?_, ?_, ?_⟩
    · obtain ⟨s, l', rfl⟩ := List.exists_cons_of_ne_nil hne
      simp [startList, stopList, (key s (by simp)).1]
    · rw [e]
      intro s hs
      obtain ⟨t, _, rfl⟩ := List.mem_map.mp hs
      exact (C136_stop t).1
    · intro a
      rw [e]
      unfold listBound stopList
      rw [List.any_eq_false]
      intro s hs
      obtain ⟨t, ht, rfl⟩ := List.mem_map.mp hs
      simp [(key t ht).2]
    · rw [e]
      simp [listRunning, stopList, hpos]
  · intro s hs
    obtain ⟨t, _, rfl⟩ := List.mem_map.mp hs
    exact (C136_stop t).1
  · simp [listRunning, stopList, hpos]

/-- C136: a list of receivers that are opened and not running starts iff every thread is granted; then all of them run, on their
addresses, and the list is bound to exactly these. -/
theorem C136_start_list_partial (os : Os) (k : Kind) (l : List Sub) (hs : ∀ s ∈ l, subRunning s = false) :
    ((startList os k l).2 = true ↔ ∀ s ∈ l, ∃ a, s.socket = some a ∧ os.threadOk k a = true) ∧
    ((startList os k l).2 = true → (∀ s ∈ (startList os k l).1, subRunning s = true) ∧
      (startList os k l).1.map (·.socket) = l.map (·.socket) ∧
      ∀ a, listBound (startList os k l).1 a = true ↔ ∃ s ∈ l, s.socket = some a) := by
  have e : stopList l = l := by
    unfold stopList
    rw [List.map_congr_left (g := id) fun s h => (C136_stop s).2.2.1 (hs s h), List.map_id]
  have e2 : (startList os k l).2 = true ↔ ∀ s ∈ l, (startSub os k s).2 = true := by
    simp [startList, e, List.all_eq_true]
  have e1 : (startList os k l).1 = l.map fun s => (startSub os k s).1 := by
    simp [startList, e]
  refine ⟨?_, fun h => ?_⟩
  · rw [e2]
    exact ⟨fun h s hm => ((C136_start_partial os k s (hs s hm)).1).mp (h s hm),
      fun h s hm => ((C136_start_partial os k s (hs s hm)).1).mpr (h s hm)⟩
  · have hst : ∀ s ∈ l, subRunning (startSub os k s).1 = true ∧ (startSub os k s).1.socket = s.socket := fun s hm =>
      (C136_start_partial os k s (hs s hm)).2.1 (e2.mp h s hm)
    refine ⟨?_, ?_, fun a => ?_⟩
    · rw [e1]
      intro s hm
      obtain ⟨t, ht, rfl⟩ := List.mem_map.mp hm
      exact (hst t ht).1
    · rw [e1, List.map_map]
      exact List.map_congr_left fun s hm => (hst s hm).2
    · rw [e1]
      unfold listBound
      simp only [List.any_map, List.any_eq_true, Function.comp, beq_iff_eq]
      constructor
      · rintro ⟨s, hm, h'⟩
        exact ⟨s, hm, by rw [← (hst s hm).2]; exact h'⟩
      · rintro ⟨s, hm, h'⟩
        exact ⟨s, hm, by rw [(hst s hm).2]; exact h'⟩

/-- Two opened receivers; both threads are granted, and then the list is started again. -/
example : ∃ (os : Os) (l : List Sub), (∀ s ∈ l, subRunning s = false) ∧ (startList os .udp l).2 = true ∧ l.length = 2 ∧
    (∀ s ∈ (startList os .udp l).1, subRunning s = true) ∧ (startList os .udp (startList os .udp l).1).2 = false ∧
    listRunning (startList os .udp (startList os .udp l).1).1 = true :=
  ⟨⟨[], fun _ _ => true, fun _ _ => true⟩, [⟨some "192.0.2.1", false, []⟩, ⟨some "192.0.2.2", false, []⟩], by decide, rfl, rfl,
    by decide, rfl, rfl⟩

end Uecho.Props
