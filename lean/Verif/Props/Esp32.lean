import Verif.Lemmas.Esp32
import Verif.Props.CList
/-! # C153: stopping threads on ESP32 -/
namespace Uecho.Props
open Uecho Uecho.Spec Uecho.Lemmas Uecho.CList

/-- **C153, partial** (no action ends before it is stopped). Whatever the application does, all is defined. A start tells whether an action runs now that did
not run before, and so does `uecho_thread_isrunning`; a stop succeeds, and the action started last does not run any more. -/
theorem C153_defined_partial (es : List EspEv) (h : NoFailure es) : ∃ t, espRun es Esp32.new = .ok t ∧
    (∀ ok, let r := Esp32.start ok t; (r.1 = true ↔ ∃ i ∈ r.2.live, i ∉ t.live) ∧ Esp32.isRunning r.2 = r.1 ∧ ∀ i ∈ t.live, i ∈ r.2.live) ∧
    ∃ t', Esp32.stop t = .ok (true, t') ∧ Esp32.isRunning t' = false ∧ (∀ i ∈ t'.live, i ∈ t.live) ∧
      (Esp32.isRunning t = true → ∃ i ∈ t.live, i ∉ t'.live ∧ t.task = some i) := by
  obtain ⟨t, e, k⟩ := espOk_run h espOk_new
  refine ⟨t, e, fun ok => ?_, ?_⟩
  · cases ok with
    | false => exact ⟨⟨fun h => absurd h (by simp [Esp32.start]), fun ⟨i, h1, h2⟩ => absurd (by simpa [Esp32.start] using h1) h2⟩, rfl, fun i hi => by simpa [Esp32.start] using hi⟩
    | true =>
      refine ⟨⟨fun _ => ⟨t.next, by simp [Esp32.start], fun hi => absurd (k.lt _ hi) (Nat.lt_irrefl _)⟩, fun _ => rfl⟩, rfl, fun i hi => by simp [Esp32.start, hi]⟩
  · obtain ⟨t', e1, _, e3, e4, _⟩ := espOk_stop k
    refine ⟨t', e1, e3, fun i hi => ?_, fun hr => ?_⟩
    · rw [e4] at hi
      split at hi
      · exact (List.mem_filter.1 hi).1
      · exact hi
    · have hr : t.runnable = true := hr
      rw [if_pos hr] at e4
      cases ht : t.task with
      | none => exact absurd ht (k.hasTask hr)
      | some i => exact ⟨i, k.handle i hr ht, by rw [e4, ht]; simp, rfl⟩

example : NoFailure [.start true, .stop, .restart true, .ask 1, .start false] := by simp [NoFailure]

/-- **C153, partial** (no action ends before it is stopped, and the object is started only when no action runs, or with a restart). At every time the action
runs just when `uecho_thread_isrunning` says so, once; after a stop it does not run, without having to look. -/
theorem C153_stop_ends_partial (es : List EspEv) (h : NoFailure es) (hs : EspStartsIdle es Esp32.new) : ∃ t, espRun es Esp32.new = .ok t ∧
    t.live.length = (if Esp32.isRunning t then 1 else 0) ∧ ∃ t', Esp32.stop t = .ok (true, t') ∧ t'.live = [] := by
  obtain ⟨t, e, k⟩ := espOk_run h espOk_new
  have k1 : EspOne t := espOne_run h (.inl ⟨rfl, rfl⟩) hs e
  refine ⟨t, e, ?_, ?_⟩
  · rcases k1 with ⟨h1, h2⟩ | ⟨i, h1, h2, h3⟩
    · simp [Esp32.isRunning, h1, h2]
    · simp [Esp32.isRunning, h1, h3]
  · obtain ⟨t', e1, _⟩ := espOk_stop k
    exact ⟨t', e1, (espOne_stop k1 e1).2⟩

example : NoFailure [.start true, .restart true, .stop, .start true] ∧ EspStartsIdle [.start true, .restart true, .stop, .start true] Esp32.new := by
  refine ⟨by simp [NoFailure], ?_⟩
  simp [EspStartsIdle, espStep, Esp32.new, Esp32.start, Esp32.stop, Esp32.restart, Esp32.taskDelete]

/-- **C153**, violated. If the action of a running thread ends by itself, as the receivers do when their socket fails or is closed, `uecho_thread_isrunning` goes
on saying that it runs, and a stop is undefined: it deletes a task that has ended. -/
theorem C153_ended_violated (es : List EspEv) (h : NoFailure es) : ∃ t, espRun es Esp32.new = .ok t ∧ (Esp32.isRunning t = true →
    ∃ i t', i ∈ t.live ∧ espRun (es ++ [.fails i]) Esp32.new = .ok t' ∧ i ∉ t'.live ∧ Esp32.isRunning t' = true ∧ Esp32.stop t' = .ub) := by
  obtain ⟨t, e, k⟩ := espOk_run h espOk_new
  refine ⟨t, e, fun hr => ?_⟩
  have hr : t.runnable = true := hr
  cases ht : t.task with
  | none => exact absurd ht (k.hasTask hr)
  | some i =>
    have app : ∀ (es : List EspEv) (u v : Esp32.Th), espRun es u = .ok v → espRun (es ++ [.fails i]) u = .ok (Esp32.finish i v) := by
      intro es
      induction es with
      | nil => intro u v huv; rw [← Res.ok.inj huv]; rfl
      | cons a es ih =>
        intro u v huv
        simp only [espRun, List.cons_append, Res.bind_eq_ok] at huv ⊢
        obtain ⟨w, w1, w2⟩ := huv
        exact ⟨w, w1, ih w v w2⟩
    refine ⟨i, _, k.handle i hr ht, app es _ _ e, by simp [Esp32.finish], hr, ?_⟩
    simp [Esp32.stop, Esp32.finish, hr, ht, Esp32.taskDelete]

example : ∃ t, espRun [.start true, .stop, .start true] Esp32.new = .ok t ∧ Esp32.isRunning t = true := ⟨_, rfl, rfl⟩

/-- **C153**, violated. A thread that is started while it runs has two actions, and however often it is stopped the first one goes on. -/
theorem C153_twice_violated (n : Nat) : ∃ t, espRun ([.start true, .start true] ++ List.replicate (n + 1) .stop) Esp32.new = .ok t ∧
    t.live = [0] ∧ Esp32.isRunning t = false := by
  have key : ∀ n, espRun (List.replicate n .stop) ⟨false, none, [0], 2⟩ = .ok ⟨false, none, [0], 2⟩ := by
    intro n
    induction n with
    | zero => rfl
    | succ n ih => rw [List.replicate_succ]; exact ih
  refine ⟨⟨false, none, [0], 2⟩, ?_, rfl, rfl⟩
  rw [List.replicate_succ]
  exact key n

/-- The list that is left when a task is deleted while it adds `x` to the list `p`, and other tasks add `ys` later. -/
theorem cut_spec {hs : List (SeqOp × SeqObs)} {w : Seqs} (H : SeqHistory hs w) (junk : Cell) {p x : Nat} {l ys : List Nat} (hp : w.lists p = some l)
    (hx : w.loose x = true) (hy : ∀ y ∈ ys, w.loose y = true) (hn : (x :: ys).Nodup) (n : Nat) :
    ∃ h h1 h2 k0, (∀ k, k0 ≤ k → runOps k junk (fun _ => none) (hs.map (·.1)) = .ok (some (h, hs.map (·.2)))) ∧
      Esp32.addCut n h p x = .ok h1 ∧ addAll p ys h1 = .ok h2 ∧
      ∀ k, (l ++ x :: ys).length ≤ k → iterate k h2 p = .ok (some (if n ≤ 2 then l ++ ys else if n = 3 then l else l ++ x :: ys)) := by
  obtain ⟨h, k0, g, r⟩ := C56_list_is_sequence H junk
  have hr := r.ring p l hp
  have out : ∀ u, w.loose u = true → u ∉ p :: l ∧ fl h u = some false := by
    intro u hu
    refine ⟨fun hm => ?_, by unfold fl; rw [r.loose u hu]; rfl⟩
    rw [r.apart p u ⟨l, hp, hm⟩] at hu
    cases hu
  obtain ⟨h1, a1, a2, a3, a4, a5⟩ := addCut_ring hr (out x hx).1 (out x hx).2 n
  have hys : ∀ y ∈ ys, y ∉ p :: l ∧ fl h1 y = some false := fun y hh => ⟨(out y (hy y hh)).1, by rw [a2]; exact (out y (hy y hh)).2⟩
  rw [List.nodup_cons] at hn
  have ring : ∀ {h2 : Mem} {m : List Nat} {k : Nat}, IsRing h2 p m → m.length ≤ k → iterate k h2 p = .ok (some m) :=
    fun q hk => iterate_fwd q.head (fwd_of_links q.links) q.elem hk
  by_cases n2 : n ≤ 2
  · obtain ⟨h2, b1, b2⟩ := addAll_ring (a3 n2) hn.2 hys
    refine ⟨h, h1, h2, k0, g, a1, b1, fun k hk => ?_⟩
    rw [if_pos n2]
    exact ring b2 (by simp at hk ⊢; omega)
  · by_cases n3 : n = 3
    · obtain ⟨h2, e', b1, b2⟩ := torn_addAll (a4 n3) hn.2 hn.1 hys
      refine ⟨h, h1, h2, k0, g, a1, b1, fun k hk => ?_⟩
      rw [if_neg n2, if_pos n3]
      exact iterate_fwd b2.head b2.fwd b2.elem (by simp at hk; omega)
    · obtain ⟨h2, b1, b2⟩ := addAll_ring (a5 (by omega)) hn.2 (fun y hh => by
        refine ⟨?_, (hys y hh).2⟩
        have := (hys y hh).1
        simp only [List.mem_cons, not_or, List.mem_append, List.not_mem_nil, or_false] at this ⊢
        exact ⟨this.1, this.2, by rintro rfl; exact hn.1 hh⟩)
      refine ⟨h, h1, h2, k0, g, a1, b1, fun k hk => ?_⟩
      rw [if_neg n2, if_neg n3]
      have := ring b2 (k := k) (by simp at hk ⊢; omega)
      simpa using this

/-- **C153, partial** (the deletion does not fall between the last two assignments). A task that is deleted while it adds an element leaves a list that is
in order: the element is in it or it is not, and elements that others add later are. -/
theorem C153_cut_partial {hs : List (SeqOp × SeqObs)} {w : Seqs} (H : SeqHistory hs w) (junk : Cell) {p x : Nat} {l ys : List Nat} (hp : w.lists p = some l)
    (hx : w.loose x = true) (hy : ∀ y ∈ ys, w.loose y = true) (hn : (x :: ys).Nodup) (n : Nat) (h3 : n ≠ 3) :
    ∃ h h1 h2 k0, (∀ k, k0 ≤ k → runOps k junk (fun _ => none) (hs.map (·.1)) = .ok (some (h, hs.map (·.2)))) ∧
      Esp32.addCut n h p x = .ok h1 ∧ addAll p ys h1 = .ok h2 ∧
      ∃ m, (m = l ++ ys ∨ m = l ++ x :: ys) ∧ ∀ k, m.length ≤ k → iterate (k + 1) h2 p = .ok (some m) := by
  obtain ⟨h, h1, h2, k0, a, b, c, d⟩ := cut_spec H junk hp hx hy hn n
  refine ⟨h, h1, h2, k0, a, b, c, _, ?_, fun k hk => d (k + 1) ?_⟩
  · by_cases n2 : n ≤ 2
    · rw [if_pos n2]; exact .inl rfl
    · rw [if_neg n2, if_neg h3]; exact .inr rfl
  · by_cases n2 : n ≤ 2
    · rw [if_pos n2] at hk; simp at hk ⊢; omega
    · rw [if_neg n2, if_neg h3] at hk; simp at hk ⊢; omega

/-- **C153**, violated. If a task is deleted between the last two assignments of an addition, the list keeps the elements it had, and everything that is added to
it later, by whomever, is lost although the addition succeeds. -/
theorem C153_cut_violated {hs : List (SeqOp × SeqObs)} {w : Seqs} (H : SeqHistory hs w) (junk : Cell) {p x : Nat} {l ys : List Nat} (hp : w.lists p = some l)
    (hx : w.loose x = true) (hy : ∀ y ∈ ys, w.loose y = true) (hn : (x :: ys).Nodup) :
    ∃ h h1 h2 k0, (∀ k, k0 ≤ k → runOps k junk (fun _ => none) (hs.map (·.1)) = .ok (some (h, hs.map (·.2)))) ∧
      Esp32.addCut 3 h p x = .ok h1 ∧ addAll p ys h1 = .ok h2 ∧ ∃ k1, ∀ k, k1 ≤ k → iterate k h2 p = .ok (some l) := by
  obtain ⟨h, h1, h2, k0, a, b, c, d⟩ := cut_spec H junk hp hx hy hn 3
  exact ⟨h, h1, h2, k0, a, b, c, _, d⟩

/-- A list with one element and three elements outside. -/
example : ∃ hs w, SeqHistory hs w ∧ w.lists 10 = some [1] ∧ w.loose 2 = true ∧ (∀ y ∈ [3, 4], w.loose y = true) ∧ [2, 3, 4].Nodup := by
  have h1 := SeqHistory.nil.snoc (.newElement (x := 1) (by simp [Seqs.Fresh, Seqs.setList]))
  have h2 := h1.snoc (.newElement (x := 2) (by simp [Seqs.Fresh, Seqs.setList, Seqs.setLoose]))
  have h3 := h2.snoc (.newElement (x := 3) (by simp [Seqs.Fresh, Seqs.setList, Seqs.setLoose]))
  have h4 := h3.snoc (.newElement (x := 4) (by simp [Seqs.Fresh, Seqs.setList, Seqs.setLoose]))
  have h5 := h4.snoc (.newList (p := 10) (by simp [Seqs.Fresh, Seqs.setList, Seqs.setLoose]))
  exact ⟨_, _, h5.snoc (.add (p := 10) (x := 1) (l := []) rfl rfl), rfl, rfl, by intro y hy; simp at hy; rcases hy with rfl | rfl <;> rfl, by decide⟩

end Uecho.Props
