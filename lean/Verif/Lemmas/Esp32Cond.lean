import Verif.Spec.Esp32Cond
set_option linter.unusedSimpArgs false
/-!
# Lemmas: executions with a mutex and a condition variable on ESP32
-/
namespace Uecho.Lemmas
open Uecho Uecho.Spec Uecho.Esp32Cond

/-- What the log says about a task. -/
def CondAt (log : List Ev) (t : Nat) : Pc → Prop
  | .out | .inside => True
  | .unlocked _ | .blocked _ => ∃ a c, WaitsSince log t a c ∧ Ev.woken t ∉ c ∧ Ev.timesOut t ∉ c
  | .relock true => ∃ a c, WaitsSince log t a c ∧ Ev.woken t ∈ c ∧ Ev.timesOut t ∉ c
  | .relock false => ∃ a c, WaitsSince log t a c ∧ Ev.woken t ∉ c ∧ Ev.timesOut t ∈ c

/-- Every wait that returned says what happened. -/
def ReturnsOk (log : List Ev) : Prop := ∀ l1 t b l2, log = l1 ++ .returns t b :: l2 →
  ∃ a c, WaitsSince l1 t a c ∧ (if b then Ev.woken t ∈ c ∧ Ev.timesOut t ∉ c else Ev.woken t ∉ c ∧ Ev.timesOut t ∈ c)

structure CondInv (s : Sys) : Prop where
  own : ∀ t, s.pc t = .inside ↔ s.owner = some t
  que : ∀ t, t ∈ s.queue ↔ ∃ f, s.pc t = .blocked f
  nd : s.queue.Nodup
  none : s.queue ≠ [] → s.given = false
  at_ : ∀ t, CondAt s.log t (s.pc t)
  cnt : signals s.log = wakes s.log + (if s.given then 1 else 0)
  pre : ∀ l1 l2, s.log = l1 ++ l2 → wakes l1 ≤ signals l1 ∧ signals l1 ≤ wakes l1 + 1
  ret : ReturnsOk s.log

/-- The task an event is about. -/
def evTask : Ev → Option Nat
  | .waits t | .woken t | .timesOut t | .returns t _ => some t
  | .signal _ => none

theorem condAt_other {log : List Ev} {t : Nat} {p : Pc} (h : CondAt log t p) {e : Ev} (he : evTask e ≠ some t) : CondAt (log ++ [e]) t p := by
  have k : ∀ {a c}, WaitsSince log t a c → WaitsSince (log ++ [e]) t a (c ++ [e]) := by
    rintro a c ⟨h1, h2, h3⟩
    refine ⟨by simp [h1], fun b hb => ?_, fun hb => ?_⟩ <;> rcases List.mem_append.1 hb with hb | hb
    · exact h2 b hb
    · simp only [List.mem_singleton] at hb; subst hb; exact he rfl
    · exact h3 hb
    · simp only [List.mem_singleton] at hb; subst hb; exact he rfl
  have w : ∀ {c : List Ev}, Ev.woken t ∉ c → Ev.woken t ∉ c ++ [e] := by
    intro c hc hm
    rcases List.mem_append.1 hm with hm | hm
    · exact hc hm
    · simp only [List.mem_singleton] at hm; subst hm; exact he rfl
  have x : ∀ {c : List Ev}, Ev.timesOut t ∉ c → Ev.timesOut t ∉ c ++ [e] := by
    intro c hc hm
    rcases List.mem_append.1 hm with hm | hm
    · exact hc hm
    · simp only [List.mem_singleton] at hm; subst hm; exact he rfl
  match p, h with
  | .out, _ => trivial
  | .inside, _ => trivial
  | .unlocked _, ⟨a, c, h1, h2, h3⟩ => exact ⟨a, _, k h1, w h2, x h3⟩
  | .blocked _, ⟨a, c, h1, h2, h3⟩ => exact ⟨a, _, k h1, w h2, x h3⟩
  | .relock true, ⟨a, c, h1, h2, h3⟩ => exact ⟨a, _, k h1, List.mem_append_left _ h2, x h3⟩
  | .relock false, ⟨a, c, h1, h2, h3⟩ => exact ⟨a, _, k h1, w h2, List.mem_append_left _ h3⟩

theorem returnsOk_other {log : List Ev} (h : ReturnsOk log) {e : Ev} (he : ∀ t b, e ≠ .returns t b) : ReturnsOk (log ++ [e]) := by
  intro l1 t b l2 hl
  rcases List.eq_nil_or_concat l2 with rfl | ⟨l3, x, rfl⟩
  · have := (List.append_inj' hl rfl).2
    simp only [List.cons.injEq, and_true] at this
    exact absurd this (he t b)
  · rw [List.concat_eq_append, ← List.cons_append, ← List.append_assoc] at hl
    exact h l1 t b l3 (List.append_inj' hl rfl).1

theorem returnsOk_ret {log : List Ev} (h : ReturnsOk log) {t : Nat} {b : Bool} (hc : CondAt log t (.relock b)) : ReturnsOk (log ++ [.returns t b]) := by
  intro l1 u d l2 hl
  rcases List.eq_nil_or_concat l2 with rfl | ⟨l3, x, rfl⟩
  · have := List.append_inj' hl rfl
    simp only [List.cons.injEq, and_true, Ev.returns.injEq] at this
    obtain ⟨rfl, rfl, rfl⟩ := this
    cases b with
    | true => obtain ⟨a, c, h1, h2, h3⟩ := hc; exact ⟨a, c, h1, by simp [h2, h3]⟩
    | false => obtain ⟨a, c, h1, h2, h3⟩ := hc; exact ⟨a, c, h1, by simp [h2, h3]⟩
  · rw [List.concat_eq_append, ← List.cons_append, ← List.append_assoc] at hl
    exact h l1 u d l3 (List.append_inj' hl rfl).1

theorem pre_snoc {log : List Ev} (h : ∀ l1 l2, log = l1 ++ l2 → wakes l1 ≤ signals l1 ∧ signals l1 ≤ wakes l1 + 1) {e : Ev}
    (he : wakes (log ++ [e]) ≤ signals (log ++ [e]) ∧ signals (log ++ [e]) ≤ wakes (log ++ [e]) + 1) :
    ∀ l1 l2, log ++ [e] = l1 ++ l2 → wakes l1 ≤ signals l1 ∧ signals l1 ≤ wakes l1 + 1 := by
  intro l1 l2 hl
  rcases List.eq_nil_or_concat l2 with rfl | ⟨l3, x, rfl⟩
  · rw [List.append_nil] at hl; rw [← hl]; exact he
  · rw [List.concat_eq_append, ← List.append_assoc] at hl
    exact h l1 l3 (List.append_inj' hl rfl).1

theorem signals_snoc (log : List Ev) (e : Ev) : signals (log ++ [e]) = signals log + (if e = .signal true then 1 else 0) := by
  simp [signals, List.count_append, List.count_singleton]
theorem wakes_snoc (log : List Ev) (e : Ev) : wakes (log ++ [e]) = wakes log + (match e with | .woken _ => 1 | _ => 0) := by
  cases e <;> simp [wakes, List.countP_append, List.countP_cons]

theorem condInv_init : CondInv .init where
  own := by simp [Sys.init]
  que := by simp [Sys.init]
  nd := by simp [Sys.init]
  none := by simp [Sys.init]
  at_ := fun _ => trivial
  cnt := rfl
  pre := by
    intro l1 l2 h
    have : l1 = [] := by
      have h : ([] : List Ev) = l1 ++ l2 := h
      simp at h; exact h.1
    subst this; decide
  ret := by
    intro l1 t b l2 h
    have h : ([] : List Ev) = l1 ++ .returns t b :: l2 := h
    simp at h

theorem pc_goto (s : Sys) (t u : Nat) (x : Pc) : (s.goto t x).pc u = if u = t then x else s.pc u := rfl

/-- An event about `t` alone, which changes neither count. -/
theorem at_one {s : Sys} (h : CondInv s) {t : Nat} {x : Pc} {e : Ev} (he : evTask e = some t) (hx : CondAt (s.log ++ [e]) t x) :
    ∀ u, CondAt (s.log ++ [e]) u (if u = t then x else s.pc u) := by
  intro u
  by_cases hu : u = t
  · subst hu; rw [if_pos rfl]; exact hx
  · rw [if_neg hu]; exact condAt_other (h.at_ u) (by rw [he]; intro k; exact hu (Option.some.inj k).symm)

theorem condInv_step {s s' : Sys} (h : CondInv s) {l : Label} (k : step s l = .ok (some s')) : CondInv s' := by
  have single : ∀ {t u : Nat}, s.pc t = .inside → s.pc u = .inside → u = t := by
    intro t u ht hu
    have a := (h.own t).1 ht
    have b := (h.own u).1 hu
    rw [a] at b; exact (Option.some.inj b).symm
  cases l with
  | lock t =>
    simp only [step] at k
    cases hp : s.pc t <;> rw [hp] at k <;> cases ho : s.owner <;> rw [ho] at k <;> simp only [Res.ok.injEq, Option.some.injEq, reduceCtorEq] at k
    subst k
    refine ⟨fun u => ?_, fun u => ?_, h.nd, h.none, fun u => ?_, h.cnt, h.pre, h.ret⟩
    · simp only [pc_goto]
      by_cases hu : u = t
      · simp [hu, Sys.goto]
      · simp only [if_neg hu, Sys.goto, Option.some.injEq]
        rw [h.own u, ho]
        simp [Ne.symm hu]
    · simp only [pc_goto]
      by_cases hu : u = t
      · subst hu
        simp only [if_pos, reduceCtorEq, exists_false, iff_false]
        intro hq; obtain ⟨f, hf⟩ := (h.que u).1 hq; rw [hp] at hf; cases hf
      · simp only [if_neg hu]; exact h.que u
    · simp only [pc_goto]
      by_cases hu : u = t
      · simp only [hu, if_pos]; trivial
      · simp only [if_neg hu]; exact h.at_ u
  | unlock t =>
    simp only [step] at k
    cases hp : s.pc t <;> rw [hp] at k <;> simp only [Res.ok.injEq, Option.some.injEq, reduceCtorEq] at k
    have ho := (h.own t).1 hp
    rw [if_pos ho] at k
    simp only [Res.ok.injEq, Option.some.injEq] at k
    subst k
    refine ⟨fun u => ?_, fun u => ?_, h.nd, h.none, fun u => ?_, h.cnt, h.pre, h.ret⟩
    · simp only [pc_goto]
      by_cases hu : u = t
      · simp [hu, Sys.goto]
      · simp only [if_neg hu, Sys.goto, reduceCtorEq, iff_false]
        intro hi; exact hu (single hp hi)
    · simp only [pc_goto]
      by_cases hu : u = t
      · subst hu
        simp only [if_pos, reduceCtorEq, exists_false, iff_false]
        intro hq; obtain ⟨f, hf⟩ := (h.que u).1 hq; rw [hp] at hf; cases hf
      · simp only [if_neg hu]; exact h.que u
    · simp only [pc_goto]
      by_cases hu : u = t
      · simp only [hu, if_pos]; trivial
      · simp only [if_neg hu]; exact h.at_ u
  | wait t ms =>
    simp only [step] at k
    cases hp : s.pc t <;> rw [hp] at k <;> simp only [Res.ok.injEq, Option.some.injEq, reduceCtorEq] at k
    have ho := (h.own t).1 hp
    rw [if_pos ho] at k
    simp only [Res.ok.injEq, Option.some.injEq] at k
    subst k
    have hc : signals (s.log ++ [.waits t]) = signals s.log ∧ wakes (s.log ++ [.waits t]) = wakes s.log := by rw [signals_snoc, wakes_snoc]; simp
    refine ⟨fun u => ?_, fun u => ?_, h.nd, h.none, ?_, ?_, pre_snoc h.pre ?_, returnsOk_other h.ret (by simp)⟩
    · simp only [Sys.emit, pc_goto]
      by_cases hu : u = t
      · simp [hu, Sys.goto]
      · simp only [if_neg hu, Sys.goto, reduceCtorEq, iff_false]
        intro hi; exact hu (single hp hi)
    · simp only [Sys.emit, pc_goto]
      by_cases hu : u = t
      · subst hu
        simp only [if_pos, reduceCtorEq, exists_false, iff_false]
        intro hq; obtain ⟨f, hf⟩ := (h.que u).1 hq; rw [hp] at hf; cases hf
      · simp only [if_neg hu]; exact h.que u
    · exact at_one h rfl ⟨s.log, [], ⟨rfl, by simp, by simp⟩, by simp, by simp⟩
    · show signals (s.log ++ [.waits t]) = wakes (s.log ++ [.waits t]) + _
      rw [hc.1, hc.2]; exact h.cnt
    · show wakes (s.log ++ [.waits t]) ≤ _ ∧ _
      rw [hc.1, hc.2]; exact h.pre s.log [] (by simp)
  | take t =>
    simp only [step] at k
    cases hp : s.pc t with
    | unlocked f =>
      rw [hp] at k
      have ho : s.owner ≠ some t := fun a => by rw [(h.own t).2 a] at hp; cases hp
      have hq : t ∉ s.queue := fun a => by obtain ⟨g, hg⟩ := (h.que t).1 a; rw [hp] at hg; cases hg
      have own : ∀ x, x ≠ .inside → ∀ u, (if u = t then x else s.pc u) = .inside ↔ s.owner = some u := by
        intro x hx u
        by_cases hu : u = t
        · subst hu; simp only [if_pos]; exact ⟨fun a => absurd a hx, fun a => absurd a ho⟩
        · simp only [if_neg hu]; exact h.own u
      by_cases hg : s.given = true
      · simp only [hg, if_pos, Res.ok.injEq, Option.some.injEq] at k
        subst k
        have hc : signals (s.log ++ [.woken t]) = signals s.log ∧ wakes (s.log ++ [.woken t]) = wakes s.log + 1 := by rw [signals_snoc, wakes_snoc]; simp
        have hcnt := h.cnt
        rw [hg, if_pos rfl] at hcnt
        refine ⟨own _ (by simp), fun u => ?_, h.nd, fun _ => rfl, ?_, ?_, pre_snoc h.pre ?_, returnsOk_other h.ret (by simp)⟩
        · simp only [Sys.emit, pc_goto]
          by_cases hu : u = t
          · subst hu
            simp only [if_pos, reduceCtorEq, exists_false, iff_false]
            exact hq
          · simp only [if_neg hu]; exact h.que u
        · refine at_one h rfl ?_
          have := h.at_ t
          rw [hp] at this
          obtain ⟨a, c, ⟨h1, h2, h3⟩, h4, h5⟩ := this
          exact ⟨a, c ++ [.woken t], ⟨by simp [h1], by simpa using h2, by simpa using h3⟩, by simp, by simpa using h5⟩
        · show signals (s.log ++ [.woken t]) = wakes (s.log ++ [.woken t]) + 0
          rw [hc.1, hc.2]; omega
        · show wakes (s.log ++ [.woken t]) ≤ _ ∧ _
          rw [hc.1, hc.2]; omega
      · simp only [hg, if_false, Res.ok.injEq, Option.some.injEq, Bool.false_eq_true] at k
        subst k
        refine ⟨own _ (by simp), fun u => ?_, ?_, fun _ => rfl, fun u => ?_, (by have := h.cnt; rw [if_neg hg] at this; simpa [Sys.goto] using this), h.pre, h.ret⟩
        · simp only [Sys.goto, List.mem_append, List.mem_singleton]
          by_cases hu : u = t
          · subst hu; simp
          · simp only [if_neg hu, hu, or_false]; exact h.que u
        · show (s.queue ++ [t]).Nodup
          rw [List.nodup_append]
          exact ⟨h.nd, by simp, fun a ha b hb hab => by simp at hb; subst hb; subst hab; exact hq ha⟩
        · simp only [pc_goto]
          by_cases hu : u = t
          · subst hu; rw [if_pos rfl]; have := h.at_ u; rw [hp] at this; exact this
          · rw [if_neg hu]; exact h.at_ u
    | _ => rw [hp] at k; simp at k
  | timeout t =>
    simp only [step] at k
    cases hp : s.pc t with
    | blocked f =>
      rw [hp] at k
      cases f with
      | true => simp at k
      | false =>
        simp only [Res.ok.injEq, Option.some.injEq] at k
        subst k
        have ho : s.owner ≠ some t := fun a => by rw [(h.own t).2 a] at hp; cases hp
        have hc : signals (s.log ++ [.timesOut t]) = signals s.log ∧ wakes (s.log ++ [.timesOut t]) = wakes s.log := by rw [signals_snoc, wakes_snoc]; simp
        refine ⟨fun u => ?_, fun u => ?_, h.nd.filter _, fun hn => h.none ?_, ?_, ?_, pre_snoc h.pre ?_, returnsOk_other h.ret (by simp)⟩
        · simp only [Sys.emit, pc_goto]
          by_cases hu : u = t
          · subst hu; simp only [if_pos, reduceCtorEq, false_iff]; exact ho
          · simp only [if_neg hu]; exact h.own u
        · simp only [Sys.emit, Sys.goto, List.mem_filter]
          by_cases hu : u = t
          · subst hu; simp
          · simp only [if_neg hu]; rw [← h.que u]; simp [hu]
        · intro e; apply hn; simp [Sys.emit, Sys.goto, e]
        · refine at_one h rfl ?_
          have := h.at_ t
          rw [hp] at this
          obtain ⟨a, c, ⟨h1, h2, h3⟩, h4, h5⟩ := this
          exact ⟨a, c ++ [.timesOut t], ⟨by simp [h1], by simpa using h2, by simpa using h3⟩, by simpa using h4, by simp⟩
        · show signals (s.log ++ [.timesOut t]) = wakes (s.log ++ [.timesOut t]) + _
          rw [hc.1, hc.2]; exact h.cnt
        · show wakes (s.log ++ [.timesOut t]) ≤ _ ∧ _
          rw [hc.1, hc.2]; exact h.pre s.log [] (by simp)
    | _ => rw [hp] at k; simp at k
  | back t =>
    simp only [step] at k
    cases hp : s.pc t with
    | relock b =>
      rw [hp] at k
      cases ho : s.owner with
      | some o => rw [ho] at k; simp at k
      | none =>
        rw [ho] at k
        simp only [Res.ok.injEq, Option.some.injEq] at k
        subst k
        have hc : signals (s.log ++ [.returns t b]) = signals s.log ∧ wakes (s.log ++ [.returns t b]) = wakes s.log := by rw [signals_snoc, wakes_snoc]; simp
        refine ⟨fun u => ?_, fun u => ?_, h.nd, h.none, ?_, ?_, pre_snoc h.pre ?_, returnsOk_ret h.ret (by have := h.at_ t; rw [hp] at this; exact this)⟩
        · simp only [Sys.emit, pc_goto]
          by_cases hu : u = t
          · simp [hu, Sys.goto]
          · simp only [if_neg hu, Sys.goto, Option.some.injEq]
            rw [h.own u, ho]
            simp [Ne.symm hu]
        · simp only [Sys.emit, pc_goto]
          by_cases hu : u = t
          · subst hu
            simp only [if_pos, reduceCtorEq, exists_false, iff_false]
            intro hq; obtain ⟨f, hf⟩ := (h.que u).1 hq; rw [hp] at hf; cases hf
          · simp only [if_neg hu]; exact h.que u
        · exact at_one h (e := .returns t b) rfl trivial
        · show signals (s.log ++ [.returns t b]) = wakes (s.log ++ [.returns t b]) + _
          rw [hc.1, hc.2]; exact h.cnt
        · show wakes (s.log ++ [.returns t b]) ≤ _ ∧ _
          rw [hc.1, hc.2]; exact h.pre s.log [] (by simp)
    | _ => rw [hp] at k; simp at k
  | signal =>
    simp only [step] at k
    cases hq : s.queue with
    | nil =>
      rw [hq] at k
      by_cases hg : s.given = true
      · simp only [hg, if_pos, Res.ok.injEq, Option.some.injEq] at k
        subst k
        have hc : signals (s.log ++ [.signal false]) = signals s.log ∧ wakes (s.log ++ [.signal false]) = wakes s.log := by rw [signals_snoc, wakes_snoc]; simp
        refine ⟨h.own, h.que, h.nd, h.none, fun u => condAt_other (h.at_ u) (by simp [evTask]), ?_, pre_snoc h.pre ?_, returnsOk_other h.ret (by simp)⟩
        · show signals (s.log ++ [.signal false]) = wakes (s.log ++ [.signal false]) + _
          rw [hc.1, hc.2]; exact h.cnt
        · rw [hc.1, hc.2]; exact h.pre s.log [] (by simp)
      · simp only [hg, if_false, Res.ok.injEq, Option.some.injEq, Bool.false_eq_true] at k
        subst k
        have hc : signals (s.log ++ [.signal true]) = signals s.log + 1 ∧ wakes (s.log ++ [.signal true]) = wakes s.log := by rw [signals_snoc, wakes_snoc]; simp
        have hcnt := h.cnt
        rw [if_neg hg] at hcnt
        refine ⟨h.own, (fun u => by have := h.que u; rw [hq] at this; exact this), by simp [Sys.emit], fun hn => absurd rfl hn, fun u => condAt_other (h.at_ u) (by simp [evTask]), ?_, pre_snoc h.pre ?_, returnsOk_other h.ret (by simp)⟩
        · show signals (s.log ++ [.signal true]) = wakes (s.log ++ [.signal true]) + 1
          rw [hc.1, hc.2]; omega
        · show wakes (s.log ++ [.signal true]) ≤ _ ∧ _
          rw [hc.1, hc.2]; omega
    | cons t q =>
      rw [hq] at k
      simp only [Res.ok.injEq, Option.some.injEq] at k
      subst k
      have hg : s.given = false := h.none (by simp [hq])
      obtain ⟨f, hp⟩ := (h.que t).1 (by simp [hq])
      have ho : s.owner ≠ some t := fun a => by rw [(h.own t).2 a] at hp; cases hp
      have hnd := h.nd
      rw [hq, List.nodup_cons] at hnd
      have hcnt := h.cnt
      rw [hg] at hcnt
      simp only [Bool.false_eq_true, if_false, Nat.add_zero] at hcnt
      have c1 : signals (s.log ++ [.signal true]) = signals s.log + 1 ∧ wakes (s.log ++ [.signal true]) = wakes s.log := by rw [signals_snoc, wakes_snoc]; simp
      have c2 : signals (s.log ++ [.signal true] ++ [.woken t]) = signals s.log + 1 ∧ wakes (s.log ++ [.signal true] ++ [.woken t]) = wakes s.log + 1 := by
        rw [signals_snoc, wakes_snoc, c1.1, c1.2]; simp
      refine ⟨fun u => ?_, fun u => ?_, hnd.2, fun _ => hg, fun u => ?_, ?_, pre_snoc (pre_snoc h.pre ?_) ?_, returnsOk_other (returnsOk_other h.ret (by simp)) (by simp)⟩
      · simp only [Sys.emit, pc_goto]
        by_cases hu : u = t
        · subst hu; simp only [if_pos, reduceCtorEq, false_iff]; exact ho
        · simp only [if_neg hu]; exact h.own u
      · simp only [Sys.emit, Sys.goto]
        by_cases hu : u = t
        · subst hu; simp [hnd.1]
        · simp only [if_neg hu]; rw [← h.que u, hq]; simp [hu]
      · simp only [Sys.emit, pc_goto]
        show CondAt (s.log ++ [.signal true] ++ [.woken t]) u (if u = t then .relock true else s.pc u)
        by_cases hu : u = t
        · subst hu; rw [if_pos rfl]
          have := h.at_ u
          rw [hp] at this
          obtain ⟨a, c, ⟨h1, h2, h3⟩, h4, h5⟩ := this
          exact ⟨a, c ++ [.signal true, .woken u], ⟨by simp [h1], by simpa using h2, by simpa using h3⟩, by simp, by simpa using h5⟩
        · rw [if_neg hu]
          exact condAt_other (condAt_other (h.at_ u) (by simp [evTask])) (by simp [evTask, Ne.symm hu])
      · show signals (s.log ++ [.signal true] ++ [.woken t]) = wakes (s.log ++ [.signal true] ++ [.woken t]) + (if s.given = true then 1 else 0)
        rw [c2.1, c2.2, hg]; simp; omega
      · rw [c1.1, c1.2]; omega
      · show wakes (s.log ++ [.signal true] ++ [.woken t]) ≤ _ ∧ _
        rw [c2.1, c2.2]; omega

theorem condInv_run {ls : List Label} {s : Sys} (h : CondRun ls s) : CondInv s := by
  induction h with
  | nil => exact condInv_init
  | snoc l _ k ih => exact condInv_step ih k

end Uecho.Lemmas
