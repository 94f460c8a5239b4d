import Verif.Spec.ListRace
/-!
# C93: threads that use one list
-/
namespace Uecho.Props
open Uecho Uecho.Spec Uecho.ListRace Uecho.CList

namespace LR

theorem addedIn_append (a b : List Ev) : addedIn (a ++ b) = addedIn a ++ addedIn b := by
  induction a with
  | nil => rfl
  | cons x a ih => cases x <;> simp [addedIn, ih]

/-- the head and the elements -/
def cyc (hd : Nat) (s : Sys) : List Nat := hd :: addedIn s.log

/-- the element after number `i`; the head after the last one -/
def succ (hd : Nat) (s : Sys) (i : Nat) : Nat := (addedIn s.log).getD i hd

def lastOf (hd : Nat) (s : Sys) : Nat := (cyc hd s).getLast (by simp [cyc])

/-- What the adding thread has done. -/
def AInv (hd : Nat) (s : Sys) (x : Nat) : APc → Prop
  | .test => True
  | .arg => True
  | .setPrev p => p = lastOf hd s
  | .getNext p => p = lastOf hd s
  | .setNext p q => p = lastOf hd s ∧ q = some hd
  | .again p => p = lastOf hd s ∧ ∃ c, s.mem x = some c ∧ c.next = some hd
  | .back p q => p = lastOf hd s ∧ q = some hd ∧ ∃ c, s.mem x = some c ∧ c.next = some hd
  | .link p => p = lastOf hd s ∧ (∃ c, s.mem x = some c ∧ c.next = some hd) ∧ ∃ c, s.mem hd = some c ∧ c.prev = some x

def isLink : Thread → Bool
  | .adder _ (.link _) => true
  | _ => false

/-- Where an iterating thread is. -/
def RInv (hd : Nat) (s : Sys) (seen : List Nat) (p : Nat) (pc : NPc) : Prop :=
  ∃ i, i ≤ (addedIn s.log).length ∧ seen = (addedIn s.log).take i ∧ (cyc hd s)[i]? = some p ∧ (pc = .ret → i < (addedIn s.log).length)

structure Inv (hd t0 : Nat) (s : Sys) : Prop where
  iter : IterationsOK s.log
  nodup : (cyc hd s).Nodup
  cells : ∀ i p, (cyc hd s)[i]? = some p → ∃ c, s.mem p = some c ∧ c.next = some (succ hd s i) ∧ c.head = decide (i = 0)
  prev : isLink (s.thr t0) = false → ∃ c, s.mem hd = some c ∧ c.prev = some (lastOf hd s)
  one : ∀ t x pc, s.thr t = .adder x pc → t = t0
  adder : ∀ x pc, s.thr t0 = .adder x pc → x ∉ cyc hd s ∧ (∃ c, s.mem x = some c ∧ c.head = false) ∧ AInv hd s x pc
  reader : ∀ t seen p pc, s.thr t = .reader seen p pc → RInv hd s seen p pc

theorem inv_init (hd t0 : Nat) : Inv hd t0 (.init hd) where
  iter := by intro l1 l2 t seen h; simp [Sys.init] at h
  nodup := by simp [cyc, Sys.init, addedIn]
  cells := by
    intro i p h
    cases i with
    | zero => simp [cyc, Sys.init, addedIn] at h; subst h; exact ⟨⟨true, some hd, some hd⟩, by simp [Sys.init], rfl, rfl⟩
    | succ i => simp [cyc, Sys.init, addedIn] at h
  prev := by intro _; exact ⟨⟨true, some hd, some hd⟩, by simp [Sys.init], rfl⟩
  one := by intro t x pc h; cases h
  adder := by intro x pc h; cases h
  reader := by intro t seen p pc h; cases h

theorem goto_same (s : Sys) (t : Nat) (x : Thread) : (s.goto t x).thr t = x := by simp [Sys.goto]
theorem goto_other (s : Sys) {t u : Nat} (x : Thread) (h : u ≠ t) : (s.goto t x).thr u = s.thr u := by simp [Sys.goto, h]

theorem cyc_hd (hd : Nat) (s : Sys) : (cyc hd s)[0]? = some hd := rfl
theorem cyc_last (hd : Nat) (s : Sys) : (cyc hd s)[(addedIn s.log).length]? = some (lastOf hd s) := by
  unfold lastOf cyc
  rw [List.getLast_eq_getElem]
  simp
theorem succ_last (hd : Nat) (s : Sys) : succ hd s (addedIn s.log).length = hd := by simp [succ]

theorem iter_snoc_added {log : List Ev} (h : IterationsOK log) (t x : Nat) : IterationsOK (log ++ [.added t x]) := by
  intro l1 l2 t' seen he
  rcases List.eq_nil_or_concat l2 with rfl | ⟨l3, y, rfl⟩
  · have := (List.append_inj' he rfl).2; simp at this
  · rw [List.concat_eq_append, ← List.cons_append, ← List.append_assoc] at he
    exact h l1 l3 t' seen (List.append_inj' he rfl).1

theorem iter_snoc_ended {log : List Ev} (h : IterationsOK log) (t : Nat) : IterationsOK (log ++ [.ended t (addedIn log)]) := by
  intro l1 l2 t' seen he
  rcases List.eq_nil_or_concat l2 with rfl | ⟨l3, y, rfl⟩
  · obtain ⟨h1, h2⟩ := List.append_inj' he rfl
    simp only [List.cons.injEq, Ev.ended.injEq, and_true] at h2
    rw [← h2.2, h1]
  · rw [List.concat_eq_append, ← List.cons_append, ← List.append_assoc] at he
    exact h l1 l3 t' seen (List.append_inj' he rfl).1

/-- A step that changes neither the list nor the log: only one thread moves on. -/
theorem inv_goto {hd t0 : Nat} {s : Sys} (hv : Inv hd t0 s) (t : Nat) (x : Thread)
    (hone : ∀ y pc, x = .adder y pc → t = t0)
    (hadd : ∀ y pc, x = .adder y pc → y ∉ cyc hd s ∧ (∃ c, s.mem y = some c ∧ c.head = false) ∧ AInv hd s y pc)
    (hlink : t = t0 → isLink x = false → isLink (s.thr t0) = false)
    (hread : ∀ seen p pc, x = .reader seen p pc → RInv hd s seen p pc) : Inv hd t0 (s.goto t x) where
  iter := hv.iter
  nodup := hv.nodup
  cells := hv.cells
  prev := by
    intro h
    by_cases ht : t = t0
    · subst ht; rw [goto_same] at h; exact hv.prev (hlink rfl h)
    · rw [goto_other _ _ (Ne.symm ht)] at h; exact hv.prev h
  one := by
    intro u y pc h
    by_cases hu : u = t
    · subst hu; rw [goto_same] at h; exact hone y pc h
    · rw [goto_other _ _ hu] at h; exact hv.one u y pc h
  adder := by
    intro y pc h
    have : (s.goto t x).thr t0 = .adder y pc → _ := fun _ => h
    by_cases hu : t0 = t
    · subst hu; rw [goto_same] at h
      obtain ⟨h1, h2, h3⟩ := hadd y pc h
      exact ⟨h1, h2, by cases pc <;> exact h3⟩
    · rw [goto_other _ _ hu] at h
      obtain ⟨h1, h2, h3⟩ := hv.adder y pc h
      exact ⟨h1, h2, by cases pc <;> exact h3⟩
  reader := by
    intro u seen p pc h
    by_cases hu : u = t
    · subst hu; rw [goto_same] at h; exact hread seen p pc h
    · rw [goto_other _ _ hu] at h; exact hv.reader u seen p pc h

/-- Writing a field of the cell `x` that is not yet in the list. -/
theorem inv_put_new {hd t0 : Nat} {s : Sys} (hv : Inv hd t0 s) (x : Nat) (c : Cell) (hx : x ∉ cyc hd s) (hc : c.head = false)
    (pc' : APc) (hpc : AInv hd (s.put x c) x pc') (hl : isLink (.adder x pc') = false) (hl0 : isLink (s.thr t0) = false) :
    Inv hd t0 ((s.put x c).goto t0 (.adder x pc')) := by
  have hne : ∀ (i p : Nat), (cyc hd s)[i]? = some p → p ≠ x := by
    rintro i p h rfl; exact hx (List.mem_of_getElem? h)
  have hmem : ∀ p, p ≠ x → (s.put x c).mem p = s.mem p := by intro p h; simp [Sys.put, CList.put, h]
  refine ⟨hv.iter, hv.nodup, ?_, ?_, ?_, ?_, ?_⟩
  · intro i p h
    obtain ⟨d, h1, h2⟩ := hv.cells i p h
    exact ⟨d, by rw [show ((s.put x c).goto t0 (.adder x pc')).mem p = (s.put x c).mem p from rfl, hmem p (hne i p h)]; exact h1, h2⟩
  · intro _
    obtain ⟨d, h1, h2⟩ := hv.prev hl0
    exact ⟨d, by rw [show ((s.put x c).goto t0 (.adder x pc')).mem hd = (s.put x c).mem hd from rfl, hmem hd (hne 0 hd rfl)]; exact h1, h2⟩
  · intro u y pc h
    by_cases hu : u = t0
    · exact hu
    · rw [goto_other _ _ hu] at h; exact hv.one u y pc h
  · intro y pc h
    rw [goto_same] at h
    cases h
    exact ⟨hx, ⟨c, by simp [Sys.goto, Sys.put, CList.put], hc⟩, by cases pc' <;> exact hpc⟩
  · intro u seen p pc h
    by_cases hu : u = t0
    · subst hu; rw [goto_same] at h; cases h
    · rw [goto_other _ _ hu] at h; exact hv.reader u seen p pc h

theorem cyc_idx {hd : Nat} {s : Sys} (hn : (cyc hd s).Nodup) {i j p : Nat} (hi : (cyc hd s)[i]? = some p) (hj : (cyc hd s)[j]? = some p) : i = j := by
  have hlt : i < (cyc hd s).length := (List.getElem?_eq_some_iff.1 hi).1
  exact (List.getElem?_inj hlt hn).1 (hi.trans hj.symm)

theorem lastOf_mem (hd : Nat) (s : Sys) : lastOf hd s ∈ cyc hd s := List.getLast_mem _

theorem inv_addStep {hd t0 : Nat} {s : Sys} (hv : Inv hd t0 s) {x : Nat} {pc : APc} (ht : s.thr t0 = .adder x pc) :
    ∃ s', addStep hd s t0 x pc = .ok s' ∧ Inv hd t0 s' := by
  obtain ⟨hx, ⟨cx, hcx, hcx'⟩, ha⟩ := hv.adder x pc ht
  have hself : ∀ y, s.thr t0 = .adder x y → isLink (s.thr t0) = false ∨ ∃ p, y = .link p := by
    intro y hy; rw [hy]; cases y <;> simp [isLink]
  have last := hv.cells _ _ (cyc_last hd s)
  rw [succ_last] at last
  obtain ⟨cl, hl1, hl2, hl3⟩ := last
  cases pc with
  | test =>
    obtain ⟨c, h1, h2⟩ := hv.prev (by rw [ht]; rfl)
    refine ⟨_, by simp only [addStep, cell, h1, h2, Res.bind_ok]; rfl, ?_⟩
    exact inv_goto hv _ _ (fun _ _ _ => rfl) (by rintro y pc h; cases h; exact ⟨hx, ⟨cx, hcx, hcx'⟩, trivial⟩) (by intro _ _; rw [ht]; rfl)
      (by intro _ _ _ h; cases h)
  | arg =>
    obtain ⟨c, h1, h2⟩ := hv.prev (by rw [ht]; rfl)
    refine ⟨_, by simp only [addStep, cell, h1, h2, Res.bind_ok]; rfl, ?_⟩
    exact inv_goto hv _ _ (fun _ _ _ => rfl) (by rintro y pc h; cases h; exact ⟨hx, ⟨cx, hcx, hcx'⟩, rfl⟩) (by intro _ _; rw [ht]; rfl)
      (by intro _ _ _ h; cases h)
  | setPrev p =>
    refine ⟨_, by simp only [addStep, cell, hcx, Res.bind_ok]; rfl, ?_⟩
    exact inv_put_new hv x { cx with prev := some p } hx hcx' (.getNext p) ha rfl (by rw [ht]; rfl)
  | getNext p =>
    obtain rfl : p = lastOf hd s := ha
    refine ⟨_, by simp only [addStep, cell, hl1, Res.bind_ok]; rfl, ?_⟩
    exact inv_goto hv _ _ (fun _ _ _ => rfl) (by rintro y pc h; cases h; exact ⟨hx, ⟨cx, hcx, hcx'⟩, rfl, hl2⟩) (by intro _ _; rw [ht]; rfl)
      (by intro _ _ _ h; cases h)
  | setNext p q =>
    obtain ⟨rfl, rfl⟩ : p = lastOf hd s ∧ q = some hd := ha
    refine ⟨_, by simp only [addStep, cell, hcx, Res.bind_ok]; rfl, ?_⟩
    exact inv_put_new hv x { cx with next := some hd } hx hcx' (.again (lastOf hd s)) ⟨rfl, { cx with next := some hd }, by simp [Sys.put, CList.put], rfl⟩ rfl (by rw [ht]; rfl)
  | again p =>
    obtain ⟨rfl, hn⟩ : p = lastOf hd s ∧ _ := ha
    refine ⟨_, by simp only [addStep, cell, hl1, Res.bind_ok]; rfl, ?_⟩
    exact inv_goto hv _ _ (fun _ _ _ => rfl) (by rintro y pc h; cases h; exact ⟨hx, ⟨cx, hcx, hcx'⟩, rfl, hl2, hn⟩) (by intro _ _; rw [ht]; rfl)
      (by intro _ _ _ h; cases h)
  | back p q =>
    obtain ⟨rfl, rfl, cn, hn1, hn2⟩ : p = lastOf hd s ∧ q = some hd ∧ ∃ c, s.mem x = some c ∧ c.next = some hd := ha
    obtain ⟨ch, hh1, hh2, hh3⟩ := hv.cells 0 hd rfl
    have hxh : x ≠ hd := by rintro rfl; exact hx (List.mem_cons_self ..)
    refine ⟨_, by simp only [addStep, deref, cell, hh1, Res.bind_ok]; rfl, ?_⟩
    refine ⟨hv.iter, hv.nodup, ?_, ?_, ?_, ?_, ?_⟩
    · intro i p h
      by_cases hp : p = hd
      · subst hp
        have hi : i = 0 := by
          exact cyc_idx hv.nodup h rfl
        subst hi
        exact ⟨{ ch with prev := some x }, by simp [Sys.goto, Sys.put, CList.put], hh2, hh3⟩
      · obtain ⟨d, h1, h2⟩ := hv.cells i p h
        exact ⟨d, by simp [Sys.goto, Sys.put, CList.put, hp, h1], h2⟩
    · intro h; rw [goto_same] at h; cases h
    · intro u y pc h
      by_cases hu : u = t0
      · exact hu
      · rw [goto_other _ _ hu] at h; exact hv.one u y pc h
    · intro y pc h
      rw [goto_same] at h; cases h
      have hmx : ((s.put hd { ch with prev := some x }).goto t0 (.adder x (.link (lastOf hd s)))).mem x = s.mem x := by
        simp [Sys.goto, Sys.put, CList.put, hxh]
      exact ⟨hx, ⟨cx, by rw [hmx]; exact hcx, hcx'⟩, rfl, ⟨cn, by rw [hmx]; exact hn1, hn2⟩, { ch with prev := some x },
        by simp [Sys.goto, Sys.put, CList.put], rfl⟩
    · intro u seen p pc h
      by_cases hu : u = t0
      · subst hu; rw [goto_same] at h; cases h
      · rw [goto_other _ _ hu] at h; exact hv.reader u seen p pc h
  | link p =>
    obtain ⟨rfl, ⟨cn, hn1, hn2⟩, ch, hh1, hh2⟩ := ha
    have hxl : x ≠ lastOf hd s := by rintro rfl; exact hx (lastOf_mem hd s)
    have hxh : x ≠ hd := by rintro rfl; exact hx (List.mem_cons_self ..)
    refine ⟨_, by simp only [addStep, cell, hl1, Res.bind_ok]; rfl, ?_⟩
    generalize hs' : (((s.put (lastOf hd s) { cl with next := some x }).goto t0 .idle).emit (.added t0 x)) = s'
    have hlog : addedIn s'.log = addedIn s.log ++ [x] := by
      rw [← hs']; simp only [Sys.emit, Sys.goto, Sys.put, addedIn_append]; rfl
    have hcyc : cyc hd s' = cyc hd s ++ [x] := by simp [cyc, hlog]
    have hmem : ∀ q, q ≠ lastOf hd s → s'.mem q = s.mem q := by
      intro q hq; rw [← hs']; simp [Sys.emit, Sys.goto, Sys.put, CList.put, hq]
    have hmeml : s'.mem (lastOf hd s) = some { cl with next := some x } := by
      rw [← hs']; simp [Sys.emit, Sys.goto, Sys.put, CList.put]
    have hlast : lastOf hd s' = x := by
      unfold lastOf; simp [hcyc]
    have hlen : (cyc hd s).length = (addedIn s.log).length + 1 := rfl
    have hthr : ∀ u, s'.thr u = if u = t0 then .idle else s.thr u := by intro u; rw [← hs']; rfl
    refine ⟨?_, ?_, ?_, ?_, ?_, ?_, ?_⟩
    · rw [← hs']; exact iter_snoc_added hv.iter t0 x
    · rw [hcyc, List.nodup_append]
      exact ⟨hv.nodup, by simp, by intro a ha b hb; rw [List.mem_singleton.1 hb]; rintro rfl; exact hx ha⟩
    · intro i p h
      rw [hcyc] at h
      by_cases hi : i < (cyc hd s).length
      · rw [List.getElem?_append_left hi] at h
        obtain ⟨d, h1, h2, h3⟩ := hv.cells i p h
        by_cases hp : p = lastOf hd s
        · subst hp
          have hi' := cyc_idx hv.nodup h (cyc_last hd s)
          rw [hl1] at h1; cases h1
          refine ⟨_, hmeml, ?_, h3⟩
          rw [hi']; simp [succ, hlog]
        · refine ⟨d, by rw [hmem p hp]; exact h1, ?_, h3⟩
          rw [h2]
          have : i ≠ (addedIn s.log).length := by
            rintro rfl; rw [cyc_last] at h; cases h; exact hp rfl
          have hlt : i < (addedIn s.log).length := by omega
          simp [succ, hlog, List.getElem?_append_left hlt]
      · rw [List.getElem?_append_right (by omega)] at h
        have h0 : i - (cyc hd s).length = 0 := by
          have := (List.getElem?_eq_some_iff.1 h).1
          simp at this; omega
        rw [h0] at h; simp at h; subst h
        refine ⟨cn, by rw [hmem _ hxl]; exact hn1, ?_, ?_⟩
        · rw [hn2]; simp only [succ, hlog]
          rw [List.getD_eq_getElem?_getD, List.getElem?_eq_none (by simp; omega)]; rfl
        · rw [hcx] at hn1; cases hn1
          rw [hcx']; simp; omega
    · intro _
      rw [hlast]
      by_cases hp : hd = lastOf hd s
      · rw [← hp] at hl1 hmeml
        rw [hh1] at hl1; cases hl1
        exact ⟨_, hmeml, hh2⟩
      · exact ⟨ch, by rw [hmem hd hp]; exact hh1, hh2⟩
    · intro u y pc h
      rw [hthr] at h
      split at h
      · cases h
      · exact hv.one u y pc h
    · intro y pc h; rw [hthr, if_pos rfl] at h; cases h
    · intro u seen p pc h
      rw [hthr] at h
      split at h
      · cases h
      · obtain ⟨i, h1, h2, h3, h4⟩ := hv.reader u seen p pc h
        refine ⟨i, by rw [hlog]; simp; omega, ?_, ?_, ?_⟩
        · rw [hlog, List.take_append_of_le_length h1]; exact h2
        · rw [hcyc, List.getElem?_append_left (by omega)]; exact h3
        · intro hp; rw [hlog]; have := h4 hp; simp; omega

theorem inv_emit_ended {hd t0 : Nat} {s : Sys} (hv : Inv hd t0 s) (t : Nat) : Inv hd t0 (s.emit (.ended t (addedIn s.log))) := by
  have hlog : addedIn (s.emit (.ended t (addedIn s.log))).log = addedIn s.log := by
    simp only [Sys.emit, addedIn_append]; simp [addedIn]
  have hcyc : cyc hd (s.emit (.ended t (addedIn s.log))) = cyc hd s := by simp [cyc, hlog]
  have hlast : lastOf hd (s.emit (.ended t (addedIn s.log))) = lastOf hd s := by unfold lastOf; simp [hcyc]
  refine ⟨iter_snoc_ended hv.iter t, by rw [hcyc]; exact hv.nodup, ?_, ?_, hv.one, ?_, ?_⟩
  · intro i p h
    rw [hcyc] at h
    simp only [succ, hlog]
    exact hv.cells i p h
  · rw [hlast]; exact hv.prev
  · intro y pc h
    obtain ⟨h1, h2, h3⟩ := hv.adder y pc h
    refine ⟨by rw [hcyc]; exact h1, h2, ?_⟩
    cases pc <;> simp only [AInv, hlast] <;> exact h3
  · intro u seen p pc h
    obtain ⟨i, h1, h2, h3, h4⟩ := hv.reader u seen p pc h
    exact ⟨i, by rw [hlog]; exact h1, by rw [hlog]; exact h2, by rw [hcyc]; exact h3, by rw [hlog]; exact h4⟩

theorem inv_readStep {hd t0 : Nat} {s : Sys} (hv : Inv hd t0 s) {t : Nat} {seen : List Nat} {p : Nat} {pc : NPc} (ht : s.thr t = .reader seen p pc) :
    ∃ s', readStep s t seen p pc = .ok s' ∧ Inv hd t0 s' := by
  obtain ⟨i, h1, h2, h3, h4⟩ := hv.reader t seen p pc ht
  obtain ⟨c, hc1, hc2, hc3⟩ := hv.cells i p h3
  have hnl : t = t0 → isLink (s.thr t0) = false := by rintro rfl; rw [ht]; rfl
  have hgo : ∀ x : Thread, (∀ y pc, x ≠ .adder y pc) → (∀ seen p pc, x = .reader seen p pc → RInv hd s seen p pc) → Inv hd t0 (s.goto t x) :=
    fun x hx hr => inv_goto hv t x (fun y pc h => absurd h (hx y pc)) (fun y pc h => absurd h (hx y pc)) (fun h _ => hnl h) hr
  cases pc with
  | test =>
    refine ⟨_, by simp only [readStep, cell, hc1, hc2, Res.bind_ok]; rfl, ?_⟩
    exact hgo _ (by intro y pc h; cases h) (by intro _ _ _ h; cases h; exact ⟨i, h1, h2, h3, by intro h; cases h⟩)
  | flag =>
    by_cases hi : i = (addedIn s.log).length
    · subst hi
      rw [succ_last] at hc2
      obtain ⟨ch, hh1, _, hh3⟩ := hv.cells 0 hd rfl
      refine ⟨_, by simp only [readStep, cell, hc1, hc2, deref, hh1, hh3, Res.bind_ok, decide_true, if_true]; rfl, ?_⟩
      have := inv_emit_ended (hgo .idle (by intro y pc h; cases h) (by intro _ _ _ h; cases h)) t
      rw [h2, List.take_length]
      exact this
    · have hlt : i < (addedIn s.log).length := by omega
      have hs : succ hd s i = (addedIn s.log)[i] := by simp [succ, hlt]
      obtain ⟨d, hd1, _, hd3⟩ := hv.cells (i + 1) ((addedIn s.log)[i]) (by simp [cyc])
      rw [hs] at hc2
      refine ⟨_, by simp only [readStep, cell, hc1, hc2, deref, hd1, hd3, Res.bind_ok]; rfl, ?_⟩
      exact hgo _ (by intro y pc h; cases h) (by intro _ _ _ h; cases h; exact ⟨i, h1, h2, h3, fun _ => hlt⟩)
  | ret =>
    have hlt := h4 rfl
    have hs : succ hd s i = (addedIn s.log)[i] := by simp [succ, hlt]
    rw [hs] at hc2
    refine ⟨_, by simp only [readStep, cell, hc1, hc2, Res.bind_ok]; rfl, ?_⟩
    refine hgo _ (by intro y pc h; cases h) ?_
    intro _ _ _ h; cases h
    refine ⟨i + 1, hlt, ?_, by simp [cyc], by intro h; cases h⟩
    rw [h2, List.take_succ_eq_append_getElem hlt]

theorem inv_step {hd t0 : Nat} {s : Sys} (hv : Inv hd t0 s) {l : Label} (hl : ∀ t x, l = .add t x → t = t0) :
    ∃ r, ListRace.step hd s l = .ok r ∧ ∀ s', r = some s' → Inv hd t0 s' := by
  cases l with
  | add t x =>
    have ht0 := hl t x rfl
    subst ht0
    cases hi : s.thr t with
    | idle =>
      cases hm : s.mem x with
      | some c => exact ⟨_, by simp only [ListRace.step, hi, hm]; rfl, by intro s' h; cases h⟩
      | none =>
        have hx : x ∉ cyc hd s := by
          intro h
          obtain ⟨i, hi'⟩ := List.getElem?_of_mem h
          obtain ⟨c, h1, _⟩ := hv.cells i x hi'
          rw [hm] at h1; cases h1
        refine ⟨_, by simp only [ListRace.step, hi, hm]; rfl, ?_⟩
        rintro s' h; cases h
        exact inv_put_new hv x ⟨false, some x, some x⟩ hx rfl .test trivial rfl (by rw [hi]; rfl)
    | adder y pc => exact ⟨_, by simp only [ListRace.step, hi]; rfl, by intro s' h; cases h⟩
    | reader a b c => exact ⟨_, by simp only [ListRace.step, hi]; rfl, by intro s' h; cases h⟩
  | iterate t =>
    cases hi : s.thr t with
    | idle =>
      refine ⟨_, by simp only [ListRace.step, hi]; rfl, ?_⟩
      rintro s' h; cases h
      exact inv_goto hv t _ (by intro y pc h; cases h) (by intro y pc h; cases h) (by rintro rfl _; rw [hi]; rfl)
        (by intro _ _ _ h; cases h; exact ⟨0, Nat.zero_le _, rfl, rfl, by intro h; cases h⟩)
    | adder y pc => exact ⟨_, by simp only [ListRace.step, hi]; rfl, by intro s' h; cases h⟩
    | reader a b c => exact ⟨_, by simp only [ListRace.step, hi]; rfl, by intro s' h; cases h⟩
  | step t =>
    cases hi : s.thr t with
    | idle => exact ⟨_, by simp only [ListRace.step, hi]; rfl, by intro s' h; cases h⟩
    | adder y pc =>
      have := hv.one t y pc hi
      subst this
      obtain ⟨s', h1, h2⟩ := inv_addStep hv hi
      exact ⟨some s', by simp only [ListRace.step, hi, h1, Res.bind_ok, Res.pure_eq], by rintro _ h; cases h; exact h2⟩
    | reader a b c =>
      obtain ⟨s', h1, h2⟩ := inv_readStep hv hi
      exact ⟨some s', by simp only [ListRace.step, hi, h1, Res.bind_ok, Res.pure_eq], by rintro _ h; cases h; exact h2⟩

end LR

/-- **C93, partial** (one thread adds). In every interleaving of a thread that adds elements with any number of threads that iterate,
nothing undefined happens, and every iteration gets exactly the elements that were in the list when it ended, in the order in which they
were added, each once. -/
theorem C93_one_adder_partial {hd t0 : Nat} {ls : List Label} {s : ListRace.Sys} (h : ListRun hd ls s) (ho : OneAdder t0 ls) :
    (∀ l, (∀ t x, l = Label.add t x → t = t0) → ∃ r, ListRace.step hd s l = .ok r) ∧ IterationsOK s.log ∧ (addedIn s.log).Nodup := by
  have hv : LR.Inv hd t0 s := by
    induction h with
    | nil => exact LR.inv_init hd t0
    | snoc l _ hstep ih =>
      have ho' : OneAdder t0 _ := fun t x h => ho t x (List.mem_append_left _ h)
      obtain ⟨r, h1, h2⟩ := LR.inv_step (ih ho') (l := l) (fun t x h => ho t x (by rw [h]; simp))
      rw [hstep] at h1; cases h1
      exact h2 _ rfl
  exact ⟨fun l hl => let ⟨r, h1, _⟩ := LR.inv_step hv hl; ⟨r, h1⟩, hv.iter, (List.nodup_cons.1 hv.nodup).2⟩

/-- The state after the choices `ls`. -/
def listRuns (hd : Nat) (s : ListRace.Sys) : List Label → Option ListRace.Sys
  | [] => some s
  | l :: ls => match ListRace.step hd s l with
    | .ok (some s') => listRuns hd s' ls
    | _ => none

theorem listRun_of {hd : Nat} {ls ls0 : List Label} {s s' : ListRace.Sys} (h0 : ListRun hd ls0 s) (h : listRuns hd s ls = some s') :
    ListRun hd (ls0 ++ ls) s' := by
  induction ls generalizing s ls0 with
  | nil => cases h; simpa using h0
  | cons l ls ih =>
    simp only [listRuns] at h
    split at h
    · rename_i s1 heq
      have := ih (.snoc l h0 heq) h
      simpa using this
    · cases h

/-- An iteration (thread 2) overtaken by an addition (thread 1). -/
def overtaken : List Label :=
  [.add 1 10] ++ List.replicate 8 (.step 1) ++ [.iterate 2, .step 2, .add 1 11] ++ List.replicate 5 (.step 1) ++ List.replicate 2 (.step 2) ++
    List.replicate 3 (.step 1) ++ List.replicate 5 (.step 2)

example : OneAdder 1 overtaken ∧ ∃ s, ListRun 0 overtaken s ∧ s.log = [.added 1 10, .added 1 11, .ended 2 [10, 11]] := by
  refine ⟨?_, ?_⟩
  · intro t x h
    simp [overtaken] at h
    rcases h with h | h <;> exact h.1
  · have h : (listRuns 0 (.init 0) overtaken).map (·.log) = some [.added 1 10, .added 1 11, .ended 2 [10, 11]] := by decide +kernel
    obtain ⟨s, h1, h2⟩ := Option.map_eq_some_iff.1 h
    exact ⟨s, listRun_of (ls0 := []) .nil h1, h2⟩

/-- **C93, violated** for two threads that add: both additions return, and later iterations get only one of the two elements. -/
theorem C93_two_adders_violated : ∃ ls s, ListRun 0 ls s ∧ s.log = [.added 1 10, .added 2 11, .ended 3 [11]] := by
  have h : (listRuns 0 (.init 0) ([.add 1 10, .add 2 11] ++ List.replicate 6 (.step 2) ++ List.replicate 8 (.step 1) ++ List.replicate 2 (.step 2) ++
      [.iterate 3] ++ List.replicate 5 (.step 3))).map (·.log) = some [.added 1 10, .added 2 11, .ended 3 [11]] := by decide +kernel
  obtain ⟨s, h1, h2⟩ := Option.map_eq_some_iff.1 h
  exact ⟨_, s, listRun_of (ls0 := []) .nil h1, h2⟩

end Uecho.Props
