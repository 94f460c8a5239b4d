import Verif.Lemmas.Post
/-!
# More invariants of posts: results, pointers, TIDs
-/
set_option linter.unusedSimpArgs false
namespace Uecho.Lemmas
open Uecho Uecho.Spec Uecho.Post

theorem PInv.others {s : Sys} {t : Nat} {j : Job} {pc : PostPc} (h : PInv s) (hthr : s.thr t = .post j pc)
    (hpc : pc ≠ .lock) : ∀ u k q, u ≠ t → s.thr u = .post k q → q = .lock := by
  intro u k q hu hk
  by_cases hq : q = .lock
  · exact hq
  · have h1 := h.own u k q hk hq
    rw [h.own t j pc hthr hpc] at h1
    exact absurd (Option.some.inj h1).symm hu

/-- the post will return true -/
def sure (s : Sys) (t : Nat) : PostPc → Prop
  | .lock => False
  | .setReq => False
  | .setRes => False
  | .tid _ => False
  | .setTid _ => False
  | .send => False
  | .condWait => False
  | .waiting => t ∉ s.waiters
  | .clearReq r => r = true
  | .clearRes r => r = true
  | .unlock r => r = true

/-- the request pointer has been cleared -/
def cleared : PostPc → Bool
  | .lock => false
  | .setReq => false
  | .setRes => false
  | .tid _ => false
  | .setTid _ => false
  | .send => false
  | .condWait => false
  | .waiting => false
  | .clearReq _ => false
  | .clearRes _ => true
  | .unlock r => r

def Matched (s : Sys) (j : Job) : Prop := ∃ q a, s.heap j.req = some q ∧ s.heap j.res = some a ∧ Answers q a

def LogOK (log : List Ev) : Prop := ∀ t j q a, Ev.returned t j true q a ∈ log →
  ∃ q' a', q = some q' ∧ a = some a' ∧ Answers q' a'

structure SInv (s : Sys) : Prop where
  settled : ∀ t j pc, s.thr t = .post j pc → sure s t pc → Matched s j
  cleared : ∀ t j pc, s.thr t = .post j pc → cleared pc = true → s.postReq = none
  logged : LogOK s.log

/-- the thread inside a post moves on -/
theorem SInv.inside {s s' : Sys} {t : Nat} {j : Job} {pc : PostPc} {x : Thread} (hp : PInv s)
    (hthr : s.thr t = .post j pc) (hpc : pc ≠ .lock) (ht : s'.thr = (s.goto t x).thr)
    (hs : ∀ k pc', x = .post k pc' → sure s' t pc' → Matched s' k)
    (hc : ∀ k pc', x = .post k pc' → Uecho.Lemmas.cleared pc' = true → s'.postReq = none)
    (hl : LogOK s'.log) : SInv s' := by
  have ht : ∀ u, s'.thr u = if u = t then x else s.thr u := fun u => by rw [ht]; rfl
  refine ⟨?_, ?_, hl⟩
  · intro u k q hu hq
    rw [ht] at hu
    split at hu
    · subst u; exact hs k q hu hq
    · rename_i hne; rw [hp.others hthr hpc u k q hne hu] at hq; exact hq.elim
  · intro u k q hu hq
    rw [ht] at hu
    split at hu
    · subst u; exact hc k q hu hq
    · rename_i hne; rw [hp.others hthr hpc u k q hne hu] at hq; cases hq

/-- another thread moves -/
theorem SInv.other {s s' : Sys} {t : Nat} {x : Thread} (h : SInv s) (ht : s'.thr = (s.goto t x).thr)
    (hx : ∀ j pc, x = .post j pc → pc = .lock) (hw : s'.waiters = s.waiters)
    (hq : s'.postReq = s.postReq) (hh : s'.heap = s.heap) (hl : LogOK s'.log) : SInv s' := by
  have ht : ∀ u, s'.thr u = if u = t then x else s.thr u := fun u => by rw [ht]; rfl
  refine ⟨?_, ?_, hl⟩
  · intro u k q hu hq
    rw [ht] at hu
    split at hu
    · rw [hx k q hu] at hq; exact hq.elim
    · have : sure s u q := by
        cases q <;> first | exact hq | (unfold sure at hq ⊢; rw [← hw]; exact hq)
      obtain ⟨a, b, h1, h2, h3⟩ := h.settled u k q hu this
      exact ⟨a, b, by rw [hh]; exact h1, by rw [hh]; exact h2, h3⟩
  · intro u k q hu hc
    rw [ht] at hu
    split at hu
    · rw [hx k q hu] at hc; cases hc
    · rw [hq]; exact h.cleared u k q hu hc

/-- the environment changes messages that no post uses, or the log -/
theorem SInv.env {s s' : Sys} (h : SInv s) (ht : s'.thr = s.thr) (hw : s'.waiters = s.waiters)
    (hq : s'.postReq = s.postReq)
    (hh : ∀ t j pc, s.thr t = .post j pc → s'.heap j.req = s.heap j.req ∧ s'.heap j.res = s.heap j.res)
    (hl : LogOK s'.log) : SInv s' := by
  refine ⟨?_, ?_, hl⟩
  · intro u k q hu hs
    rw [ht] at hu
    have : sure s u q := by
      cases q <;> first | exact hs | (unfold sure at hs ⊢; rw [← hw]; exact hs)
    obtain ⟨a, b, h1, h2, h3⟩ := h.settled u k q hu this
    obtain ⟨e1, e2⟩ := hh u k q hu
    exact ⟨a, b, by rw [e1]; exact h1, by rw [e2]; exact h2, h3⟩
  · intro u k q hu hc
    rw [ht] at hu; rw [hq]; exact h.cleared u k q hu hc

theorem LogOK.append {l : List Ev} {x : Ev} (h : LogOK l) (hx : ∀ t j q a, x ≠ .returned t j true q a) :
    LogOK (l ++ [x]) := by
  intro t j q a hm
  rcases List.mem_append.1 hm with hm | hm
  · exact h t j q a hm
  · exact absurd (List.mem_singleton.1 hm).symm (hx t j q a)

theorem postStep_sinv {e : Endian} {s s' : Sys} {t : Nat} {j : Job} {pc : PostPc} (h : SInv s) (hp : PInv s)
    (hthr : s.thr t = .post j pc) (hs : postStep e s t j pc = .ok (some s')) : SInv s' := by
  cases pc with
  | lock =>
    simp only [postStep, Res.ok.injEq] at hs
    split at hs
    · rename_i hm
      simp only [Option.some.injEq] at hs; subst hs
      have hnone : ∀ u k q, s.thr u = .post k q → q = .lock := by
        intro u k q hk
        by_cases hq : q = .lock
        · exact hq
        · have := hp.own u k q hk hq; rw [hm] at this; simp at this
      refine ⟨?_, ?_, h.logged⟩
      · intro u k q hu hq
        rw [goto_thr] at hu
        split at hu
        · cases hu; exact hq.elim
        · rw [hnone u k q hu] at hq; exact hq.elim
      · intro u k q hu hq
        rw [goto_thr] at hu
        split at hu
        · cases hu; cases hq
        · rw [hnone u k q hu] at hq; cases hq
    · simp at hs
  | tid p =>
    simp only [postStep] at hs
    split at hs
    · simp only [Res.ok.injEq, Option.some.injEq] at hs; subst hs
      exact SInv.inside hp hthr (by simp) rfl (fun _ _ hx hs => by cases hx; exact hs.elim)
        (fun _ _ hx hc => by cases hx; cases hc) h.logged
    · simp only [Res.ok.injEq, Option.some.injEq] at hs; subst hs
      exact SInv.inside hp hthr (by simp) rfl (fun _ _ hx hs => by cases hx; exact hs.elim)
        (fun _ _ hx hc => by cases hx; cases hc) h.logged
  | setTid v =>
    simp only [postStep] at hs
    split at hs
    · simp at hs
    · simp only [Res.ok.injEq, Option.some.injEq] at hs; subst hs
      exact SInv.inside hp hthr (by simp) rfl (fun _ _ hx hs => by cases hx; exact hs.elim)
        (fun _ _ hx hc => by cases hx; cases hc) h.logged
  | send =>
    simp only [postStep] at hs
    split at hs
    · simp at hs
    · simp only [Res.ok.injEq, Option.some.injEq] at hs; subst hs
      exact SInv.inside hp hthr (by simp) rfl (fun _ _ hx hs => by cases hx; exact hs.elim)
        (fun _ _ hx hc => by cases hx; cases hc) (h.logged.append (by simp))
  | condWait =>
    simp only [postStep, Res.ok.injEq, Option.some.injEq] at hs; subst hs
    refine SInv.inside hp hthr (by simp) rfl (fun _ _ hx hs => ?_) (fun _ _ hx hc => by cases hx; cases hc) h.logged
    cases hx
    exact absurd (show t ∈ s.waiters ++ [t] by simp) hs
  | waiting =>
    simp only [postStep, Res.ok.injEq] at hs
    split at hs
    · simp at hs
    · rename_i hn
      simp only [Option.some.injEq] at hs; subst hs
      exact SInv.inside hp hthr (by simp) rfl (fun _ _ hx _ => by cases hx; exact h.settled t j _ hthr hn)
        (fun _ _ hx hc => by cases hx; cases hc) h.logged
  | clearReq r =>
    simp only [postStep, Res.ok.injEq, Option.some.injEq] at hs; subst hs
    exact SInv.inside hp hthr (by simp) rfl (fun _ _ hx hs => by cases hx; exact h.settled t j _ hthr hs)
        (fun _ _ hx hc => by cases hx; rfl) h.logged
  | clearRes r =>
    simp only [postStep, Res.ok.injEq, Option.some.injEq] at hs; subst hs
    exact SInv.inside hp hthr (by simp) rfl (fun _ _ hx hs => by cases hx; exact h.settled t j _ hthr hs)
        (fun _ _ hx hc => by cases hx; exact h.cleared t j _ hthr rfl) h.logged
  | unlock r =>
    simp only [postStep, Res.ok.injEq, Option.some.injEq] at hs; subst hs
    refine SInv.inside hp hthr (by simp) rfl (fun _ _ hx hs => by cases hx) (fun _ _ hx hc => by cases hx) ?_
    intro u k q a hm
    simp only [Sys.goto, Sys.emit] at hm
    rcases List.mem_append.1 hm with hm | hm
    · exact h.logged u k q a hm
    · rw [List.mem_singleton] at hm
      cases hm
      obtain ⟨q', a', h1, h2, h3⟩ := h.settled t j _ hthr rfl
      exact ⟨q', a', h1, h2, h3⟩
  | _ =>
    simp only [postStep, Res.ok.injEq, Option.some.injEq] at hs; subst hs
    exact SInv.inside hp hthr (by simp) rfl (fun _ _ hx hs => by cases hx; exact hs.elim)
        (fun _ _ hx hc => by cases hx; cases hc) h.logged

theorem step_sinv {e : Endian} {s s' : Sys} {l : Label} (h : SInv s) (hp : PInv s) (hb : BInv e s) (hu : UserOK e s l)
    (ha : ∀ t m, l ≠ .arrive t m) (hsp : ∀ t, l ≠ .spurious t) (hs : Post.step e s l = .ok (some s')) : SInv s' := by
  cases l with
  | callPost t j =>
    simp only [Post.step] at hs
    split at hs
    · simp only [Res.ok.injEq, Option.some.injEq] at hs; subst hs
      exact h.other rfl (by simp +contextual) rfl rfl rfl h.logged
    · simp at hs
  | callSend t =>
    simp only [Post.step] at hs
    split at hs
    · simp only [Res.ok.injEq, Option.some.injEq] at hs; subst hs
      exact h.other rfl (by simp +contextual) rfl rfl rfl h.logged
    · simp at hs
  | arrive t m => exact absurd rfl (ha t m)
  | spurious t => exact absurd rfl (hsp t)
  | step t =>
    simp only [Post.step, threadStep] at hs
    cases hthr : s.thr t with
    | idle => simp [hthr] at hs
    | post j pc => rw [hthr] at hs; exact postStep_sinv h hp hthr hs
    | sender pc =>
      rw [hthr] at hs
      cases pc with
      | inl pc =>
        simp only [Res.ok.injEq, Option.some.injEq] at hs; subst hs
        exact h.other rfl (by simp) rfl rfl rfl h.logged
      | inr v =>
        simp only [Res.ok.injEq, Option.some.injEq] at hs; subst hs
        exact h.other rfl (by simp) rfl rfl rfl (h.logged.append (by simp))
    | recv m pc => exact absurd hthr (hb.norecv t m pc)
  | sendFail t =>
    simp only [Post.step] at hs
    split at hs
    · rename_i j hthr
      split at hs
      · simp at hs
      · simp only [Res.ok.injEq, Option.some.injEq] at hs; subst hs
        exact SInv.inside hp hthr (by simp) rfl (fun _ _ hx hs => by cases hx; cases hs)
          (fun _ _ hx hc => by cases hx; cases hc) (h.logged.append (by simp))
    · simp at hs
  | timeout t =>
    simp only [Post.step] at hs
    split at hs
    · rename_i j hthr
      split at hs
      · simp only [Res.ok.injEq, Option.some.injEq] at hs; subst hs
        exact SInv.inside hp hthr (by simp) rfl (fun _ _ hx hs => by cases hx; cases hs)
          (fun _ _ hx hc => by cases hx; cases hc) h.logged
      · simp at hs
    · simp at hs
  | deliver m =>
    simp only [Post.step, Res.bind_eq_ok, Res.pure_eq, Res.ok.injEq, Option.some.injEq] at hs
    obtain ⟨s1, h1, rfl⟩ := hs
    rcases deliver_cases h1 with rfl | ⟨r, p, q, old, res, k1, k2, k3, k4, k5, k6, rfl⟩
    · exact h.env rfl rfl rfl (fun _ _ _ _ => ⟨rfl, rfl⟩) (h.logged.append (by simp))
    · refine ⟨?_, ?_, h.logged.append (by simp)⟩
      · intro u k pc hu' hsure
        have hpc : pc ≠ .lock := by rintro rfl; exact hsure.elim
        have hc : Uecho.Lemmas.cleared pc = false := by
          cases hc : Uecho.Lemmas.cleared pc with
          | false => rfl
          | true => have := h.cleared u k pc hu' hc; rw [k1] at this; cases this
        have hown : ownsReq pc = true ∧ ownsRes pc = true := by
          cases pc with
          | unlock r => cases (show r = true from hsure); cases hc
          | clearRes r => cases hc
          | waiting => exact ⟨rfl, rfl⟩
          | clearReq r => exact ⟨rfl, rfl⟩
          | _ => exact hsure.elim
        have e1 : r = k.req := by have := hp.req u k pc hu' hown.1; rw [k1] at this; exact Option.some.inj this
        have e2 : p = k.res := by have := hp.res u k pc hu' hown.2; rw [k2] at this; exact Option.some.inj this
        subst e1 e2
        obtain ⟨_, ⟨old', hv, hvr⟩, hne⟩ := hb.live u k (jobOf_some.2 ⟨pc, hu'⟩)
        rw [k5] at hv; cases hv
        obtain ⟨t0, t1, t2⟩ := setFrom_answers hvr hu k6
        refine ⟨q, res, ?_, ?_, ?_⟩
        · simp only [Heap.set, Sys.emit, if_neg hne]; exact k3
        · simp only [Heap.set, Sys.emit, if_true]
        · unfold Answers at k4 ⊢; rw [t0, t1, t2]; exact k4
      · intro u k pc hu' hc
        exact h.cleared u k pc hu' hc
  | store p m =>
    simp only [Post.step, Res.ok.injEq, Option.some.injEq] at hs; subst hs
    refine h.env rfl rfl rfl (fun t j pc ht => ?_) h.logged
    have h1 : j.req ≠ p := by rintro rfl; exact hu.2 ⟨t, j, pc, ht, .inl rfl⟩
    have h2 : j.res ≠ p := by rintro rfl; exact hu.2 ⟨t, j, pc, ht, .inr rfl⟩
    simp only [Heap.set, if_neg h1, if_neg h2]; exact ⟨trivial, trivial⟩
  | free p =>
    simp only [Post.step, Res.ok.injEq, Option.some.injEq] at hs; subst hs
    refine h.env rfl rfl rfl (fun t j pc ht => ?_) h.logged
    have h1 : j.req ≠ p := by rintro rfl; exact hu ⟨t, j, pc, ht, .inl rfl⟩
    have h2 : j.res ≠ p := by rintro rfl; exact hu ⟨t, j, pc, ht, .inr rfl⟩
    simp only [if_neg h1, if_neg h2]; exact ⟨trivial, trivial⟩

theorem new_sinv {e : Endian} {s : Sys} {ls : List Label} (h : RunFromNew e ls s) (ha : AtomicListener ls)
    (hsp : NoSpurious ls) : SInv s := by
  obtain ⟨r, t, h⟩ := h
  generalize hi : Sys.init r t = i at h
  induction h with
  | nil => subst hi; exact ⟨by simp [Sys.init], by simp [Sys.init], by intro t j q a h; simp [Sys.init] at h⟩
  | snoc l h1 hu hst ih =>
    have ha1 : AtomicListener _ := fun t m hm => ha t m (List.mem_append_left _ hm)
    subst hi
    refine step_sinv (ih ha1 (fun t hm => hsp t (List.mem_append_left _ hm))) (run_inv (init_inv r t) h1)
      (run_binv (init_binv e r t) h1 ha1) hu (fun t m hl => ha t m (by simp [hl])) (fun t hl => hsp t (by simp [hl])) hst

/-! ## Without send failures the pointers belong to a post in progress -/

structure QInv (s : Sys) : Prop where
  owner : ∀ p, s.postRes = some p → ∃ t j pc, s.thr t = .post j pc ∧ ownsRes pc = true ∧ p = j.res
  cleared : ∀ t j pc, s.thr t = .post j pc → Uecho.Lemmas.cleared pc = true → s.postReq = none

theorem QInv.same {s s' : Sys} (h : QInv s) (ht : s'.thr = s.thr) (hq : s'.postReq = s.postReq)
    (hr : s'.postRes = s.postRes) : QInv s' :=
  ⟨by rw [hr, ht]; exact h.owner, by rw [hq, ht]; exact h.cleared⟩

theorem QInv.other {s s' : Sys} (h : QInv s) {t : Nat} {x : Thread} (ht : s'.thr = (s.goto t x).thr)
    (hold : ∀ j pc, s.thr t = .post j pc → pc = .lock)
    (hx : ∀ j pc, x = .post j pc → pc = .lock ∨ pc = .setReq) (hq : s'.postReq = s.postReq)
    (hr : s'.postRes = s.postRes) : QInv s' := by
  have ht : ∀ u, s'.thr u = if u = t then x else s.thr u := fun u => by rw [ht]; rfl
  refine ⟨?_, ?_⟩
  · intro p hp
    rw [hr] at hp
    obtain ⟨u, j, pc, h1, h2, h3⟩ := h.owner p hp
    refine ⟨u, j, pc, ?_, h2, h3⟩
    rw [ht, if_neg]
    · exact h1
    · rintro rfl; rw [hold j pc h1] at h2; cases h2
  · intro u j pc hu hc
    rw [ht] at hu
    split at hu
    · rcases hx j pc hu with rfl | rfl <;> cases hc
    · rw [hq]; exact h.cleared u j pc hu hc

theorem QInv.inside {s s' : Sys} {t : Nat} {j : Job} {pc : PostPc} {x : Thread} (hp : PInv s)
    (hthr : s.thr t = .post j pc) (hpc : pc ≠ .lock) (ht : s'.thr = (s.goto t x).thr)
    (ho : s'.postRes = none ∨ ∃ pc', x = .post j pc' ∧ ownsRes pc' = true ∧ s'.postRes = some j.res)
    (hc : ∀ k pc', x = .post k pc' → Uecho.Lemmas.cleared pc' = true → s'.postReq = none) : QInv s' := by
  have ht : ∀ u, s'.thr u = if u = t then x else s.thr u := fun u => by rw [ht]; rfl
  refine ⟨?_, ?_⟩
  · intro p hp
    rcases ho with ho | ⟨pc', h1, h2, h3⟩
    · rw [ho] at hp; cases hp
    · rw [h3] at hp; cases hp
      exact ⟨t, j, pc', by rw [ht, if_pos rfl, h1], h2, rfl⟩
  · intro u k q hu hq
    rw [ht] at hu
    split at hu
    · exact hc k q hu hq
    · rename_i hne; rw [hp.others hthr hpc u k q hne hu] at hq; cases hq

theorem QInv.noowner {s : Sys} (h : QInv s) (hp : PInv s) {t : Nat} {j : Job} {pc : PostPc}
    (hthr : s.thr t = .post j pc) (hpc : pc ≠ .lock) (hn : ownsRes pc = false) : s.postRes = none := by
  cases hr : s.postRes with
  | none => rfl
  | some p =>
    obtain ⟨u, k, q, h1, h2, _⟩ := h.owner p hr
    by_cases hu : u = t
    · subst hu; rw [hthr] at h1; cases h1; rw [hn] at h2; cases h2
    · rw [hp.others hthr hpc u k q hu h1] at h2; cases h2

theorem postStep_qinv {e : Endian} {s s' : Sys} {t : Nat} {j : Job} {pc : PostPc} (h : QInv s) (hp : PInv s)
    (hthr : s.thr t = .post j pc) (hs : postStep e s t j pc = .ok (some s')) : QInv s' := by
  cases pc with
  | lock =>
    simp only [postStep, Res.ok.injEq] at hs
    split at hs
    · simp only [Option.some.injEq] at hs; subst hs
      exact h.other (t := t) rfl (by intro k q hk; rw [hthr] at hk; cases hk; rfl) (by simp +contextual) rfl rfl
    · simp at hs
  | setReq =>
    simp only [postStep, Res.ok.injEq, Option.some.injEq] at hs; subst hs
    exact QInv.inside hp hthr (by simp) rfl (.inl (h.noowner hp hthr (by simp) rfl)) (fun _ _ hx hc => by cases hx; cases hc)
  | setRes =>
    simp only [postStep, Res.ok.injEq, Option.some.injEq] at hs; subst hs
    exact QInv.inside hp hthr (by simp) rfl (.inr ⟨_, rfl, rfl, rfl⟩) (fun _ _ hx hc => by cases hx; cases hc)
  | tid p =>
    simp only [postStep] at hs
    split at hs
    · simp only [Res.ok.injEq, Option.some.injEq] at hs; subst hs
      exact QInv.inside hp hthr (by simp) rfl (.inr ⟨_, rfl, rfl, hp.res t j _ hthr rfl⟩) (fun _ _ hx hc => by cases hx; cases hc)
    · simp only [Res.ok.injEq, Option.some.injEq] at hs; subst hs
      exact QInv.inside hp hthr (by simp) rfl (.inr ⟨_, rfl, rfl, hp.res t j _ hthr rfl⟩) (fun _ _ hx hc => by cases hx; cases hc)
  | setTid v =>
    simp only [postStep] at hs
    split at hs
    · simp at hs
    · simp only [Res.ok.injEq, Option.some.injEq] at hs; subst hs
      exact QInv.inside hp hthr (by simp) rfl (.inr ⟨_, rfl, rfl, hp.res t j _ hthr rfl⟩) (fun _ _ hx hc => by cases hx; cases hc)
  | send =>
    simp only [postStep] at hs
    split at hs
    · simp at hs
    · simp only [Res.ok.injEq, Option.some.injEq] at hs; subst hs
      exact QInv.inside hp hthr (by simp) rfl (.inr ⟨_, rfl, rfl, hp.res t j _ hthr rfl⟩) (fun _ _ hx hc => by cases hx; cases hc)
  | condWait =>
    simp only [postStep, Res.ok.injEq, Option.some.injEq] at hs; subst hs
    exact QInv.inside hp hthr (by simp) rfl (.inr ⟨_, rfl, rfl, hp.res t j _ hthr rfl⟩) (fun _ _ hx hc => by cases hx; cases hc)
  | waiting =>
    simp only [postStep, Res.ok.injEq] at hs
    split at hs
    · simp at hs
    · simp only [Option.some.injEq] at hs; subst hs
      exact QInv.inside hp hthr (by simp) rfl (.inr ⟨_, rfl, rfl, hp.res t j _ hthr rfl⟩) (fun _ _ hx hc => by cases hx; cases hc)
  | clearReq r =>
    simp only [postStep, Res.ok.injEq, Option.some.injEq] at hs; subst hs
    exact QInv.inside hp hthr (by simp) rfl (.inr ⟨_, rfl, rfl, hp.res t j _ hthr rfl⟩) (fun _ _ hx hc => rfl)
  | clearRes r =>
    simp only [postStep, Res.ok.injEq, Option.some.injEq] at hs; subst hs
    exact QInv.inside hp hthr (by simp) rfl (.inl rfl) (fun _ _ hx hc => h.cleared t j _ hthr rfl)
  | unlock r =>
    simp only [postStep, Res.ok.injEq, Option.some.injEq] at hs; subst hs
    exact QInv.inside hp hthr (by simp) rfl (.inl (h.noowner hp hthr (by simp) rfl)) (fun _ _ hx hc => by cases hx)

theorem step_qinv {e : Endian} {s s' : Sys} {l : Label} (h : QInv s) (hp : PInv s)
    (ha : ∀ t, l ≠ .sendFail t) (hs : Post.step e s l = .ok (some s')) : QInv s' := by
  cases l with
  | callPost t j =>
    simp only [Post.step] at hs
    split at hs
    · rename_i ht
      simp only [Res.ok.injEq, Option.some.injEq] at hs; subst hs
      exact h.other (t := t) rfl (by simp [ht]) (by simp +contextual) rfl rfl
    · simp at hs
  | callSend t =>
    simp only [Post.step] at hs
    split at hs
    · rename_i ht
      simp only [Res.ok.injEq, Option.some.injEq] at hs; subst hs
      exact h.other (t := t) rfl (by simp [ht]) (by simp +contextual) rfl rfl
    · simp at hs
  | arrive t m =>
    simp only [Post.step] at hs
    split at hs
    · rename_i ht
      simp only [Res.ok.injEq, Option.some.injEq] at hs; subst hs
      exact h.other (t := t) rfl (by simp [ht]) (by simp +contextual) rfl rfl
    · simp at hs
  | step t =>
    simp only [Post.step, threadStep] at hs
    cases hthr : s.thr t with
    | idle => simp [hthr] at hs
    | post j pc => rw [hthr] at hs; exact postStep_qinv h hp hthr hs
    | sender pc =>
      rw [hthr] at hs
      cases pc with
      | inl pc =>
        simp only [Res.ok.injEq, Option.some.injEq] at hs; subst hs
        exact h.other (t := t) rfl (by simp [hthr]) (by simp) rfl rfl
      | inr v =>
        simp only [Res.ok.injEq, Option.some.injEq] at hs; subst hs
        exact h.other (t := t) rfl (by simp [hthr]) (by simp) rfl rfl
    | recv m pc =>
      rw [hthr] at hs
      simp only [Res.bind_eq_ok, Res.pure_eq, Res.ok.injEq, Option.some.injEq] at hs
      obtain ⟨⟨s1, pc1⟩, h1, rfl⟩ := hs
      obtain ⟨a1, a2, a3, a4, _, _, a7⟩ := recvStep_frame h1
      refine h.other (t := t) (x := if pc1 = .done then .idle else .recv m pc1) ?_ (by simp [hthr]) ?_ a2 a3
      · funext u; simp only [Sys.goto, a4]
      · intro j pc hx; split at hx <;> simp at hx
  | sendFail t => exact absurd rfl (ha t)
  | timeout t =>
    simp only [Post.step] at hs
    split at hs
    · rename_i j hthr
      split at hs
      · simp only [Res.ok.injEq, Option.some.injEq] at hs; subst hs
        exact QInv.inside hp hthr (by simp) rfl (.inr ⟨_, rfl, rfl, hp.res t j _ hthr rfl⟩) (fun _ _ hx hc => by cases hx; cases hc)
      · simp at hs
    · simp at hs
  | spurious t =>
    simp only [Post.step] at hs
    split at hs
    · rename_i j hthr
      split at hs
      · simp only [Res.ok.injEq, Option.some.injEq] at hs; subst hs
        exact QInv.inside hp hthr (by simp) rfl (.inr ⟨_, rfl, rfl, hp.res t j _ hthr rfl⟩) (fun _ _ hx hc => by cases hx; cases hc)
      · simp at hs
    · simp at hs
  | deliver m =>
    simp only [Post.step, Res.bind_eq_ok, Res.pure_eq, Res.ok.injEq, Option.some.injEq] at hs
    obtain ⟨s1, h1, rfl⟩ := hs
    obtain ⟨a1, a2, a3, a4, _⟩ := deliver_frame h1
    exact h.same a4 a2 a3
  | store p m =>
    simp only [Post.step, Res.ok.injEq, Option.some.injEq] at hs; subst hs
    exact h.same rfl rfl rfl
  | free p =>
    simp only [Post.step, Res.ok.injEq, Option.some.injEq] at hs; subst hs
    exact h.same rfl rfl rfl

theorem new_qinv {e : Endian} {s : Sys} {ls : List Label} (h : RunFromNew e ls s) (hf : NoSendFailure ls) : QInv s := by
  obtain ⟨r, t, h⟩ := h
  generalize hi : Sys.init r t = i at h
  induction h with
  | nil => subst hi; exact ⟨by simp [Sys.init], by simp [Sys.init]⟩
  | snoc l h1 hu hst ih =>
    subst hi
    exact step_qinv (ih (fun t hm => hf t (List.mem_append_left _ hm))) (run_inv (init_inv r t) h1)
      (fun t hl => hf t (by simp [hl])) hst

/-! ## A woken post returns true -/

/-- `t` is sure to return true, or has -/
def Woken (t : Nat) (j : Job) (l0 : List Ev) (s : Sys) : Prop :=
  ∃ new, s.log = l0 ++ new ∧ ((firstReturn t new = none ∧ ∃ pc, s.thr t = .post j pc ∧ sure s t pc) ∨
    firstReturn t new = some true)

theorem firstReturn_append (t : Nat) (l : List Ev) (x : Ev) :
    firstReturn t (l ++ [x]) = (firstReturn t l).or (firstReturn t [x]) := by
  simp [firstReturn, List.findSome?_append]

/-- the log grows by nothing or one event -/
theorem Woken.mk' {t : Nat} {j : Job} {l0 : List Ev} {s s' : Sys} (h : Woken t j l0 s)
    (hl : s'.log = s.log ∨ ∃ x, s'.log = s.log ++ [x] ∧ firstReturn t [x] = none)
    (ht : ∀ pc, s.thr t = .post j pc → sure s t pc → ∃ pc', s'.thr t = .post j pc' ∧ sure s' t pc') :
    Woken t j l0 s' := by
  obtain ⟨new, h1, h2⟩ := h
  rcases hl with hl | ⟨x, hl, hx⟩
  · refine ⟨new, by rw [hl, h1], ?_⟩
    rcases h2 with ⟨h2, pc, h3, h4⟩ | h2
    · exact .inl ⟨h2, ht pc h3 h4⟩
    · exact .inr h2
  · refine ⟨new ++ [x], by rw [hl, h1, List.append_assoc], ?_⟩
    rw [firstReturn_append, hx]
    rcases h2 with ⟨h2, pc, h3, h4⟩ | h2
    · rw [h2]; exact .inl ⟨rfl, ht pc h3 h4⟩
    · rw [h2]; exact .inr rfl

theorem sure_mono {s s' : Sys} {t : Nat} {pc : PostPc} (h : sure s t pc) (hw : t ∈ s'.waiters → t ∈ s.waiters) :
    sure s' t pc := by
  cases pc with
  | waiting => exact fun hh => h (hw hh)
  | _ => exact h

/-- thread `u` moves from `old` to `x` -/
theorem sure_move {s s' : Sys} {t u : Nat} {j : Job} {x : Thread} (ht : s'.thr = (s.goto u x).thr)
    (hw : t ∈ s'.waiters → t ∈ s.waiters)
    (hu : u = t → ∀ pc, s.thr t = .post j pc → sure s t pc → ∃ pc', x = .post j pc' ∧ sure s' t pc') :
    ∀ pc, s.thr t = .post j pc → sure s t pc → ∃ pc', s'.thr t = .post j pc' ∧ sure s' t pc' := by
  intro pc h1 h2
  by_cases h : u = t
  · obtain ⟨pc', h3, h4⟩ := hu h pc h1 h2
    exact ⟨pc', by rw [ht, ← h, goto_thr, if_pos rfl]; exact h3, h4⟩
  · refine ⟨pc, ?_, sure_mono h2 hw⟩
    rw [ht, goto_thr, if_neg (Ne.symm h)]; exact h1

theorem step_woken {e : Endian} {t : Nat} {j : Job} {l0 : List Ev} {s s' : Sys} {l : Label} (h : Woken t j l0 s)
    (hs : Post.step e s l = .ok (some s')) : Woken t j l0 s' := by
  have idle : ∀ {u : Nat} {x : Thread}, s.thr u = .idle → u = t → ∀ pc, s.thr t = .post j pc → sure s t pc →
      ∃ pc', x = .post j pc' ∧ sure s' t pc' := by
    intro u x h1 h2 pc h3; rw [h2] at h1; rw [h1] at h3; cases h3
  cases l with
  | callPost u k =>
    simp only [Post.step] at hs
    split at hs
    · rename_i hthr
      simp only [Res.ok.injEq, Option.some.injEq] at hs; subst hs
      exact h.mk' (.inl rfl) (sure_move rfl (fun h => h) (idle hthr))
    · simp at hs
  | callSend u =>
    simp only [Post.step] at hs
    split at hs
    · rename_i hthr
      simp only [Res.ok.injEq, Option.some.injEq] at hs; subst hs
      exact h.mk' (.inl rfl) (sure_move rfl (fun h => h) (idle hthr))
    · simp at hs
  | arrive u m =>
    simp only [Post.step] at hs
    split at hs
    · rename_i hthr
      simp only [Res.ok.injEq, Option.some.injEq] at hs; subst hs
      exact h.mk' (.inr ⟨_, rfl, rfl⟩) (sure_move rfl (fun h => h) (idle hthr))
    · simp at hs
  | step u =>
    simp only [Post.step, threadStep] at hs
    cases hthr : s.thr u with
    | idle => simp [hthr] at hs
    | post k pc =>
      rw [hthr] at hs
      have unsure : ∀ {x : Thread}, (¬ sure s u pc) → u = t → ∀ pc, s.thr t = .post j pc → sure s t pc →
          ∃ pc', x = .post j pc' ∧ sure s' t pc' := by
        intro x h1 h2 pc' h3 h4
        subst h2; rw [hthr] at h3; cases h3; exact absurd h4 h1
      cases pc with
      | lock =>
        simp only [postStep, Res.ok.injEq] at hs
        split at hs
        · simp only [Option.some.injEq] at hs; subst hs
          exact h.mk' (.inl rfl) (sure_move rfl (fun h => h) (unsure id))
        · simp at hs
      | tid p =>
        simp only [postStep] at hs
        split at hs <;>
        · simp only [Res.ok.injEq, Option.some.injEq] at hs; subst hs
          exact h.mk' (.inl rfl) (sure_move rfl (fun h => h) (unsure id))
      | setTid v =>
        simp only [postStep] at hs
        split at hs
        · simp at hs
        · simp only [Res.ok.injEq, Option.some.injEq] at hs; subst hs
          exact h.mk' (.inl rfl) (sure_move rfl (fun h => h) (unsure id))
      | send =>
        simp only [postStep] at hs
        split at hs
        · simp at hs
        · simp only [Res.ok.injEq, Option.some.injEq] at hs; subst hs
          exact h.mk' (.inr ⟨_, rfl, rfl⟩) (sure_move rfl (fun h => h) (unsure id))
      | condWait =>
        simp only [postStep, Res.ok.injEq, Option.some.injEq] at hs; subst hs
        refine h.mk' (.inl rfl) ?_
        intro pc h1 h2
        by_cases hu : u = t
        · subst hu; rw [hthr] at h1; cases h1; exact h2.elim
        · refine ⟨pc, by rw [goto_thr, if_neg (Ne.symm hu)]; exact h1, sure_mono h2 ?_⟩
          intro hm
          have hm : t ∈ s.waiters ++ [u] := hm
          simp only [List.mem_append, List.mem_singleton] at hm
          rcases hm with hm | hm
          · exact hm
          · exact absurd hm.symm hu
      | waiting =>
        simp only [postStep, Res.ok.injEq] at hs
        split at hs
        · simp at hs
        · simp only [Option.some.injEq] at hs; subst hs
          refine h.mk' (.inl rfl) (sure_move rfl (fun h => h) ?_)
          intro hu pc h1 _
          subst hu; rw [hthr] at h1; cases h1; exact ⟨_, rfl, rfl⟩
      | clearReq r =>
        simp only [postStep, Res.ok.injEq, Option.some.injEq] at hs; subst hs
        refine h.mk' (.inl rfl) (sure_move rfl (fun h => h) ?_)
        intro hu pc h1 h2
        subst hu; rw [hthr] at h1; cases h1; exact ⟨_, rfl, h2⟩
      | clearRes r =>
        simp only [postStep, Res.ok.injEq, Option.some.injEq] at hs; subst hs
        refine h.mk' (.inl rfl) (sure_move rfl (fun h => h) ?_)
        intro hu pc h1 h2
        subst hu; rw [hthr] at h1; cases h1; exact ⟨_, rfl, h2⟩
      | unlock r =>
        simp only [postStep, Res.ok.injEq, Option.some.injEq] at hs; subst hs
        by_cases hu : u = t
        · subst hu
          obtain ⟨new, h1, h2⟩ := h
          refine ⟨new ++ [.returned u k r (s.heap k.req) (s.heap k.res)], ?_, .inr ?_⟩
          · show s.log ++ [_] = _
            rw [h1, List.append_assoc]
          · rw [firstReturn_append]
            rcases h2 with ⟨h2, pc, h3, h4⟩ | h2
            · rw [hthr] at h3; cases h3
              rw [h2]; simp [firstReturn, show r = true from h4]
            · rw [h2]; rfl
        · refine h.mk' (.inr ⟨_, rfl, ?_⟩) (sure_move rfl (fun h => h) (fun h => absurd h hu))
          simp [firstReturn, hu]
      | _ =>
        simp only [postStep, Res.ok.injEq, Option.some.injEq] at hs; subst hs
        exact h.mk' (.inl rfl) (sure_move rfl (fun h => h) (unsure id))
    | sender pc =>
      rw [hthr] at hs
      have nope : ∀ {x : Thread}, u = t → ∀ pc, s.thr t = .post j pc → sure s t pc →
          ∃ pc', x = .post j pc' ∧ sure s' t pc' := by
        intro x h2 pc' h3 h4
        subst h2; rw [hthr] at h3; cases h3
      cases pc with
      | inl pc =>
        simp only [Res.ok.injEq, Option.some.injEq] at hs; subst hs
        exact h.mk' (.inl rfl) (sure_move rfl (fun h => h) nope)
      | inr v =>
        simp only [Res.ok.injEq, Option.some.injEq] at hs; subst hs
        exact h.mk' (.inr ⟨_, rfl, rfl⟩) (sure_move rfl (fun h => h) nope)
    | recv m pc =>
      rw [hthr] at hs
      simp only [Res.bind_eq_ok, Res.pure_eq, Res.ok.injEq, Option.some.injEq] at hs
      obtain ⟨⟨s1, pc1⟩, h1, rfl⟩ := hs
      obtain ⟨a1, a2, a3, a4, _, a6, a7⟩ := recvStep_frame h1
      refine h.mk' (.inl a6) ?_
      refine sure_move (u := u) (x := if pc1 = .done then .idle else .recv m pc1) ?_ (waiters_mem a7 t) ?_
      · funext v; simp only [Sys.goto, a4]
      · intro hu pc h3 h4
        subst hu; rw [hthr] at h3; cases h3
  | sendFail u =>
    simp only [Post.step] at hs
    split at hs
    · rename_i k hthr
      split at hs
      · simp at hs
      · simp only [Res.ok.injEq, Option.some.injEq] at hs; subst hs
        refine h.mk' (.inr ⟨_, rfl, rfl⟩) (sure_move rfl (fun h => h) ?_)
        intro hu pc h3 h4
        subst hu; rw [hthr] at h3; cases h3; exact h4.elim
    · simp at hs
  | timeout u =>
    simp only [Post.step] at hs
    split at hs
    · rename_i k hthr
      split at hs
      · rename_i hw
        simp only [Res.ok.injEq, Option.some.injEq] at hs; subst hs
        refine h.mk' (.inl rfl) (sure_move rfl (fun h => List.mem_of_mem_erase h) ?_)
        intro hu pc h3 h4
        subst hu; rw [hthr] at h3; cases h3; exact absurd hw h4
      · simp at hs
    · simp at hs
  | spurious u =>
    simp only [Post.step] at hs
    split at hs
    · rename_i k hthr
      split at hs
      · rename_i hw
        simp only [Res.ok.injEq, Option.some.injEq] at hs; subst hs
        refine h.mk' (.inl rfl) (sure_move rfl (fun h => List.mem_of_mem_erase h) ?_)
        intro hu pc h3 h4
        subst hu; rw [hthr] at h3; cases h3; exact absurd hw h4
      · simp at hs
    · simp at hs
  | deliver m =>
    simp only [Post.step, Res.bind_eq_ok, Res.pure_eq, Res.ok.injEq, Option.some.injEq] at hs
    obtain ⟨s1, h1, rfl⟩ := hs
    obtain ⟨a1, a2, a3, a4, _, a6, a7⟩ := deliver_frame h1
    refine h.mk' (.inr ⟨_, a6, rfl⟩) ?_
    intro pc h3 h4
    exact ⟨pc, by rw [a4]; exact h3, sure_mono h4 (a7 t)⟩
  | store p m =>
    simp only [Post.step, Res.ok.injEq, Option.some.injEq] at hs; subst hs
    exact h.mk' (.inl rfl) (fun pc h3 h4 => ⟨pc, h3, sure_mono h4 (fun h => h)⟩)
  | free p =>
    simp only [Post.step, Res.ok.injEq, Option.some.injEq] at hs; subst hs
    exact h.mk' (.inl rfl) (fun pc h3 h4 => ⟨pc, h3, sure_mono h4 (fun h => h)⟩)

theorem run_woken {e : Endian} {t : Nat} {j : Job} {l0 : List Ev} {s s' : Sys} {ls : List Label} (h : Woken t j l0 s)
    (hr : Run e s ls s') : Woken t j l0 s' := by
  induction hr with
  | nil => exact h
  | snoc l _ _ hst ih => exact step_woken ih hst

end Uecho.Lemmas
