import Verif.Spec.PostApi
import Verif.Lemmas.Copy
/-!
# Invariants of posts and the listener
-/
set_option linter.unusedSimpArgs false
namespace Uecho.Lemmas
open Uecho Uecho.Spec Uecho.Post

/-- `postReq` has been set by this call and not cleared -/
def ownsReq : PostPc → Bool
  | .lock => false
  | .setReq => false
  | .setRes => true
  | .tid _ => true
  | .setTid _ => true
  | .send => true
  | .condWait => true
  | .waiting => true
  | .clearReq _ => true
  | .clearRes _ => false
  | .unlock _ => false
/-- same for `postRes` -/
def ownsRes : PostPc → Bool
  | .lock => false
  | .setReq => false
  | .setRes => false
  | .tid _ => true
  | .setTid _ => true
  | .send => true
  | .condWait => true
  | .waiting => true
  | .clearReq _ => true
  | .clearRes _ => true
  | .unlock _ => false

structure PInv (s : Sys) : Prop where
  own : ∀ t j pc, s.thr t = .post j pc → pc ≠ .lock → s.mutex = some t
  held : ∀ t, s.mutex = some t → ∃ j pc, s.thr t = .post j pc ∧ pc ≠ .lock
  req : ∀ t j pc, s.thr t = .post j pc → ownsReq pc = true → s.postReq = some j.req
  res : ∀ t j pc, s.thr t = .post j pc → ownsRes pc = true → s.postRes = some j.res
  wait : ∀ t, t ∈ s.waiters → ∃ j, s.thr t = .post j .waiting
  one : s.waiters.length ≤ 1

theorem recvStep_frame {e : Endian} {s s' : Sys} {m : Message} {pc pc' : RecvPc}
    (h : recvStep e s m pc = .ok (s', pc')) :
    s'.mutex = s.mutex ∧ s'.postReq = s.postReq ∧ s'.postRes = s.postRes ∧ s'.thr = s.thr ∧
    s'.lastTid = s.lastTid ∧ s'.log = s.log ∧ (s'.waiters = s.waiters ∨ s'.waiters = s.waiters.tail) := by
  cases pc with
  | compare =>
    simp only [recvStep] at h
    split at h
    · simp at h; obtain ⟨rfl, _⟩ := h; simp
    · split at h
      · simp at h
      · simp at h; obtain ⟨rfl, _⟩ := h; simp
  | copy p =>
    cases p with
    | none => simp [recvStep] at h; obtain ⟨rfl, _⟩ := h; simp
    | some p =>
      simp only [recvStep] at h
      split at h
      · simp at h
      · simp only [Res.bind_eq_ok, Res.pure_eq, Res.ok.injEq, Prod.mk.injEq] at h
        obtain ⟨_, _, rfl, _⟩ := h; simp
  | _ => simp [recvStep] at h; obtain ⟨rfl, _⟩ := h; simp

theorem deliver_frame {e : Endian} {s s' : Sys} {m : Message} (h : deliver e s m = .ok s') :
    s'.mutex = s.mutex ∧ s'.postReq = s.postReq ∧ s'.postRes = s.postRes ∧ s'.thr = s.thr ∧
    s'.lastTid = s.lastTid ∧ s'.log = s.log ++ [.arrived m] ∧ ∀ t, t ∈ s'.waiters → t ∈ s.waiters := by
  unfold deliver at h
  simp only [Res.bind_eq_ok, Res.pure_eq, Res.ok.injEq] at h
  obtain ⟨⟨s1, p1⟩, h1, ⟨s2, p2⟩, h2, ⟨s3, p3⟩, h3, ⟨s4, p4⟩, h4, ⟨s5, p5⟩, h5, ⟨s6, p6⟩, h6, ⟨s7, p7⟩, h7, rfl⟩ := h
  have f1 := recvStep_frame h1
  have f2 := recvStep_frame h2
  have f3 := recvStep_frame h3
  have f4 := recvStep_frame h4
  have f5 := recvStep_frame h5
  have f6 := recvStep_frame h6
  have f7 := recvStep_frame h7
  have w : ∀ {a b : List Nat}, (a = b ∨ a = b.tail) → ∀ t, t ∈ a → t ∈ b := by
    rintro a b (rfl | rfl) t ht
    · exact ht
    · exact List.mem_of_mem_tail ht
  refine ⟨?_, ?_, ?_, ?_, ?_, ?_, ?_⟩
  · exact f7.1.trans (f6.1.trans (f5.1.trans (f4.1.trans (f3.1.trans (f2.1.trans f1.1)))))
  · exact f7.2.1.trans (f6.2.1.trans (f5.2.1.trans (f4.2.1.trans (f3.2.1.trans (f2.2.1.trans f1.2.1)))))
  · exact f7.2.2.1.trans (f6.2.2.1.trans (f5.2.2.1.trans (f4.2.2.1.trans (f3.2.2.1.trans (f2.2.2.1.trans f1.2.2.1)))))
  · exact f7.2.2.2.1.trans (f6.2.2.2.1.trans (f5.2.2.2.1.trans (f4.2.2.2.1.trans (f3.2.2.2.1.trans (f2.2.2.2.1.trans f1.2.2.2.1)))))
  · exact f7.2.2.2.2.1.trans (f6.2.2.2.2.1.trans (f5.2.2.2.2.1.trans (f4.2.2.2.2.1.trans (f3.2.2.2.2.1.trans (f2.2.2.2.2.1.trans f1.2.2.2.2.1)))))
  · exact f7.2.2.2.2.2.1.trans (f6.2.2.2.2.2.1.trans (f5.2.2.2.2.2.1.trans (f4.2.2.2.2.2.1.trans (f3.2.2.2.2.2.1.trans (f2.2.2.2.2.2.1.trans f1.2.2.2.2.2.1)))))
  · intro t ht
    exact w f1.2.2.2.2.2.2 t (w f2.2.2.2.2.2.2 t (w f3.2.2.2.2.2.2 t (w f4.2.2.2.2.2.2 t (w f5.2.2.2.2.2.2 t
      (w f6.2.2.2.2.2.2 t (w f7.2.2.2.2.2.2 t ht))))))

theorem goto_thr (s : Sys) (t : Nat) (x : Thread) (u : Nat) : (s.goto t x).thr u = if u = t then x else s.thr u := rfl

/-- a thread that has no part in the post protocol before or after the step -/
theorem PInv.other {s s' : Sys} {t : Nat} {x : Thread} (h : PInv s) (hm : s'.mutex = s.mutex)
    (hq : s'.postReq = s.postReq) (hr : s'.postRes = s.postRes) (hw : ∀ u ∈ s'.waiters, u ∈ s.waiters)
    (hl : s'.waiters.length ≤ 1)
    (ht : s'.thr = (s.goto t x).thr) (hold : ∀ j pc, s.thr t = .post j pc → pc = .lock)
    (hnew : ∀ j pc, x = .post j pc → pc = .lock) : PInv s' := by
  have hthr : ∀ u, s'.thr u = if u = t then x else s.thr u := fun u => by rw [ht]; rfl
  refine ⟨?_, ?_, ?_, ?_, ?_, hl⟩
  · intro u j pc hu hp
    rw [hthr] at hu
    split at hu
    · exact absurd (hnew j pc hu) hp
    · rw [hm]; exact h.own u j pc hu hp
  · intro u hu
    rw [hm] at hu
    obtain ⟨j, pc, hj, hp⟩ := h.held u hu
    refine ⟨j, pc, ?_, hp⟩
    rw [hthr, if_neg]
    · exact hj
    · rintro rfl; exact hp (hold j pc hj)
  · intro u j pc hu hp
    rw [hthr] at hu
    split at hu
    · rw [hnew j pc hu] at hp; cases hp
    · rw [hq]; exact h.req u j pc hu hp
  · intro u j pc hu hp
    rw [hthr] at hu
    split at hu
    · rw [hnew j pc hu] at hp; cases hp
    · rw [hr]; exact h.res u j pc hu hp
  · intro u hu
    obtain ⟨j, hj⟩ := h.wait u (hw u hu)
    refine ⟨j, ?_⟩
    rw [hthr, if_neg]
    · exact hj
    · rintro rfl; have := hold _ _ hj; simp at this

/-- a step of the thread inside a post that stays inside -/
theorem PInv.inside {s s' : Sys} {t : Nat} {j : Job} {pc pc' : PostPc} (h : PInv s) (hthr : s.thr t = .post j pc)
    (hpc : pc ≠ .lock) (hpc' : pc' ≠ .lock) (hm : s'.mutex = s.mutex)
    (hq : ownsReq pc' = true → s'.postReq = some j.req) (hr : ownsRes pc' = true → s'.postRes = some j.res)
    (hw : ∀ u ∈ s'.waiters, u = t ∧ pc' = .waiting) (hl : s'.waiters.length ≤ 1)
    (ht : s'.thr = (s.goto t (.post j pc')).thr) : PInv s' := by
  have ht : ∀ u, s'.thr u = if u = t then .post j pc' else s.thr u := fun u => by rw [ht]; rfl
  have hmx := h.own t j pc hthr hpc
  have huniq : ∀ u k q, u ≠ t → s.thr u = .post k q → q = .lock := by
    intro u k q hu hk
    by_cases hq : q = .lock
    · exact hq
    · have := h.own u k q hk hq
      rw [hmx] at this; exact absurd (Option.some.inj this).symm hu
  refine ⟨?_, ?_, ?_, ?_, ?_, hl⟩
  · intro u k q hu hp
    rw [ht] at hu
    split at hu
    · subst u; rw [hm, hmx]
    · rename_i hne; exact absurd (huniq u k q hne hu) hp
  · intro u hu
    rw [hm, hmx] at hu; cases hu
    exact ⟨j, pc', by rw [ht, if_pos rfl], hpc'⟩
  · intro u k q hu hp
    rw [ht] at hu
    split at hu
    · cases hu; exact hq hp
    · rename_i hne; rw [huniq u k q hne hu] at hp; cases hp
  · intro u k q hu hp
    rw [ht] at hu
    split at hu
    · cases hu; exact hr hp
    · rename_i hne; rw [huniq u k q hne hu] at hp; cases hp
  · intro u hu
    obtain ⟨rfl, rfl⟩ := hw u hu
    exact ⟨j, by rw [ht, if_pos rfl]⟩

/-- waiters are the waiting thread itself -/
theorem PInv.waiters_sub {s : Sys} {t : Nat} {j : Job} {pc : PostPc} (h : PInv s) (hthr : s.thr t = .post j pc)
    (hpc : pc ≠ .lock) : ∀ u ∈ s.waiters, u = t ∧ pc = .waiting := by
  intro u hu
  obtain ⟨k, hk⟩ := h.wait u hu
  have h1 := h.own u k _ hk (by simp)
  have h2 := h.own t j pc hthr hpc
  rw [h1] at h2
  cases Option.some.inj h2
  rw [hk] at hthr
  cases hthr
  exact ⟨rfl, rfl⟩

theorem PInv.nowaiter {s : Sys} {t : Nat} {j : Job} {pc : PostPc} (h : PInv s) (hthr : s.thr t = .post j pc)
    (hpc : pc ≠ .lock) (hw : pc ≠ .waiting) : s.waiters = [] := by
  cases hl : s.waiters with
  | nil => rfl
  | cons u us => exact absurd ((h.waiters_sub hthr hpc u (by simp [hl])).2) hw

theorem PInv.same {s s' : Sys} (h : PInv s) (hm : s'.mutex = s.mutex)
    (hq : s'.postReq = s.postReq) (hr : s'.postRes = s.postRes) (hw : ∀ u ∈ s'.waiters, u ∈ s.waiters)
    (hl : s'.waiters.length ≤ 1) (ht : s'.thr = s.thr) : PInv s' :=
  ⟨by rw [hm, ht]; exact h.own, by rw [hm, ht]; exact h.held, by rw [hq, ht]; exact h.req, by rw [hr, ht]; exact h.res,
    fun u hu => by rw [ht]; exact h.wait u (hw u hu), hl⟩

theorem waiters_len {a b : List Nat} (h : a = b ∨ a = b.tail) (hb : b.length ≤ 1) : a.length ≤ 1 := by
  rcases h with rfl | rfl
  · exact hb
  · simp; omega

theorem waiters_mem {a b : List Nat} (h : a = b ∨ a = b.tail) : ∀ t ∈ a, t ∈ b := by
  rcases h with rfl | rfl
  · exact fun _ h => h
  · exact fun _ h => List.mem_of_mem_tail h

theorem deliver_len {e : Endian} {s s' : Sys} {m : Message} (h : deliver e s m = .ok s') (hl : s.waiters.length ≤ 1) :
    s'.waiters.length ≤ 1 := by
  unfold deliver at h
  simp only [Res.bind_eq_ok, Res.pure_eq, Res.ok.injEq] at h
  obtain ⟨⟨s1, p1⟩, h1, ⟨s2, p2⟩, h2, ⟨s3, p3⟩, h3, ⟨s4, p4⟩, h4, ⟨s5, p5⟩, h5, ⟨s6, p6⟩, h6, ⟨s7, p7⟩, h7, rfl⟩ := h
  have l := fun {a b p p'} (h : recvStep e a m p = .ok (b, p')) => waiters_len (recvStep_frame h).2.2.2.2.2.2
  exact l h7 (l h6 (l h5 (l h4 (l h3 (l h2 (l h1 hl))))))

theorem postStep_inv {e : Endian} {s s' : Sys} {t : Nat} {j : Job} {pc : PostPc} (h : PInv s)
    (hthr : s.thr t = .post j pc) (hs : postStep e s t j pc = .ok (some s')) : PInv s' := by
  cases pc with
  | lock =>
    simp only [postStep, Res.ok.injEq] at hs
    split at hs
    · rename_i hm
      simp only [Option.some.injEq] at hs; subst hs
      have hnone : ∀ u k q, s.thr u = .post k q → q = .lock := by
        intro u k q hk
        by_cases hq : q = .lock
        · exact hq
        · have := h.own u k q hk hq; rw [hm] at this; simp at this
      refine ⟨?_, ?_, ?_, ?_, ?_, h.one⟩
      · intro u k q hu hp
        rw [goto_thr] at hu
        split at hu
        · subst u; rfl
        · exact absurd (hnone u k q hu) hp
      · intro u hu
        have : t = u := by simpa [Sys.goto] using hu
        subst this
        exact ⟨j, .setReq, by rw [goto_thr, if_pos rfl], by simp⟩
      · intro u k q hu hp
        rw [goto_thr] at hu
        split at hu
        · cases hu; cases hp
        · rw [hnone u k q hu] at hp; cases hp
      · intro u k q hu hp
        rw [goto_thr] at hu
        split at hu
        · cases hu; cases hp
        · rw [hnone u k q hu] at hp; cases hp
      · intro u hu
        obtain ⟨k, hk⟩ := h.wait u hu
        have := hnone u k _ hk; simp at this
    · simp at hs
  | setReq =>
    simp only [postStep, Res.ok.injEq, Option.some.injEq] at hs; subst hs
    have hw := h.nowaiter hthr (by simp) (by simp)
    exact h.inside hthr (by simp) (pc' := .setRes) (by simp) rfl (fun _ => rfl) (fun h => nomatch h) (by simp [Sys.goto, hw])
      (by simp [Sys.goto, hw]) rfl
  | setRes =>
    simp only [postStep, Res.ok.injEq, Option.some.injEq] at hs; subst hs
    have hw := h.nowaiter hthr (by simp) (by simp)
    exact h.inside hthr (by simp) (pc' := .tid .cmp) (by simp) rfl (fun _ => h.req t j _ hthr rfl) (fun _ => rfl)
      (by simp [Sys.goto, hw]) (by simp [Sys.goto, hw]) rfl
  | tid p =>
    have hw := h.nowaiter hthr (by simp) (by simp)
    simp only [postStep] at hs
    split at hs
    · simp only [Res.ok.injEq, Option.some.injEq] at hs; subst hs
      exact h.inside hthr (by simp) (pc' := .tid _) (by simp) rfl (fun _ => h.req t j _ hthr rfl)
        (fun _ => h.res t j _ hthr rfl) (by simp [Sys.goto, hw]) (by simp [Sys.goto, hw]) rfl
    · simp only [Res.ok.injEq, Option.some.injEq] at hs; subst hs
      exact h.inside hthr (by simp) (pc' := .setTid _) (by simp) rfl (fun _ => h.req t j _ hthr rfl)
        (fun _ => h.res t j _ hthr rfl) (by simp [Sys.goto, hw]) (by simp [Sys.goto, hw]) rfl
  | setTid v =>
    have hw := h.nowaiter hthr (by simp) (by simp)
    simp only [postStep] at hs
    split at hs
    · simp at hs
    · simp only [Res.ok.injEq, Option.some.injEq] at hs; subst hs
      exact h.inside hthr (by simp) (pc' := .send) (by simp) rfl (fun _ => h.req t j _ hthr rfl)
        (fun _ => h.res t j _ hthr rfl) (by simp [Sys.goto, hw]) (by simp [Sys.goto, hw]) rfl
  | send =>
    have hw := h.nowaiter hthr (by simp) (by simp)
    simp only [postStep] at hs
    split at hs
    · simp at hs
    · simp only [Res.ok.injEq, Option.some.injEq] at hs; subst hs
      exact h.inside hthr (by simp) (pc' := .condWait) (by simp) rfl (fun _ => h.req t j _ hthr rfl)
        (fun _ => h.res t j _ hthr rfl) (by simp [Sys.goto, Sys.emit, hw]) (by simp [Sys.goto, Sys.emit, hw]) rfl
  | condWait =>
    have hw := h.nowaiter hthr (by simp) (by simp)
    simp only [postStep, Res.ok.injEq, Option.some.injEq] at hs; subst hs
    exact h.inside hthr (by simp) (pc' := .waiting) (by simp) rfl (fun _ => h.req t j _ hthr rfl)
      (fun _ => h.res t j _ hthr rfl) (by simp [Sys.goto, hw]) (by simp [Sys.goto, hw]) rfl
  | waiting =>
    simp only [postStep, Res.ok.injEq] at hs
    split at hs
    · simp at hs
    · rename_i hn
      have hw : s.waiters = [] := by
        cases hl : s.waiters with
        | nil => rfl
        | cons u us =>
          have := (h.waiters_sub hthr (by simp) u (by simp [hl])).1
          subst this; exact absurd (by simp [hl]) hn
      simp only [Option.some.injEq] at hs; subst hs
      exact h.inside hthr (by simp) (pc' := .clearReq true) (by simp) rfl (fun _ => h.req t j _ hthr rfl)
        (fun _ => h.res t j _ hthr rfl) (by simp [Sys.goto, hw]) (by simp [Sys.goto, hw]) rfl
  | clearReq r =>
    have hw := h.nowaiter hthr (by simp) (by simp)
    simp only [postStep, Res.ok.injEq, Option.some.injEq] at hs; subst hs
    exact h.inside hthr (by simp) (pc' := .clearRes r) (by simp) rfl (fun h => nomatch h)
      (fun _ => h.res t j _ hthr rfl) (by simp [Sys.goto, hw]) (by simp [Sys.goto, hw]) rfl
  | clearRes r =>
    have hw := h.nowaiter hthr (by simp) (by simp)
    simp only [postStep, Res.ok.injEq, Option.some.injEq] at hs; subst hs
    exact h.inside hthr (by simp) (pc' := .unlock r) (by simp) rfl (fun h => nomatch h)
      (fun h => nomatch h) (by simp [Sys.goto, hw]) (by simp [Sys.goto, hw]) rfl
  | unlock r =>
    have hw := h.nowaiter hthr (by simp) (by simp)
    have hmx := h.own t j _ hthr (by simp)
    simp only [postStep, Res.ok.injEq, Option.some.injEq] at hs; subst hs
    have huniq : ∀ u k q, u ≠ t → s.thr u = .post k q → q = .lock := by
      intro u k q hu hk
      by_cases hq : q = .lock
      · exact hq
      · have := h.own u k q hk hq
        rw [hmx] at this; exact absurd (Option.some.inj this).symm hu
    refine ⟨?_, ?_, ?_, ?_, ?_, ?_⟩
    · intro u k q hu hp
      rw [goto_thr] at hu
      split at hu
      · simp at hu
      · rename_i hne; exact absurd (huniq u k q hne hu) hp
    · intro u hu; simp [Sys.goto, Sys.emit] at hu
    · intro u k q hu hp
      rw [goto_thr] at hu
      split at hu
      · simp at hu
      · rename_i hne; rw [huniq u k q hne hu] at hp; cases hp
    · intro u k q hu hp
      rw [goto_thr] at hu
      split at hu
      · simp at hu
      · rename_i hne; rw [huniq u k q hne hu] at hp; cases hp
    · intro u hu; simp [Sys.goto, Sys.emit, hw] at hu
    · simp [Sys.goto, Sys.emit, hw]

theorem step_inv {e : Endian} {s s' : Sys} {l : Label} (h : PInv s) (hs : Post.step e s l = .ok (some s')) : PInv s' := by
  cases l with
  | callPost t j =>
    simp only [Post.step] at hs
    split at hs
    · rename_i ht
      simp only [Res.ok.injEq, Option.some.injEq] at hs; subst hs
      exact h.other rfl rfl rfl (fun _ h => h) h.one rfl (by simp [ht]) (by simp +contextual)
    · simp at hs
  | callSend t =>
    simp only [Post.step] at hs
    split at hs
    · rename_i ht
      simp only [Res.ok.injEq, Option.some.injEq] at hs; subst hs
      exact h.other rfl rfl rfl (fun _ h => h) h.one rfl (by simp [ht]) (by simp +contextual)
    · simp at hs
  | arrive t m =>
    simp only [Post.step] at hs
    split at hs
    · rename_i ht
      simp only [Res.ok.injEq, Option.some.injEq] at hs; subst hs
      exact h.other rfl rfl rfl (fun _ h => h) h.one rfl (by simp [ht]) (by simp +contextual)
    · simp at hs
  | step t =>
    simp only [Post.step, threadStep] at hs
    cases hthr : s.thr t with
    | idle => simp [hthr] at hs
    | post j pc => rw [hthr] at hs; exact postStep_inv h hthr hs
    | sender pc =>
      rw [hthr] at hs
      cases pc with
      | inl pc =>
        simp only [Res.ok.injEq, Option.some.injEq] at hs; subst hs
        exact h.other rfl rfl rfl (fun _ h => h) h.one rfl (by simp [hthr]) (by simp)
      | inr v =>
        simp only [Res.ok.injEq, Option.some.injEq] at hs; subst hs
        exact h.other rfl rfl rfl (fun _ h => h) h.one rfl (by simp [hthr]) (by simp)
    | recv m pc =>
      rw [hthr] at hs
      simp only [Res.bind_eq_ok, Res.pure_eq, Res.ok.injEq, Option.some.injEq] at hs
      obtain ⟨⟨s1, pc1⟩, h1, rfl⟩ := hs
      obtain ⟨a1, a2, a3, a4, _, _, a7⟩ := recvStep_frame h1
      refine h.other a1 a2 a3 (waiters_mem a7) (waiters_len a7 h.one) (t := t)
        (x := if pc1 = .done then .idle else .recv m pc1) ?_ (by simp [hthr]) ?_
      · funext u; simp only [Sys.goto, a4]
      · intro j pc hx; split at hx <;> simp at hx
  | sendFail t =>
    simp only [Post.step] at hs
    split at hs
    · rename_i j hthr
      split at hs
      · simp at hs
      · have hw := h.nowaiter hthr (by simp) (by simp)
        simp only [Res.ok.injEq, Option.some.injEq] at hs; subst hs
        exact h.inside hthr (by simp) (pc' := .unlock false) (by simp) rfl (fun h => nomatch h) (fun h => nomatch h)
          (by simp [Sys.goto, Sys.emit, hw]) (by simp [Sys.goto, Sys.emit, hw]) rfl
    · simp at hs
  | timeout t =>
    simp only [Post.step] at hs
    split at hs
    · rename_i j hthr
      split at hs
      · rename_i hw
        have he : s.waiters.erase t = [] := by
          have h1 := h.one
          match hl : s.waiters, h1 with
          | [], _ => rfl
          | [u], _ =>
            rw [hl] at hw; simp at hw; subst hw; simp
          | _ :: _ :: _, h1 => simp at h1
        simp only [Res.ok.injEq, Option.some.injEq] at hs; subst hs
        exact h.inside hthr (by simp) (pc' := .clearReq false) (by simp) rfl (fun _ => h.req t j _ hthr rfl)
          (fun _ => h.res t j _ hthr rfl) (by simp [Sys.goto, he]) (by simp [Sys.goto, he]) rfl
      · simp at hs
    · simp at hs
  | spurious t =>
    simp only [Post.step] at hs
    split at hs
    · rename_i j hthr
      split at hs
      · rename_i hw
        have he : s.waiters.erase t = [] := by
          have h1 := h.one
          match hl : s.waiters, h1 with
          | [], _ => rfl
          | [u], _ =>
            rw [hl] at hw; simp at hw; subst hw; simp
          | _ :: _ :: _, h1 => simp at h1
        simp only [Res.ok.injEq, Option.some.injEq] at hs; subst hs
        exact h.inside hthr (by simp) (pc' := .clearReq true) (by simp) rfl (fun _ => h.req t j _ hthr rfl)
          (fun _ => h.res t j _ hthr rfl) (by simp [Sys.goto, he]) (by simp [Sys.goto, he]) rfl
      · simp at hs
    · simp at hs
  | deliver m =>
    simp only [Post.step, Res.bind_eq_ok, Res.pure_eq, Res.ok.injEq, Option.some.injEq] at hs
    obtain ⟨s1, h1, rfl⟩ := hs
    obtain ⟨a1, a2, a3, a4, _, _, a7⟩ := deliver_frame h1
    exact h.same a1 a2 a3 a7 (deliver_len h1 h.one) a4
  | store p m =>
    simp only [Post.step, Res.ok.injEq, Option.some.injEq] at hs; subst hs
    exact h.same rfl rfl rfl (fun _ h => h) h.one rfl
  | free p =>
    simp only [Post.step, Res.ok.injEq, Option.some.injEq] at hs; subst hs
    exact h.same rfl rfl rfl (fun _ h => h) h.one rfl

theorem init_inv (req0 : Option Nat) (tid0 : BitVec 32) : PInv (Sys.init req0 tid0) :=
  ⟨by simp [Sys.init], by simp [Sys.init], by simp [Sys.init], by simp [Sys.init], by simp [Sys.init], by simp [Sys.init]⟩

theorem run_inv {e : Endian} {s s' : Sys} {ls : List Label} (hs : PInv s) (h : Run e s ls s') : PInv s' := by
  induction h with
  | nil => exact hs
  | snoc l _ _ hst ih => exact step_inv ih hst

theorem new_inv {e : Endian} {s : Sys} {ls : List Label} (h : RunFromNew e ls s) : PInv s := by
  obtain ⟨r, t, h⟩ := h; exact run_inv (init_inv r t) h

/-! ## The listener in one piece -/

theorem getTid_inj (e : Endian) (m s : Message) :
    m.getTid e = s.getTid e ↔ m.tid0 = s.tid0 ∧ m.tid1 = s.tid1 := by
  constructor
  · intro h
    have h1 := setTid_getTid e Message.new m
    have h2 := setTid_getTid e Message.new s
    rw [h, h2] at h1
    simp only [Message.mk.injEq] at h1
    exact ⟨h1.2.2.1.symm, h1.2.2.2.1.symm⟩
  · rintro ⟨h1, h2⟩
    unfold Message.getTid
    rw [h1, h2]

theorem isResponse_iff (e : Endian) (q a : Message) : q.isResponseMessage e a = true ↔ Answers q a := by
  unfold Message.isResponseMessage Answers
  have := getTid_inj e q a
  by_cases h : q.getTid e = a.getTid e
  · obtain ⟨h1, h2⟩ := this.1 h
    simp only [h, h1, h2, ne_eq, not_true_eq_false, if_false, true_and]
    by_cases he : q.esv = a.esv
    · simp [he]
    · simp [he, Ne.symm he]
  · have h3 : ¬ (a.tid0 = q.tid0 ∧ a.tid1 = q.tid1) := fun hh => h (this.2 ⟨hh.1.symm, hh.2.symm⟩)
    have h4 : a.tid0 = q.tid0 → ¬ a.tid1 = q.tid1 := fun x y => h3 ⟨x, y⟩
    simp +contextual [h, h4]

theorem deliver_idle (e : Endian) (s : Sys) (m : Message) (h : s.postReq = none ∨ s.postRes = none) :
    deliver e s m = .ok (s.emit (.arrived m)) := by
  rcases h with h | h
  · simp [deliver, recvStep, Sys.emit, h]
  · cases h' : s.postReq <;> simp [deliver, recvStep, Sys.emit, h, h']

theorem deliver_freed (e : Endian) (s : Sys) (m : Message) {r p : Nat} (h1 : s.postReq = some r) (h2 : s.postRes = some p)
    (h3 : s.heap r = none) : deliver e s m = .ub := by
  simp [deliver, recvStep, Sys.emit, h1, h2, h3]

theorem deliver_nomatch (e : Endian) (s : Sys) (m : Message) {r p : Nat} {q : Message} (h1 : s.postReq = some r)
    (h2 : s.postRes = some p) (h3 : s.heap r = some q) (h4 : ¬ Answers q m) :
    deliver e s m = .ok (s.emit (.arrived m)) := by
  have h4 : ¬ q.isResponseMessage e m = true := fun h => h4 ((isResponse_iff e q m).1 h)
  simp [deliver, recvStep, Sys.emit, h1, h2, h3, h4]

theorem deliver_match (e : Endian) (s : Sys) (m : Message) {r p : Nat} {q : Message} (h1 : s.postReq = some r)
    (h2 : s.postRes = some p) (h3 : s.heap r = some q) (h4 : Answers q m) :
    deliver e s m = (match s.heap p with
      | none => .ub
      | some old => do
          let res ← Message.setFrom e old m
          return { s.emit (.arrived m) with heap := s.heap.set p res, waiters := s.waiters.tail }) := by
  have h4 : q.isResponseMessage e m = true := (isResponse_iff e q m).2 h4
  cases h5 : s.heap p with
  | none => simp [deliver, recvStep, Sys.emit, h1, h2, h3, h4, h5]
  | some old =>
    simp only [deliver, recvStep, Sys.emit, h1, h2, h3, h4, h5, Option.isSome_some, if_true, Res.bind_ok, Res.pure_eq]
    cases Message.setFrom e old m <;> simp [recvStep, Res.bind_ok]

theorem setFrom_answers {e : Endian} {old m res : Message} (ho : Reachable e old) (hm : Reachable e m)
    (h : Message.setFrom e old m = .ok res) : res.tid0 = m.tid0 ∧ res.tid1 = m.tid1 ∧ res.esv = m.esv := by
  rw [setFrom_eq e (reachable_inv ho).toMsgWF (reachable_inv hm).toMsgWF] at h
  simp only [Res.ok.injEq] at h
  subst h; exact ⟨rfl, rfl, rfl⟩

/-- What the listener does in one piece. -/
theorem deliver_cases {e : Endian} {s s' : Sys} {m : Message} (h : deliver e s m = .ok s') :
    s' = s.emit (.arrived m) ∨
    ∃ r p q old res, s.postReq = some r ∧ s.postRes = some p ∧ s.heap r = some q ∧ Answers q m ∧
      s.heap p = some old ∧ Message.setFrom e old m = .ok res ∧
      s' = { s.emit (.arrived m) with heap := s.heap.set p res, waiters := s.waiters.tail } := by
  cases h1 : s.postReq with
  | none => rw [deliver_idle e s m (.inl h1)] at h; exact .inl (by simpa using h.symm)
  | some r =>
    cases h2 : s.postRes with
    | none => rw [deliver_idle e s m (.inr h2)] at h; exact .inl (by simpa using h.symm)
    | some p =>
      cases h3 : s.heap r with
      | none => rw [deliver_freed e s m h1 h2 h3] at h; simp at h
      | some q =>
        by_cases h4 : Answers q m
        · rw [deliver_match e s m h1 h2 h3 h4] at h
          cases h5 : s.heap p with
          | none => rw [h5] at h; simp at h
          | some old =>
            rw [h5] at h
            simp only [Res.bind_eq_ok, Res.pure_eq, Res.ok.injEq] at h
            obtain ⟨res, h6, rfl⟩ := h
            exact .inr ⟨r, p, q, old, res, rfl, rfl, h3, h4, h5, h6, rfl⟩
        · rw [deliver_nomatch e s m h1 h2 h3 h4] at h; exact .inl (by simpa using h.symm)

/-! ## Message objects of the posts in progress -/

def jobOf : Thread → Option Job
  | .post j _ => some j
  | _ => none

theorem jobOf_some {x : Thread} {j : Job} : jobOf x = some j ↔ ∃ pc, x = .post j pc := by
  cases x <;> simp [jobOf, eq_comm]

structure BInv (e : Endian) (s : Sys) : Prop where
  norecv : ∀ t m pc, s.thr t ≠ .recv m pc
  live : ∀ t j, jobOf (s.thr t) = some j → ValidMsg e s j.req ∧ ValidMsg e s j.res ∧ j.req ≠ j.res
  disj : ∀ t t' j j', t ≠ t' → jobOf (s.thr t) = some j → jobOf (s.thr t') = some j' →
    j.req ≠ j'.req ∧ j.req ≠ j'.res ∧ j.res ≠ j'.req ∧ j.res ≠ j'.res

theorem BInv.mono {e : Endian} {s s' : Sys} (h : BInv e s) (hr : ∀ t m pc, s'.thr t ≠ .recv m pc)
    (hj : ∀ t j, jobOf (s'.thr t) = some j → jobOf (s.thr t) = some j)
    (hv : ∀ t j, jobOf (s.thr t) = some j → ∀ p, (p = j.req ∨ p = j.res) → ValidMsg e s p → ValidMsg e s' p) :
    BInv e s' := by
  refine ⟨hr, ?_, ?_⟩
  · intro t j ht
    have hs := hj t j ht
    obtain ⟨h1, h2, h3⟩ := h.live t j hs
    exact ⟨hv t j hs _ (.inl rfl) h1, hv t j hs _ (.inr rfl) h2, h3⟩
  · intro t t' j j' hne h1 h2
    exact h.disj t t' j j' hne (hj t j h1) (hj t' j' h2)

/-- one thread moves, the heap stays -/
theorem BInv.move {e : Endian} {s s' : Sys} (h : BInv e s) {t : Nat} {x : Thread} (hh : s'.heap = s.heap)
    (ht : s'.thr = (s.goto t x).thr) (hx : ∀ m pc, x ≠ .recv m pc)
    (hj : jobOf x = jobOf (s.thr t) ∨ jobOf x = none) : BInv e s' := by
  have ht : ∀ u, s'.thr u = if u = t then x else s.thr u := fun u => by rw [ht]; rfl
  refine h.mono ?_ ?_ ?_
  · intro u m pc
    rw [ht]; split
    · exact hx m pc
    · exact h.norecv u m pc
  · intro u j hu
    rw [ht] at hu
    split at hu
    · subst u
      rcases hj with hj | hj
      · rw [← hj]; exact hu
      · rw [hj] at hu; cases hu
    · exact hu
  · intro u j _ p _ hp
    unfold ValidMsg at hp ⊢; rw [hh]; exact hp

theorem valid_set {e : Endian} {s : Sys} {p q : Nat} {m : Message} {w : List Nat} {l : List Ev} {th : Nat → Thread}
    (hm : Reachable e m) (h : ValidMsg e s q) :
    ValidMsg e { s with heap := s.heap.set p m, waiters := w, log := l, thr := th } q := by
  unfold ValidMsg at h ⊢
  simp only [Heap.set]
  by_cases hq : q = p
  · exact ⟨m, by simp [hq], hm⟩
  · rw [if_neg hq]; exact h

theorem setTid_reach {e : Endian} {m : Message} (h : Reachable e m) (v : BitVec 32) (x : Byte × Byte × Byte) :
    Reachable e { m.setTid e v with seoj := x } := by
  obtain ⟨c, _, hc⟩ := eoj_code x
  refine .setSrc (.setTid h v) c ?_
  unfold Message.setSourceObjectCode
  rw [hc]; rfl

theorem postStep_binv {e : Endian} {s s' : Sys} {t : Nat} {j : Job} {pc : PostPc} (h : BInv e s)
    (hthr : s.thr t = .post j pc) (hs : postStep e s t j pc = .ok (some s')) : BInv e s' := by
  have hj : jobOf (s.thr t) = some j := by rw [hthr]; rfl
  cases pc with
  | lock =>
    simp only [postStep, Res.ok.injEq] at hs
    split at hs
    · simp only [Option.some.injEq] at hs; subst hs
      exact h.move rfl rfl (by simp) (.inl hj.symm)
    · simp at hs
  | tid p =>
    simp only [postStep] at hs
    split at hs
    · simp only [Res.ok.injEq, Option.some.injEq] at hs; subst hs
      exact h.move rfl rfl (by simp) (.inl hj.symm)
    · simp only [Res.ok.injEq, Option.some.injEq] at hs; subst hs
      exact h.move rfl rfl (by simp) (.inl hj.symm)
  | setTid v =>
    simp only [postStep] at hs
    split at hs
    · simp at hs
    · rename_i m hm
      simp only [Res.ok.injEq, Option.some.injEq] at hs; subst hs
      have hr : Reachable e m := by
        obtain ⟨⟨m', h1, h2⟩, _⟩ := h.live t j hj
        rw [hm] at h1; cases h1; exact h2
      refine h.mono ?_ ?_ ?_
      · intro u m pc
        rw [goto_thr]; split
        · simp
        · exact h.norecv u m pc
      · intro u k hu
        rw [goto_thr] at hu
        split at hu
        · subst u; rw [hj]; exact hu
        · exact hu
      · intro u k _ p _ hp
        exact valid_set (setTid_reach hr v _) hp
  | send =>
    simp only [postStep] at hs
    split at hs
    · simp at hs
    · simp only [Res.ok.injEq, Option.some.injEq] at hs; subst hs
      exact h.move rfl rfl (by simp) (.inl hj.symm)
  | waiting =>
    simp only [postStep, Res.ok.injEq] at hs
    split at hs
    · simp at hs
    · simp only [Option.some.injEq] at hs; subst hs
      exact h.move rfl rfl (by simp) (.inl hj.symm)
  | unlock r =>
    simp only [postStep, Res.ok.injEq, Option.some.injEq] at hs; subst hs
    exact h.move rfl rfl (by simp) (.inr rfl)
  | _ =>
    simp only [postStep, Res.ok.injEq, Option.some.injEq] at hs; subst hs
    exact h.move rfl rfl (by simp) (.inl hj.symm)

theorem step_binv {e : Endian} {s s' : Sys} {l : Label} (h : BInv e s) (hu : UserOK e s l)
    (ha : ∀ t m, l ≠ .arrive t m) (hs : Post.step e s l = .ok (some s')) : BInv e s' := by
  cases l with
  | callPost t j =>
    simp only [Post.step] at hs
    split at hs
    · rename_i ht
      simp only [Res.ok.injEq, Option.some.injEq] at hs; subst hs
      obtain ⟨u1, u2, u3, u4, u5⟩ := hu
      have hno : ∀ u k, jobOf (s.thr u) = some k →
          j.req ≠ k.req ∧ j.req ≠ k.res ∧ j.res ≠ k.req ∧ j.res ≠ k.res := by
        intro u k hk
        obtain ⟨pc, hk⟩ := jobOf_some.1 hk
        exact ⟨fun h => u4 ⟨u, k, pc, hk, .inl h⟩, fun h => u4 ⟨u, k, pc, hk, .inr h⟩,
          fun h => u5 ⟨u, k, pc, hk, .inl h⟩, fun h => u5 ⟨u, k, pc, hk, .inr h⟩⟩
      refine ⟨?_, ?_, ?_⟩
      · intro u m pc
        rw [goto_thr]; split
        · simp
        · exact h.norecv u m pc
      · intro u k hk
        rw [goto_thr] at hk
        split at hk
        · simp [jobOf] at hk; subst hk; exact ⟨u1, u2, u3⟩
        · exact h.live u k hk
      · intro u u' k k' hne h1 h2
        rw [goto_thr] at h1 h2
        split at h1
        · simp [jobOf] at h1; subst h1
          split at h2
          · rename_i a b; exact absurd (a.trans b.symm) hne
          · exact hno _ _ h2
        · split at h2
          · simp [jobOf] at h2; subst h2
            obtain ⟨a, b, c, d⟩ := hno _ _ h1
            exact ⟨a.symm, c.symm, b.symm, d.symm⟩
          · exact h.disj u u' k k' hne h1 h2
    · simp at hs
  | callSend t =>
    simp only [Post.step] at hs
    split at hs
    · rename_i ht
      simp only [Res.ok.injEq, Option.some.injEq] at hs; subst hs
      exact h.move rfl rfl (by simp) (.inr rfl)
    · simp at hs
  | arrive t m => exact absurd rfl (ha t m)
  | step t =>
    simp only [Post.step, threadStep] at hs
    cases hthr : s.thr t with
    | idle => simp [hthr] at hs
    | post j pc => rw [hthr] at hs; exact postStep_binv h hthr hs
    | sender pc =>
      rw [hthr] at hs
      cases pc with
      | inl pc =>
        simp only [Res.ok.injEq, Option.some.injEq] at hs; subst hs
        exact h.move rfl rfl (by simp) (.inr rfl)
      | inr v =>
        simp only [Res.ok.injEq, Option.some.injEq] at hs; subst hs
        exact h.move rfl rfl (by simp) (.inr rfl)
    | recv m pc => exact absurd hthr (h.norecv t m pc)
  | sendFail t =>
    simp only [Post.step] at hs
    split at hs
    · rename_i j hthr
      split at hs
      · simp at hs
      · simp only [Res.ok.injEq, Option.some.injEq] at hs; subst hs
        exact h.move rfl rfl (by simp) (.inl (by rw [hthr]; rfl))
    · simp at hs
  | timeout t =>
    simp only [Post.step] at hs
    split at hs
    · rename_i j hthr
      split at hs
      · simp only [Res.ok.injEq, Option.some.injEq] at hs; subst hs
        exact h.move rfl rfl (by simp) (.inl (by rw [hthr]; rfl))
      · simp at hs
    · simp at hs
  | spurious t =>
    simp only [Post.step] at hs
    split at hs
    · rename_i j hthr
      split at hs
      · simp only [Res.ok.injEq, Option.some.injEq] at hs; subst hs
        exact h.move rfl rfl (by simp) (.inl (by rw [hthr]; rfl))
      · simp at hs
    · simp at hs
  | deliver m =>
    simp only [Post.step, Res.bind_eq_ok, Res.pure_eq, Res.ok.injEq, Option.some.injEq] at hs
    obtain ⟨s1, h1, rfl⟩ := hs
    rcases deliver_cases h1 with rfl | ⟨r, p, q, old, res, k1, k2, k3, k4, k5, k6, rfl⟩
    · exact h.mono h.norecv (fun _ _ h => h) (fun _ _ _ _ _ h => h)
    · refine h.mono h.norecv (fun _ _ h => h) ?_
      intro t j hj x hx hv
      by_cases hxp : x = p
      · subst hxp
        obtain ⟨old', h2, h3⟩ := hv
        rw [k5] at h2; cases h2
        exact ⟨res, by simp [Heap.set, Sys.emit], .set h3 hu k6⟩
      · obtain ⟨m', h2, h3⟩ := hv
        exact ⟨m', by simp only [Heap.set, Sys.emit, if_neg hxp]; exact h2, h3⟩
  | store p m =>
    simp only [Post.step, Res.ok.injEq, Option.some.injEq] at hs; subst hs
    exact h.mono h.norecv (fun _ _ h => h) (fun t j hj x _ hv => valid_set hu.1 hv)
  | free p =>
    simp only [Post.step, Res.ok.injEq, Option.some.injEq] at hs; subst hs
    refine h.mono h.norecv (fun _ _ h => h) (fun t j hj x hx hv => ?_)
    obtain ⟨m', h2, h3⟩ := hv
    refine ⟨m', ?_, h3⟩
    have : x ≠ p := by
      rintro rfl
      obtain ⟨pc, hj⟩ := jobOf_some.1 hj
      exact hu ⟨t, j, pc, hj, hx⟩
    simp only [if_neg this]; exact h2

theorem init_binv (e : Endian) (req0 : Option Nat) (tid0 : BitVec 32) : BInv e (Sys.init req0 tid0) :=
  ⟨by simp [Sys.init], by simp [Sys.init, jobOf], by simp [Sys.init, jobOf]⟩

theorem run_binv {e : Endian} {s s' : Sys} {ls : List Label} (hs : BInv e s) (h : Run e s ls s')
    (ha : AtomicListener ls) : BInv e s' := by
  induction h with
  | nil => exact hs
  | snoc l _ hu hst ih =>
    exact step_binv (ih fun t m hm => ha t m (by simp [hm])) hu (fun t m hl => ha t m (by simp [hl])) hst

end Uecho.Lemmas
