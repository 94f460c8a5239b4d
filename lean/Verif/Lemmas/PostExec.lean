import Verif.Lemmas.PostDone
/-!
# Executing a schedule
-/
set_option linter.unusedSimpArgs false
namespace Uecho.Lemmas
open Uecho Uecho.Spec Uecho.Post

def unused (T : List Nat) (s : Sys) (p : Nat) : Bool :=
  T.all fun t => match s.thr t with
    | .post j _ => p != j.req && p != j.res
    | _ => true

/-- decidable form of `UserOK` when only the threads in `T` are used -/
def okB (T : List Nat) (s : Sys) : Label → Bool
  | .callPost t j => T.contains t && (s.heap j.req).isSome && (s.heap j.res).isSome && j.req != j.res &&
      unused T s j.req && unused T s j.res
  | .store p _ => unused T s p
  | .free p => unused T s p
  | .callSend t => T.contains t
  | .arrive t _ => T.contains t
  | .deliver _ => true
  | .step _ => true
  | .sendFail _ => true
  | .timeout _ => true
  | .spurious _ => true

def exec (e : Endian) (T : List Nat) : Sys → List Label → Option Sys
  | s, [] => some s
  | s, l :: ls =>
    if okB T s l then
      match Post.step e s l with
      | .ok (some s1) => exec e T s1 ls
      | _ => none
    else none

/-- messages mentioned by a label -/
def labelMsg : Label → List Message
  | .arrive _ m => [m]
  | .deliver m => [m]
  | .store _ m => [m]
  | .callPost _ _ => []
  | .callSend _ => []
  | .step _ => []
  | .sendFail _ => []
  | .timeout _ => []
  | .spurious _ => []
  | .free _ => []

structure XInv (e : Endian) (T : List Nat) (s : Sys) : Prop where
  supp : ∀ t, t ∉ T → s.thr t = .idle
  heap : ∀ p m, s.heap p = some m → Reachable e m
  msgs : ∀ t m pc, s.thr t = .recv m pc → Reachable e m

theorem XInv.move {e : Endian} {T : List Nat} {s s' : Sys} (h : XInv e T s) {t : Nat} {x : Thread}
    (ht : s'.thr = (s.goto t x).thr) (hT : t ∈ T) (hh : ∀ p m, s'.heap p = some m → Reachable e m)
    (hx : ∀ m pc, x = .recv m pc → Reachable e m) : XInv e T s' := by
  have ht : ∀ u, s'.thr u = if u = t then x else s.thr u := fun u => by rw [ht]; rfl
  refine ⟨?_, hh, ?_⟩
  · intro u hu
    rw [ht, if_neg]
    · exact h.supp u hu
    · rintro rfl; exact hu hT
  · intro u m pc hu
    rw [ht] at hu
    split at hu
    · exact hx m pc hu
    · exact h.msgs u m pc hu

theorem set_reach {e : Endian} {h : Heap} {p : Nat} {m : Message} (hm : Reachable e m)
    (hh : ∀ p m, h p = some m → Reachable e m) : ∀ q n, h.set p m q = some n → Reachable e n := by
  intro q n hq
  unfold Heap.set at hq
  split at hq
  · cases hq; exact hm
  · exact hh q n hq

theorem recvStep_heap {e : Endian} {s s' : Sys} {m : Message} {pc pc' : RecvPc}
    (hh : ∀ p m, s.heap p = some m → Reachable e m) (hm : Reachable e m)
    (h : recvStep e s m pc = .ok (s', pc')) : ∀ p m, s'.heap p = some m → Reachable e m := by
  cases pc with
  | compare =>
    simp only [recvStep] at h
    split at h
    · simp at h; obtain ⟨rfl, _⟩ := h; exact hh
    · split at h
      · simp at h
      · simp at h; obtain ⟨rfl, _⟩ := h; exact hh
  | copy p =>
    cases p with
    | none => simp [recvStep] at h; obtain ⟨rfl, _⟩ := h; exact hh
    | some p =>
      simp only [recvStep] at h
      split at h
      · simp at h
      · rename_i old ho
        simp only [Res.bind_eq_ok, Res.pure_eq, Res.ok.injEq, Prod.mk.injEq] at h
        obtain ⟨res, h1, rfl, _⟩ := h
        exact set_reach (.set (hh _ _ ho) hm h1) hh
  | _ => simp [recvStep] at h; obtain ⟨rfl, _⟩ := h; exact hh

theorem active_mem {e : Endian} {T : List Nat} {s : Sys} (h : XInv e T s) {t : Nat} (ht : s.thr t ≠ .idle) : t ∈ T :=
  Classical.byContradiction fun hn => ht (h.supp t hn)

theorem step_xinv {e : Endian} {T : List Nat} {s s' : Sys} {l : Label} (h : XInv e T s) (hk : okB T s l = true)
    (hm : ∀ m ∈ labelMsg l, Reachable e m) (hs : Post.step e s l = .ok (some s')) : XInv e T s' := by
  cases l with
  | callPost t j =>
    simp only [okB, Bool.and_eq_true, List.contains_iff_mem] at hk
    simp only [Post.step] at hs
    split at hs
    · simp only [Res.ok.injEq, Option.some.injEq] at hs; subst hs
      exact h.move rfl hk.1.1.1.1.1 h.heap (by simp)
    · simp at hs
  | callSend t =>
    simp only [okB, List.contains_iff_mem] at hk
    simp only [Post.step] at hs
    split at hs
    · simp only [Res.ok.injEq, Option.some.injEq] at hs; subst hs
      exact h.move rfl hk h.heap (by simp)
    · simp at hs
  | arrive t m =>
    simp only [okB, List.contains_iff_mem] at hk
    simp only [Post.step] at hs
    split at hs
    · simp only [Res.ok.injEq, Option.some.injEq] at hs; subst hs
      refine h.move rfl hk h.heap ?_
      intro m' pc hx; cases hx; exact hm m (by simp [labelMsg])
    · simp at hs
  | step t =>
    simp only [Post.step, threadStep] at hs
    cases hthr : s.thr t with
    | idle => simp [hthr] at hs
    | post j pc =>
      have hT := active_mem h (t := t) (by simp [hthr])
      rw [hthr] at hs
      cases pc with
      | lock =>
        simp only [postStep, Res.ok.injEq] at hs
        split at hs
        · simp only [Option.some.injEq] at hs; subst hs
          exact h.move rfl hT h.heap (by simp)
        · simp at hs
      | tid p =>
        simp only [postStep] at hs
        split at hs <;>
        · simp only [Res.ok.injEq, Option.some.injEq] at hs; subst hs
          exact h.move rfl hT h.heap (by simp)
      | setTid v =>
        simp only [postStep] at hs
        split at hs
        · simp at hs
        · rename_i m hm
          simp only [Res.ok.injEq, Option.some.injEq] at hs; subst hs
          exact h.move rfl hT (set_reach (setTid_reach (h.heap _ _ hm) v _) h.heap) (by simp)
      | send =>
        simp only [postStep] at hs
        split at hs
        · simp at hs
        · simp only [Res.ok.injEq, Option.some.injEq] at hs; subst hs
          exact h.move rfl hT h.heap (by simp)
      | waiting =>
        simp only [postStep, Res.ok.injEq] at hs
        split at hs
        · simp at hs
        · simp only [Option.some.injEq] at hs; subst hs
          exact h.move rfl hT h.heap (by simp)
      | _ =>
        simp only [postStep, Res.ok.injEq, Option.some.injEq] at hs; subst hs
        exact h.move rfl hT h.heap (by simp)
    | sender pc =>
      have hT := active_mem h (t := t) (by simp [hthr])
      rw [hthr] at hs
      cases pc with
      | inl pc =>
        simp only [Res.ok.injEq, Option.some.injEq] at hs; subst hs
        exact h.move rfl hT h.heap (by simp)
      | inr v =>
        simp only [Res.ok.injEq, Option.some.injEq] at hs; subst hs
        exact h.move rfl hT h.heap (by simp)
    | recv m pc =>
      have hT := active_mem h (t := t) (by simp [hthr])
      rw [hthr] at hs
      simp only [Res.bind_eq_ok, Res.pure_eq, Res.ok.injEq, Option.some.injEq] at hs
      obtain ⟨⟨s1, pc1⟩, h1, rfl⟩ := hs
      obtain ⟨a1, a2, a3, a4, _, _, a7⟩ := recvStep_frame h1
      have hh := recvStep_heap h.heap (h.msgs t m pc hthr) h1
      refine h.move (t := t) (x := if pc1 = .done then .idle else .recv m pc1) ?_ hT hh ?_
      · funext u; simp only [Sys.goto, a4]
      · intro m' pc' hx
        split at hx
        · simp at hx
        · cases hx; exact h.msgs t m pc hthr
  | sendFail t =>
    simp only [Post.step] at hs
    split at hs
    · rename_i j hthr
      have hT := active_mem h (t := t) (by simp [hthr])
      split at hs
      · simp at hs
      · simp only [Res.ok.injEq, Option.some.injEq] at hs; subst hs
        exact h.move rfl hT h.heap (by simp)
    · simp at hs
  | timeout t =>
    simp only [Post.step] at hs
    split at hs
    · rename_i j hthr
      have hT := active_mem h (t := t) (by simp [hthr])
      split at hs
      · simp only [Res.ok.injEq, Option.some.injEq] at hs; subst hs
        exact h.move rfl hT h.heap (by simp)
      · simp at hs
    · simp at hs
  | spurious t =>
    simp only [Post.step] at hs
    split at hs
    · rename_i j hthr
      have hT := active_mem h (t := t) (by simp [hthr])
      split at hs
      · simp only [Res.ok.injEq, Option.some.injEq] at hs; subst hs
        exact h.move rfl hT h.heap (by simp)
      · simp at hs
    · simp at hs
  | deliver m =>
    simp only [Post.step, Res.bind_eq_ok, Res.pure_eq, Res.ok.injEq, Option.some.injEq] at hs
    obtain ⟨s1, h1, rfl⟩ := hs
    rcases deliver_cases h1 with rfl | ⟨r, p, q, old, res, k1, k2, k3, k4, k5, k6, rfl⟩
    · exact ⟨h.supp, h.heap, h.msgs⟩
    · exact ⟨h.supp, set_reach (.set (h.heap _ _ k5) (hm m (by simp [labelMsg])) k6) h.heap, h.msgs⟩
  | store p m =>
    simp only [Post.step, Res.ok.injEq, Option.some.injEq] at hs; subst hs
    exact ⟨h.supp, set_reach (hm m (by simp [labelMsg])) h.heap, h.msgs⟩
  | free p =>
    simp only [Post.step, Res.ok.injEq, Option.some.injEq] at hs; subst hs
    refine ⟨h.supp, ?_, h.msgs⟩
    intro q m hq
    simp only at hq
    split at hq
    · simp at hq
    · exact h.heap q m hq

theorem unused_iff {e : Endian} {T : List Nat} {s : Sys} (h : XInv e T s) {p : Nat} (hp : unused T s p = true) :
    ¬ InUse s p := by
  rintro ⟨t, j, pc, hthr, hj⟩
  have hT := active_mem h (t := t) (by simp [hthr])
  unfold unused at hp
  rw [List.all_eq_true] at hp
  have := hp t hT
  rw [hthr] at this
  simp only [Bool.and_eq_true, bne_iff_ne, ne_eq] at this
  rcases hj with hj | hj
  · exact this.1 hj
  · exact this.2 hj

theorem okB_user {e : Endian} {T : List Nat} {s : Sys} {l : Label} (h : XInv e T s) (hk : okB T s l = true)
    (hm : ∀ m ∈ labelMsg l, Reachable e m) : UserOK e s l := by
  cases l with
  | callPost t j =>
    simp only [okB, Bool.and_eq_true, bne_iff_ne, ne_eq] at hk
    obtain ⟨⟨⟨⟨⟨h1, h2⟩, h3⟩, h4⟩, h5⟩, h6⟩ := hk
    obtain ⟨m1, h2⟩ := Option.isSome_iff_exists.1 h2
    obtain ⟨m2, h3⟩ := Option.isSome_iff_exists.1 h3
    exact ⟨⟨m1, h2, h.heap _ _ h2⟩, ⟨m2, h3, h.heap _ _ h3⟩, h4, unused_iff h h5, unused_iff h h6⟩
  | store p m => exact ⟨hm m (by simp [labelMsg]), unused_iff h hk⟩
  | free p => exact unused_iff h hk
  | arrive t m => exact hm m (by simp [labelMsg])
  | deliver m => exact hm m (by simp [labelMsg])
  | _ => trivial

theorem exec_run {e : Endian} {T : List Nat} : ∀ (ls : List Label) {s s' : Sys}, XInv e T s →
    (∀ l ∈ ls, ∀ m ∈ labelMsg l, Reachable e m) → exec e T s ls = some s' →
    ∀ {i : Sys} {ls0 : List Label}, Run e i ls0 s → Run e i (ls0 ++ ls) s' ∧ XInv e T s'
  | [], s, s', hx, _, h, i, ls0, hr => by
      simp only [exec, Option.some.injEq] at h; subst h
      rw [List.append_nil]; exact ⟨hr, hx⟩
  | l :: ls, s, s', hx, hm, h, i, ls0, hr => by
      rw [exec] at h
      split at h
      · rename_i hk
        split at h
        · rename_i s1 hst
          have hml := hm l (by simp)
          have hr1 := Run.snoc l hr (okB_user hx hk hml) hst
          have := exec_run ls (step_xinv hx hk hml hst) (fun l' hl' => hm l' (by simp [hl'])) h hr1
          rw [List.append_assoc] at this
          exact this
        · simp at h
      · simp at h

theorem init_xinv (e : Endian) (T : List Nat) (req0 : Option Nat) (tid0 : BitVec 32) : XInv e T (Sys.init req0 tid0) :=
  ⟨by simp [Sys.init], by simp [Sys.init], by simp [Sys.init]⟩

/-- A schedule that executes is a run. -/
theorem run_exec {e : Endian} (T : List Nat) (ls : List Label) (req0 : Option Nat) (tid0 : BitVec 32) {s : Sys}
    (hm : ∀ l ∈ ls, ∀ m ∈ labelMsg l, Reachable e m) (h : exec e T (Sys.init req0 tid0) ls = some s) :
    RunFromNew e ls s :=
  ⟨req0, tid0, by simpa using (exec_run ls (init_xinv e T req0 tid0) hm h (.nil _)).1⟩

end Uecho.Lemmas
