import Verif.Lemmas.PostDone
import Verif.Lemmas.Node
/-!
# TIDs of posts
-/
set_option linter.unusedSimpArgs false
namespace Uecho.Lemmas
open Uecho Uecho.Spec Uecho.Post

/-- the k-th TID after `t` -/
def tidAfter : Nat → Nat → Nat
  | 0, t => t
  | k + 1, t => succTid (tidAfter k t)

theorem tidAfter_succ : ∀ k t, tidAfter (k + 1) t = tidAfter k (succTid t)
  | 0, _ => rfl
  | k + 1, t => by rw [tidAfter, tidAfter_succ k t]; rfl

theorem tidSeq_snoc : ∀ k t, tidSeq (k + 1) t = tidSeq k t ++ [tidAfter (k + 1) t]
  | 0, _ => rfl
  | k + 1, t => by
      rw [tidSeq, tidSeq_snoc k (succTid t), ← tidAfter_succ]; rfl

def Phase (e : Endian) (s : Sys) (z : Nat) (j : Job) : PostPc → Prop
  | .lock => True
  | .setReq => s.lastTid.toNat = z
  | .setRes => s.lastTid.toNat = z
  | .tid .cmp => s.lastTid.toNat = z
  | .tid .inc => s.lastTid.toNat = z ∧ z < 65535
  | .tid (.store v) => v.toNat = succTid z
  | .tid .ret => s.lastTid.toNat = succTid z
  | .setTid v => s.lastTid.toNat = succTid z ∧ v.toNat = succTid z
  | .send => s.lastTid.toNat = succTid z ∧ ∃ m, s.heap j.req = some m ∧ (m.getTid e).toNat = succTid z
  | .condWait => s.lastTid.toNat = z
  | .waiting => s.lastTid.toNat = z
  | .clearReq _ => s.lastTid.toNat = z
  | .clearRes _ => s.lastTid.toNat = z
  | .unlock _ => s.lastTid.toNat = z

structure TInv (e : Endian) (t0 z : Nat) (s : Sys) : Prop where
  nosender : ∀ t pc, s.thr t ≠ .sender pc
  seq : sentTids s.log = tidSeq (sentTids s.log).length t0
  last : z = tidAfter (sentTids s.log).length t0
  free : s.mutex = none → s.lastTid.toNat = z
  inside : ∀ t j pc, s.thr t = .post j pc → Phase e s z j pc

theorem Phase.congr {e : Endian} {s s' : Sys} {z : Nat} {j : Job} {pc : PostPc} (h : Phase e s z j pc)
    (hl : s'.lastTid = s.lastTid) (hh : s'.heap j.req = s.heap j.req) : Phase e s' z j pc := by
  cases pc with
  | lock => trivial
  | tid p => cases p <;> (unfold Phase at h ⊢; first | exact h | (rw [hl]; exact h))
  | send => unfold Phase at h ⊢; rw [hl, hh]; exact h
  | _ => unfold Phase at h ⊢; rw [hl]; exact h

/-- nothing that concerns TIDs happens -/
theorem TInv.quiet {e : Endian} {t0 z : Nat} {s s' : Sys} (h : TInv e t0 z s) (hm : s'.mutex = s.mutex)
    (hns : ∀ t pc, s'.thr t ≠ .sender pc)
    (hlog : sentTids s'.log = sentTids s.log) (hl : s'.lastTid = s.lastTid)
    (ht : ∀ t j pc, s'.thr t = .post j pc → pc = .lock ∨ (s.thr t = .post j pc ∧ s'.heap j.req = s.heap j.req)) :
    TInv e t0 z s' := by
  refine ⟨hns, by rw [hlog]; exact h.seq, by rw [hlog]; exact h.last, by rw [hm, hl]; exact h.free, ?_⟩
  intro t j pc hu
  rcases ht t j pc hu with rfl | ⟨h1, h2⟩
  · trivial
  · exact (h.inside t j pc h1).congr hl h2

/-- the thread inside a post moves on -/
theorem TInv.move {e : Endian} {t0 z z' : Nat} {s s' : Sys} {t : Nat} {j : Job} {pc : PostPc} {x : Thread}
    (h : TInv e t0 z s) (hp : PInv s)
    (hthr : s.thr t = .post j pc) (hpc : pc ≠ .lock) (ht : s'.thr = (s.goto t x).thr) (hns : ∀ p, x ≠ .sender p)
    (hlog : (sentTids s'.log = sentTids s.log ∧ z' = z) ∨
      (sentTids s'.log = sentTids s.log ++ [succTid z] ∧ z' = succTid z))
    (hm : s'.mutex = some t ∨ s'.lastTid.toNat = z') (hx : ∀ k pc', x = .post k pc' → Phase e s' z' k pc') :
    TInv e t0 z' s' := by
  have ht : ∀ u, s'.thr u = if u = t then x else s.thr u := fun u => by rw [ht]; rfl
  refine ⟨?_, ?_, ?_, ?_, ?_⟩
  · intro u p
    rw [ht]; split
    · exact hns p
    · exact h.nosender u p
  · rcases hlog with ⟨h1, _⟩ | ⟨h1, _⟩
    · rw [h1]; exact h.seq
    · rw [h1, List.length_append]
      show _ = tidSeq ((sentTids s.log).length + 1) t0
      rw [tidSeq_snoc, ← h.seq, tidAfter, ← h.last]
  · rcases hlog with ⟨h1, h2⟩ | ⟨h1, h2⟩
    · rw [h1, h2]; exact h.last
    · rw [h1, List.length_append, h2]
      show _ = tidAfter ((sentTids s.log).length + 1) t0
      rw [tidAfter, ← h.last]
  · intro hn
    rcases hm with hm | hm
    · rw [hm] at hn; cases hn
    · exact hm
  · intro u k q hu
    rw [ht] at hu
    split at hu
    · exact hx k q hu
    · rename_i hne; rw [hp.others hthr hpc u k q hne hu]; trivial

theorem sentTids_append (l : List Ev) (x : Ev) : sentTids (l ++ [x]) = sentTids l ++ sentTids [x] := by
  simp [sentTids]

theorem postStep_tinv {e : Endian} {t0 z : Nat} {s s' : Sys} {t : Nat} {j : Job} {pc : PostPc} (h : TInv e t0 z s)
    (hp : PInv s) (hthr : s.thr t = .post j pc) (hs : postStep e s t j pc = .ok (some s')) :
    ∃ z', TInv e t0 z' s' := by
  have hph := h.inside t j pc hthr
  by_cases hpc : pc = .lock
  · subst hpc
    simp only [postStep, Res.ok.injEq] at hs
    split at hs
    · rename_i hm
      simp only [Option.some.injEq] at hs; subst hs
      refine ⟨z, ?_, h.seq, h.last, ?_, ?_⟩
      · intro u p; rw [goto_thr]; split
        · simp
        · exact h.nosender u p
      · intro hh; cases hh
      · intro u k q hu
        rw [goto_thr] at hu
        split at hu
        · cases hu; exact h.free hm
        · exact (h.inside u k q hu).congr rfl rfl
    · simp at hs
  have hmx := hp.own t j pc hthr hpc
  cases pc with
  | lock => exact absurd rfl hpc
  | tid p =>
    cases p with
    | cmp =>
      simp only [postStep, tidStep, Res.ok.injEq, Option.some.injEq] at hs; subst hs
      refine ⟨z, h.move hp hthr hpc rfl (by simp) (.inl ⟨rfl, rfl⟩) (.inl hmx) ?_⟩
      intro k q hx; cases hx
      have hz : s.lastTid.toNat = z := hph
      have hle : (65535#32 ≤ s.lastTid) = (65535 ≤ s.lastTid.toNat) := by rw [BitVec.le_def]; rfl
      by_cases hc : 65535#32 ≤ s.lastTid
      · rw [if_pos hc]
        rw [hle, hz] at hc
        show (1#32).toNat = succTid z
        unfold succTid; rw [if_pos hc]; rfl
      · rw [if_neg hc]
        rw [hle, hz] at hc
        exact ⟨hz, by omega⟩
    | inc =>
      simp only [postStep, tidStep, Res.ok.injEq, Option.some.injEq] at hs; subst hs
      refine ⟨z, h.move hp hthr hpc rfl (by simp) (.inl ⟨rfl, rfl⟩) (.inl hmx) ?_⟩
      intro k q hx; cases hx
      obtain ⟨h1, h2⟩ := hph
      show (s.lastTid + 1#32).toNat = succTid z
      rw [BitVec.toNat_add, h1]
      have : (2:Nat)^32 = 4294967296 := by decide
      unfold succTid; rw [if_neg (by omega)]; simp; omega
    | store v =>
      simp only [postStep, tidStep, Res.ok.injEq, Option.some.injEq] at hs; subst hs
      refine ⟨z, h.move hp hthr hpc rfl (by simp) (.inl ⟨rfl, rfl⟩) (.inl hmx) ?_⟩
      intro k q hx; cases hx; exact hph
    | ret =>
      simp only [postStep, tidStep, Res.ok.injEq, Option.some.injEq] at hs; subst hs
      refine ⟨z, h.move hp hthr hpc rfl (by simp) (.inl ⟨rfl, rfl⟩) (.inl hmx) ?_⟩
      intro k q hx; cases hx; exact ⟨hph, hph⟩
  | setTid v =>
    simp only [postStep] at hs
    split at hs
    · simp at hs
    · rename_i m hm
      simp only [Res.ok.injEq, Option.some.injEq] at hs; subst hs
      refine ⟨z, h.move hp hthr hpc rfl (by simp) (.inl ⟨rfl, rfl⟩) (.inl hmx) ?_⟩
      intro k q hx; cases hx
      obtain ⟨h1, h2⟩ := hph
      refine ⟨h1, _, if_pos rfl, ?_⟩
      have h3 := getTid_setTid e m v
      have h4 : ∀ x : Byte × Byte × Byte, Message.getTid e { m.setTid e v with seoj := x } = (m.setTid e v).getTid e :=
        fun _ => rfl
      rw [h4, h3]
      have hr := (succTid_range z).2
      have : ¬ 65535#32 < v := by rw [BitVec.lt_def, h2]; simp; omega
      unfold tidVal; rw [if_neg this]; exact h2
  | send =>
    simp only [postStep] at hs
    split at hs
    · simp at hs
    · rename_i m hm
      simp only [Res.ok.injEq, Option.some.injEq] at hs; subst hs
      obtain ⟨h1, m', h2, h3⟩ := hph
      rw [hm] at h2; cases h2
      refine ⟨succTid z, h.move hp hthr hpc rfl (by simp) (.inr ⟨?_, rfl⟩) (.inl hmx) ?_⟩
      · show sentTids (s.log ++ [_]) = _
        rw [sentTids_append, ← h3]; rfl
      · intro k q hx; cases hx; exact h1
  | waiting =>
    simp only [postStep, Res.ok.injEq] at hs
    split at hs
    · simp at hs
    · simp only [Option.some.injEq] at hs; subst hs
      exact ⟨z, h.move hp hthr hpc rfl (by simp) (.inl ⟨rfl, rfl⟩) (.inl hmx) fun k q hx => by cases hx; exact hph⟩
  | unlock r =>
    simp only [postStep, Res.ok.injEq, Option.some.injEq] at hs; subst hs
    refine ⟨z, h.move hp hthr hpc rfl (by simp) (.inl ⟨?_, rfl⟩) (.inr hph) fun k q hx => by cases hx⟩
    show sentTids (s.log ++ [_]) = _
    rw [sentTids_append]; simp [sentTids]
  | _ =>
    simp only [postStep, Res.ok.injEq, Option.some.injEq] at hs; subst hs
    exact ⟨z, h.move hp hthr hpc rfl (by simp) (.inl ⟨rfl, rfl⟩) (.inl hmx) fun k q hx => by cases hx; exact hph⟩

theorem step_tinv {e : Endian} {t0 z : Nat} {s s' : Sys} {l : Label} (h : TInv e t0 z s) (hp : PInv s) (hb : BInv e s)
    (hu : UserOK e s l) (ha : ∀ t m, l ≠ .arrive t m) (hsp : ∀ t, l ≠ .callSend t)
    (hs : Post.step e s l = .ok (some s')) : ∃ z', TInv e t0 z' s' := by
  cases l with
  | callPost t j =>
    simp only [Post.step] at hs
    split at hs
    · simp only [Res.ok.injEq, Option.some.injEq] at hs; subst hs
      refine ⟨z, h.quiet rfl ?_ rfl rfl ?_⟩
      · intro u p; rw [goto_thr]; split
        · simp
        · exact h.nosender u p
      · intro u k q hu
        rw [goto_thr] at hu; split at hu
        · cases hu; exact .inl rfl
        · exact .inr ⟨hu, rfl⟩
    · simp at hs
  | callSend t => exact absurd rfl (hsp t)
  | arrive t m => exact absurd rfl (ha t m)
  | step t =>
    simp only [Post.step, threadStep] at hs
    cases hthr : s.thr t with
    | idle => simp [hthr] at hs
    | post j pc => rw [hthr] at hs; exact postStep_tinv h hp hthr hs
    | sender pc => exact absurd hthr (h.nosender t pc)
    | recv m pc => exact absurd hthr (hb.norecv t m pc)
  | sendFail t =>
    simp only [Post.step] at hs
    split at hs
    · rename_i j hthr
      split at hs
      · simp at hs
      · rename_i m hm
        simp only [Res.ok.injEq, Option.some.injEq] at hs; subst hs
        obtain ⟨h1, m', h2, h3⟩ := h.inside t j _ hthr
        rw [hm] at h2; cases h2
        refine ⟨succTid z, h.move hp hthr (by simp) rfl (by simp) (.inr ⟨?_, rfl⟩) (.inr h1) ?_⟩
        · show sentTids (s.log ++ [_]) = _
          rw [sentTids_append, ← h3]; rfl
        · intro k q hx; cases hx; exact h1
    · simp at hs
  | timeout t =>
    simp only [Post.step] at hs
    split at hs
    · rename_i j hthr
      split at hs
      · simp only [Res.ok.injEq, Option.some.injEq] at hs; subst hs
        have hph := h.inside t j _ hthr
        exact ⟨z, h.move hp hthr (by simp) rfl (by simp) (.inl ⟨rfl, rfl⟩) (.inr hph) fun k q hx => by cases hx; exact hph⟩
      · simp at hs
    · simp at hs
  | spurious t =>
    simp only [Post.step] at hs
    split at hs
    · rename_i j hthr
      split at hs
      · simp only [Res.ok.injEq, Option.some.injEq] at hs; subst hs
        have hph := h.inside t j _ hthr
        exact ⟨z, h.move hp hthr (by simp) rfl (by simp) (.inl ⟨rfl, rfl⟩) (.inr hph) fun k q hx => by cases hx; exact hph⟩
      · simp at hs
    · simp at hs
  | deliver m =>
    simp only [Post.step, Res.bind_eq_ok, Res.pure_eq, Res.ok.injEq, Option.some.injEq] at hs
    obtain ⟨s1, h1, rfl⟩ := hs
    have hlog : ∀ x : List Ev, sentTids (x ++ [.arrived m]) = sentTids x := by
      intro x; rw [sentTids_append]; simp [sentTids]
    rcases deliver_cases h1 with rfl | ⟨r, p, q, old, res, k1, k2, k3, k4, k5, k6, rfl⟩
    · exact ⟨z, h.quiet rfl h.nosender (hlog _) rfl fun _ _ _ hu => .inr ⟨hu, rfl⟩⟩
    · refine ⟨z, h.nosender, ?_, ?_, h.free, ?_⟩
      · show sentTids (s.log ++ [.arrived m]) = tidSeq (sentTids (s.log ++ [.arrived m])).length t0
        rw [hlog]; exact h.seq
      · show z = tidAfter (sentTids (s.log ++ [.arrived m])).length t0
        rw [hlog]; exact h.last
      · intro t j pc ht
        have hph := h.inside t j pc ht
        by_cases hr : ownsRes pc = true
        · have e2 : p = j.res := by have := hp.res t j pc ht hr; rw [k2] at this; exact Option.some.inj this
          have hne := (hb.live t j (jobOf_some.2 ⟨pc, ht⟩)).2.2
          refine hph.congr rfl ?_
          show s.heap.set p res j.req = _
          unfold Heap.set; rw [if_neg (by rw [e2]; exact hne)]
        · cases pc with
          | lock => trivial
          | setReq => exact hph
          | setRes => exact hph
          | unlock r => exact hph
          | _ => exact absurd rfl hr
  | store p m =>
    simp only [Post.step, Res.ok.injEq, Option.some.injEq] at hs; subst hs
    refine ⟨z, h.quiet rfl h.nosender rfl rfl fun t j pc ht => .inr ⟨ht, ?_⟩⟩
    have h1 : j.req ≠ p := by rintro rfl; exact hu.2 ⟨t, j, pc, ht, .inl rfl⟩
    simp only [Heap.set, if_neg h1]
  | free p =>
    simp only [Post.step, Res.ok.injEq, Option.some.injEq] at hs; subst hs
    refine ⟨z, h.quiet rfl h.nosender rfl rfl fun t j pc ht => .inr ⟨ht, ?_⟩⟩
    have h1 : j.req ≠ p := by rintro rfl; exact hu ⟨t, j, pc, ht, .inl rfl⟩
    simp only [if_neg h1]

theorem run_tinv {e : Endian} {s : Sys} {ls : List Label} {req0 : Option Nat} {tid0 : BitVec 32}
    (h : Run e (Sys.init req0 tid0) ls s) (ha : AtomicListener ls) (ho : OnlyPosts ls) : ∃ z, TInv e tid0.toNat z s := by
  generalize hi : Sys.init req0 tid0 = i at h
  induction h with
  | nil => subst hi; exact ⟨tid0.toNat, by simp [Sys.init], rfl, rfl, fun _ => rfl, by simp [Sys.init]⟩
  | snoc l h1 hu hst ih =>
    subst hi
    have ha1 : AtomicListener _ := fun t m hm => ha t m (List.mem_append_left _ hm)
    obtain ⟨z, hz⟩ := ih ha1 (fun t hm => ho t (List.mem_append_left _ hm))
    exact step_tinv hz (run_inv (init_inv _ _) h1) (run_binv (init_binv e _ _) h1 ha1) hu
      (fun t m hl => ha t m (by simp [hl])) (fun t hl => ho t (by simp [hl])) hst

end Uecho.Lemmas
