import Verif.Lemmas.CListRep
import Verif.Spec.Esp32
set_option linter.unusedSimpArgs false
/-!
# Lemmas: tasks of the ESP32 port
-/
namespace Uecho.Lemmas
open Uecho Uecho.Spec Uecho.CList Uecho.Esp32

/-- Without failures: the handle of a running object is that of a live task. -/
structure EspOk (t : Th) : Prop where
  lt : ∀ i ∈ t.live, i < t.next
  handle : ∀ i, t.runnable = true → t.task = some i → i ∈ t.live
  hasTask : t.runnable = true → t.task ≠ none

theorem espOk_new : EspOk Esp32.new := ⟨by simp [Esp32.new], by simp [Esp32.new], by simp [Esp32.new]⟩

theorem espOk_start {t : Th} (h : EspOk t) (ok : Bool) : EspOk (Esp32.start ok t).2 := by
  cases ok with
  | false => exact ⟨h.lt, fun i hr => by simp [Esp32.start] at hr, fun hr => by simp [Esp32.start] at hr⟩
  | true =>
    refine ⟨fun i hi => ?_, fun i _ ht => ?_, fun _ => by simp [Esp32.start]⟩
    · simp only [Esp32.start, if_pos, List.mem_cons] at hi ⊢
      rcases hi with rfl | hi
      · omega
      · have := h.lt i hi; omega
    · simp only [Esp32.start, if_pos, Option.some.injEq, List.mem_cons] at ht ⊢
      exact .inl ht.symm

theorem espOk_stop {t : Th} (h : EspOk t) : ∃ t', Esp32.stop t = .ok (true, t') ∧ EspOk t' ∧ t'.runnable = false ∧
    t'.live = (if t.runnable = true then t.live.filter (fun i => some i ≠ t.task) else t.live) ∧ t'.next = t.next := by
  unfold Esp32.stop
  by_cases hr : t.runnable = true
  · rw [if_pos hr, if_pos hr]
    cases ht : t.task with
    | none => exact absurd ht (h.hasTask hr)
    | some i =>
      have hi := h.handle i hr ht
      simp only [taskDelete, if_pos hi, Res.bind_ok, Res.pure_eq]
      refine ⟨_, rfl, ⟨fun j hj => h.lt j (List.mem_filter.1 hj).1, by simp, by simp⟩, rfl, ?_, rfl⟩
      apply List.filter_congr
      intro j _
      simp
  · rw [if_neg hr, if_neg hr]
    exact ⟨t, rfl, h, by simpa using hr, rfl, rfl⟩

theorem espOk_ask {t : Th} (h : EspOk t) (i : Nat) : EspOk (Esp32.ask i t) := by
  unfold Esp32.ask
  by_cases hr : t.runnable = true
  · simp only [hr, if_pos]; exact h
  · have hr : t.runnable = false := by simpa using hr
    simp only [hr, Bool.false_eq_true, if_false]
    exact ⟨fun j hj => h.lt j (List.mem_filter.1 hj).1, fun j hj => by simp [finish, hr] at hj, fun hj => by simp [finish, hr] at hj⟩

theorem espOk_step {t : Th} (h : EspOk t) {e : EspEv} (he : ∀ i, e ≠ .fails i) : ∃ t', espStep e t = .ok t' ∧ EspOk t' := by
  cases e with
  | start ok => exact ⟨_, rfl, espOk_start h ok⟩
  | stop =>
    obtain ⟨t', e, k, _⟩ := espOk_stop h
    exact ⟨t', by simp [espStep, e], k⟩
  | restart ok =>
    obtain ⟨t', e, k, _⟩ := espOk_stop h
    exact ⟨_, by simp only [espStep, Esp32.restart, e, Res.bind_ok, Res.pure_eq], espOk_start k ok⟩
  | ask i => exact ⟨_, rfl, espOk_ask h i⟩
  | fails i => exact absurd rfl (he i)

theorem espOk_run {es : List EspEv} (hn : NoFailure es) : ∀ {t : Th}, EspOk t → ∃ t', espRun es t = .ok t' ∧ EspOk t' := by
  induction es with
  | nil => intro t h; exact ⟨t, rfl, h⟩
  | cons e es ih =>
    intro t h
    obtain ⟨t1, e1, k⟩ := espOk_step h (e := e) (fun i hi => hn i (by simp [hi]))
    obtain ⟨t2, e2, k2⟩ := ih (fun i hi => hn i (List.mem_cons_of_mem _ hi)) k
    exact ⟨t2, by simp [espRun, e1, e2], k2⟩

/-- With idle starts there is a task just when the flag is set, and it is the one of the handle. -/
def EspOne (t : Th) : Prop := (t.runnable = false ∧ t.live = []) ∨ ∃ i, t.runnable = true ∧ t.task = some i ∧ t.live = [i]

theorem espOne_stop {t t' : Th} {b : Bool} (h : EspOne t) (k : Esp32.stop t = .ok (b, t')) : t'.runnable = false ∧ t'.live = [] := by
  rcases h with ⟨h1, h2⟩ | ⟨i, h1, h2, h3⟩
  · simp only [Esp32.stop, h1, Bool.false_eq_true, if_false, Res.ok.injEq, Prod.mk.injEq] at k
    obtain ⟨_, rfl⟩ := k
    exact ⟨h1, h2⟩
  · simp only [Esp32.stop, h1, if_pos, h2, taskDelete, h3, List.mem_singleton, Res.bind_ok, Res.pure_eq, Res.ok.injEq, Prod.mk.injEq] at k
    obtain ⟨_, rfl⟩ := k
    simp

theorem espOne_start {t : Th} (h : t.live = []) (ok : Bool) : EspOne (Esp32.start ok t).2 := by
  cases ok
  · exact .inl ⟨rfl, h⟩
  · exact .inr ⟨t.next, rfl, rfl, by simp [Esp32.start, h]⟩

theorem espOne_step {t t' : Th} (h : EspOne t) {e : EspEv} (he : ∀ i, e ≠ .fails i) (hs : ∀ ok, e = .start ok → t.live = [])
    (k : espStep e t = .ok t') : EspOne t' := by
  cases e with
  | start ok =>
    obtain rfl : _ = t' := Res.ok.inj k
    exact espOne_start (hs ok rfl) ok
  | stop =>
    simp only [espStep, Res.bind_eq_ok, Res.pure_eq, Res.ok.injEq] at k
    obtain ⟨⟨b, u⟩, k1, rfl⟩ := k
    exact .inl (espOne_stop h k1)
  | restart ok =>
    simp only [espStep, Esp32.restart, Res.bind_eq_ok, Res.pure_eq, Res.ok.injEq] at k
    obtain ⟨r, ⟨⟨b, u⟩, k1, rfl⟩, rfl⟩ := k
    exact espOne_start (espOne_stop h k1).2 ok
  | ask j =>
    obtain rfl : _ = t' := Res.ok.inj k
    rcases h with ⟨h1, h2⟩ | ⟨i, h1, h2, h3⟩
    · left; simp [Esp32.ask, finish, h1, h2]
    · right; exact ⟨i, by simp [Esp32.ask, h1, h2, h3]⟩
  | fails i => exact absurd rfl (he i)

theorem espOne_run {es : List EspEv} (hn : NoFailure es) : ∀ {t t' : Th}, EspOne t → EspStartsIdle es t → espRun es t = .ok t' → EspOne t' := by
  induction es with
  | nil => intro t t' h _ k; rw [← Res.ok.inj k]; exact h
  | cons e es ih =>
    intro t t' h hs k
    simp only [espRun, Res.bind_eq_ok] at k
    obtain ⟨t1, k1, k2⟩ := k
    exact ih (fun i hi => hn i (List.mem_cons_of_mem _ hi)) (espOne_step h (fun i hi => hn i (by simp [hi])) hs.1 k1) (hs.2 t1 k1) k2

/-! Lists -/

theorem pv_head {h : Mem} {p : Nat} {l : List Nat} (r : IsRing h p l) : pv h p = some ((p :: l).getLast (by simp)) ∧
    nx h ((p :: l).getLast (by simp)) = some p := by
  have e : p :: (l ++ [p]) = (p :: l).dropLast ++ (p :: l).getLast (by simp) :: p :: [] := by
    rw [← List.cons_append]
    conv => lhs; rw [← List.dropLast_concat_getLast (l := p :: l) (by simp)]
    simp
  have := r.links
  rw [e] at this
  exact ⟨(links_mid this).2, (links_mid this).1⟩

theorem add_ring {h : Mem} {p x : Nat} {l : List Nat} (r : IsRing h p l) (hx : x ∉ p :: l) (hf : fl h x = some false) :
    ∃ h', CList.add h p x = .ok (h', true) ∧ IsRing h' p (l ++ [x]) ∧ ∀ u, u ∉ p :: (l ++ [x]) → h' u = h u := by
  obtain ⟨h', a, b, c⟩ := ring_insert (l1 := l) (l2 := []) (by simpa using r) (by simpa using hx) hf
  obtain ⟨cp, e1, e2⟩ := pv_some (pv_head r).1
  refine ⟨h', ?_, b, c⟩
  simp only [CList.add, cell_eq e1, Res.bind_ok, e2, a, Res.pure_eq]

theorem addAll_ring {p : Nat} : ∀ {ys l : List Nat} {h : Mem}, IsRing h p l → ys.Nodup → (∀ y ∈ ys, y ∉ p :: l ∧ fl h y = some false) →
    ∃ h', addAll p ys h = .ok h' ∧ IsRing h' p (l ++ ys) := by
  intro ys
  induction ys with
  | nil => intro l h r _ _; exact ⟨h, rfl, by simpa using r⟩
  | cons y ys ih =>
    intro l h r hn hy
    obtain ⟨h1, a, b, c⟩ := add_ring r (hy y (by simp)).1 (hy y (by simp)).2
    obtain ⟨h2, d, e⟩ := ih b (List.nodup_cons.1 hn).2 (fun z hz => by
      have hzy : z ≠ y := by rintro rfl; exact (List.nodup_cons.1 hn).1 hz
      have hz1 : z ∉ p :: (l ++ [y]) := by
        have := (hy z (by simp [hz])).1
        simp only [List.mem_cons, not_or, List.mem_append, List.not_mem_nil, or_false] at this ⊢
        exact ⟨this.1, this.2, by simpa using hzy⟩
      refine ⟨hz1, ?_⟩
      unfold fl; rw [c z hz1]; exact (hy z (by simp [hz])).2)
    exact ⟨h2, by simp [addAll, a, d], by simpa using e⟩

/-- Forward links alone. -/
def Fwd (h : Mem) : List Nat → Prop
  | [] => True
  | [_] => True
  | a :: b :: l => nx h a = some b ∧ Fwd h (b :: l)

theorem fwd_of_links {h : Mem} : ∀ {l : List Nat}, Links h l → Fwd h l
  | [], _ => trivial
  | [_], _ => trivial
  | _ :: b :: l, k => ⟨k.1, fwd_of_links (l := b :: l) k.2.2⟩

theorem fwd_frame {h h' : Mem} : ∀ {l : List Nat}, Fwd h l → (∀ u ∈ l, nx h' u = nx h u) → Fwd h' l
  | [], _, _ => trivial
  | [_], _, _ => trivial
  | a :: b :: l, k, e => ⟨by rw [e a (by simp)]; exact k.1, fwd_frame (l := b :: l) k.2 (fun u hu => e u (List.mem_cons_of_mem _ hu))⟩

/-- A list whose elements are `l` going forward, while the element before the header is one that cannot be reached. -/
structure Torn (h : Mem) (p e : Nat) (l : List Nat) : Prop where
  fwd : Fwd h (p :: (l ++ [p]))
  head : fl h p = some true
  elem : ∀ x ∈ l, fl h x = some false
  back : pv h p = some e
  out : e ∉ p :: l
  nx : Lemmas.nx h e = some p
  flag : fl h e = some false

theorem next_of {h : Mem} {u v : Nat} {b : Bool} (a : nx h u = some v) (c : fl h v = some b) : CList.next h u = .ok (if b then none else some v) := by
  obtain ⟨cu, e1, e2⟩ := nx_some a
  obtain ⟨cv, e3, e4⟩ := fl_some c
  simp only [CList.next, cell_eq e1, Res.bind_ok, e2, cell_eq e3, e4, Res.pure_eq]

theorem iterLoop_fwd {h : Mem} {p : Nat} (hp : fl h p = some true) : ∀ (l : List Nat) (x : Nat) (k : Nat) (acc : List Nat), Fwd h (x :: (l ++ [p])) →
    (∀ y ∈ l, fl h y = some false) → l.length < k → iterLoop h k (some x) acc = .ok (some (acc ++ x :: l)) := by
  intro l
  induction l with
  | nil =>
    intro x k acc hf _ hk
    obtain ⟨k, rfl⟩ : ∃ j, k = j + 1 := ⟨k - 1, by simp at hk; omega⟩
    simp only [iterLoop, next_of hf.1 hp, Res.bind_ok, if_pos]
  | cons y l ih =>
    intro x k acc hf hl hk
    obtain ⟨k, rfl⟩ : ∃ j, k = j + 1 := ⟨k - 1, by simp at hk; omega⟩
    simp only [iterLoop, next_of hf.1 (hl y (by simp)), Res.bind_ok, Bool.false_eq_true, if_false]
    rw [ih y k _ hf.2 (fun z hz => hl z (by simp [hz])) (by simp at hk; omega)]
    simp

theorem iterate_fwd {h : Mem} {p : Nat} {l : List Nat} (hp : fl h p = some true) (hf : Fwd h (p :: (l ++ [p]))) (hl : ∀ y ∈ l, fl h y = some false)
    {k : Nat} (hk : l.length ≤ k) : iterate k h p = .ok (some l) := by
  cases l with
  | nil =>
    simp only [iterate, gets, next_of hf.1 hp, Res.bind_ok, if_pos]
    cases k <;> simp [iterLoop]
  | cons y l =>
    simp only [iterate, gets, next_of hf.1 (hl y (by simp)), Res.bind_ok, Bool.false_eq_true, if_false]
    rw [iterLoop_fwd hp l y k [] hf.2 (fun z hz => hl z (by simp [hz])) (by simp at hk; omega)]
    simp

theorem torn_add {h : Mem} {p e y : Nat} {l : List Nat} (t : Torn h p e l) (hy : y ∉ p :: l) (hye : y ≠ e) (hf : fl h y = some false) :
    ∃ h', CList.add h p y = .ok (h', true) ∧ Torn h' p y l ∧ ∀ u, fl h' u = fl h u := by
  obtain ⟨cy, ey, _⟩ := fl_some hf
  have hyp : y ≠ p := by rintro rfl; exact hy (by simp)
  obtain ⟨h', g1, g2, g3, g4, _⟩ := insert_spec ey t.nx t.back hye hyp
  obtain ⟨cp, e1, e2⟩ := pv_some t.back
  refine ⟨h', by simp only [CList.add, cell_eq e1, Res.bind_ok, e2, g1, Res.pure_eq], ⟨?_, ?_, ?_, ?_, hy, ?_, ?_⟩, g4⟩
  · refine fwd_frame t.fwd fun u hu => ?_
    have hu := mem_ring.1 hu
    rw [g2, if_neg (by rintro rfl; exact hy hu), if_neg (by rintro rfl; exact t.out hu)]
  · rw [g4]; exact t.head
  · intro x hx; rw [g4]; exact t.elem x hx
  · rw [g3, if_neg hyp.symm, if_pos rfl]
  · rw [g2, if_pos rfl]
  · rw [g4]; exact hf

theorem torn_addAll {p : Nat} {l : List Nat} : ∀ {ys : List Nat} {e : Nat} {h : Mem}, Torn h p e l → ys.Nodup → e ∉ ys →
    (∀ y ∈ ys, y ∉ p :: l ∧ fl h y = some false) → ∃ h' e', addAll p ys h = .ok h' ∧ Torn h' p e' l := by
  intro ys
  induction ys with
  | nil => intro e h t _ _ _; exact ⟨h, e, rfl, t⟩
  | cons y ys ih =>
    intro e h t hn he hy
    obtain ⟨h1, a, b, c⟩ := torn_add t (hy y (by simp)).1 (by rintro rfl; exact he (by simp)) (hy y (by simp)).2
    obtain ⟨h2, e2, d, f⟩ := ih b (List.nodup_cons.1 hn).2 (List.nodup_cons.1 hn).1 (fun z hz => ⟨(hy z (by simp [hz])).1, by rw [c]; exact (hy z (by simp [hz])).2⟩)
    exact ⟨h2, e2, by simp [addAll, a, d], f⟩

/-- What is left when the task is deleted before, in and after the last two assignments. -/
theorem addCut_ring {h : Mem} {p x : Nat} {l : List Nat} (r : IsRing h p l) (hx : x ∉ p :: l) (hf : fl h x = some false) (n : Nat) :
    ∃ h', addCut n h p x = .ok h' ∧ (∀ u, fl h' u = fl h u) ∧ (n ≤ 2 → IsRing h' p l) ∧ (n = 3 → Torn h' p x l) ∧ (4 ≤ n → IsRing h' p (l ++ [x])) := by
  obtain ⟨y, hy⟩ : ∃ y, y = (p :: l).getLast (by simp) := ⟨_, rfl⟩
  have hph := pv_head r
  rw [← hy] at hph
  obtain ⟨cp, e1, e2⟩ := pv_some hph.1
  obtain ⟨cy, e3, e4⟩ := nx_some hph.2
  obtain ⟨cx, e5, e6⟩ := fl_some hf
  have hyin : y ∈ p :: l := by rw [hy]; exact List.getLast_mem _
  have hxp : x ≠ p := by rintro rfl; exact hx (by simp)
  have hxy : x ≠ y := by rintro rfl; exact hx hyin
  have hcut : addCut n h p x = insertCut n h y x := by simp only [addCut, cell_eq e1, Res.bind_ok, e2]
  rw [hcut]
  have frame : ∀ {h' : Mem}, (∀ u, u ≠ x → h' u = h u) → IsRing h' p l := fun hh => r.frame fun u hu => hh u (by rintro rfl; exact hx hu)
  by_cases h0 : n = 0
  · subst h0
    exact ⟨h, rfl, fun _ => rfl, fun _ => r, by simp, by simp⟩
  by_cases h1 : n = 1
  · subst h1
    refine ⟨_, by simp only [insertCut, cell_eq e5, Res.bind_ok, Nat.one_ne_zero, if_false, if_pos, Res.pure_eq]; rfl, fun u => ?_, fun _ => frame fun u hu => ?_, by simp, by simp⟩
    · by_cases hu : u = x <;> simp [fl, put, hu, e5]
    · simp [put, hu]
  by_cases h2 : n = 2
  · subst h2
    refine ⟨_, by simp [insertCut, cell, put, e5, e3, hxy.symm]; rfl, fun u => ?_, fun _ => frame fun u hu => ?_, by simp, by simp⟩
    · by_cases hu : u = x <;> simp [fl, put, hu, e5]
    · simp [put, hu]
  obtain ⟨h', a, b, c⟩ := add_ring r hx hf
  by_cases h3 : n = 3
  · subst h3
    refine ⟨_, by simp [insertCut, cell, put, e5, e3, e4, e1, hxy.symm, hxp.symm, deref]; rfl, fun u => ?_, by simp, fun _ => ⟨?_, ?_, ?_, ?_, hx, ?_, ?_⟩, by simp⟩
    · by_cases hu : u = p
      · simp [fl, put, hu, e1]
      · by_cases hv : u = x <;> simp [fl, put, hu, hv, e5, hxp]
    · refine fwd_frame (fwd_of_links r.links) fun u hu => ?_
      have hu := mem_ring.1 hu
      have : u ≠ x := by rintro rfl; exact hx hu
      by_cases hv : u = p <;> simp [nx, put, hv, this, e1]
    · have := r.head; simpa [fl, put, e1] using this
    · intro z hz
      have h5 : z ≠ x := by rintro rfl; exact hx (List.mem_cons_of_mem _ hz)
      have h6 : z ≠ p := by rintro rfl; exact (List.nodup_cons.1 r.nd).1 hz
      have := r.elem z hz
      simpa [fl, put, h5, h6] using this
    · simp [pv, put]
    · simp [nx, put, hxp]
    · simpa [fl, put, hxp, e5] using e6
  · have hadd : insertCut n h y x = .ok h' := by
      have h4 : CList.insert h y x = .ok h' := by
        simp only [CList.add, cell_eq e1, Res.bind_ok, e2] at a
        obtain ⟨z, z1, z2⟩ := (Res.bind_eq_ok).1 a
        rw [z1]
        simp only [Res.pure_eq, Res.ok.injEq, Prod.mk.injEq] at z2
        rw [z2.1]
      rw [← h4]
      simp only [insertCut, CList.insert, if_neg h0, if_neg h1, if_neg h2, if_neg h3]
    refine ⟨h', hadd, fun u => ?_, fun hn => by omega, fun hn => by omega, fun _ => b⟩
    by_cases hu : u ∈ p :: (l ++ [x])
    · simp only [List.mem_cons, List.mem_append, List.not_mem_nil, or_false] at hu
      rcases hu with rfl | hu | rfl
      · rw [b.head, r.head]
      · rw [b.elem u (by simp [hu]), r.elem u hu]
      · rw [b.elem u (by simp), hf]
    · unfold fl; rw [c u hu]

end Uecho.Lemmas
