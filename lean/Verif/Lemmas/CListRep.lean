import Verif.Lemmas.CList
set_option linter.unusedSimpArgs false
/-!
# Lemmas: a memory represents a world of lists
-/
namespace Uecho.Lemmas
open Uecho Uecho.Spec Uecho.CList

/-- `u` is the header or an element of the list `p` -/
def Owns (w : Seqs) (p u : Nat) : Prop := ∃ l, w.lists p = some l ∧ u ∈ p :: l

structure Rep (h : Mem) (w : Seqs) : Prop where
  ring : ∀ p l, w.lists p = some l → IsRing h p l
  loose : ∀ x, w.loose x = true → h x = some ⟨false, some x, some x⟩
  one : ∀ p q u, Owns w p u → Owns w q u → p = q
  apart : ∀ p u, Owns w p u → w.loose u = false
  noLeak : ∀ u, h u ≠ none → w.loose u = true ∨ ∃ p, Owns w p u

theorem rep_empty : Rep (fun _ => none) ⟨fun _ => none, fun _ => false⟩ := by
  refine ⟨?_, ?_, ?_, ?_, ?_⟩
  · intro p l h; cases h
  · intro x h; cases h
  · rintro p q u ⟨l, h, _⟩; cases h
  · rintro p u ⟨l, h, _⟩; cases h
  · intro u h; exact absurd rfl h

/-- not part of a list other than `c` -/
def Other (w : Seqs) (c : Option Nat) (u : Nat) : Prop := ∀ q, some q ≠ c → ¬ Owns w q u

theorem Rep.other_of_owns {h : Mem} {w : Seqs} (r : Rep h w) {p u : Nat} (k : Owns w p u) : Other w (some p) u :=
  fun q hq hk => hq (by rw [r.one q p u hk k])
theorem Rep.other_of_loose {h : Mem} {w : Seqs} (r : Rep h w) {u : Nat} (k : w.loose u = true) (c : Option Nat) : Other w c u :=
  fun q _ hk => by rw [r.apart q u hk] at k; cases k
theorem other_of_fresh {w : Seqs} {u : Nat} (k : w.Fresh u) (c : Option Nat) : Other w c u := by
  rintro q _ ⟨l, h1, h2⟩
  rcases List.mem_cons.1 h2 with rfl | h2
  · rw [k.2.1] at h1; cases h1
  · exact k.2.2 q l h1 h2
theorem Rep.fresh_none {h : Mem} {w : Seqs} (r : Rep h w) {u : Nat} (k : w.Fresh u) : h u = none := by
  by_cases hn : h u = none
  · exact hn
  · rcases r.noLeak u hn with h1 | ⟨p, h1⟩
    · rw [k.1] at h1; cases h1
    · exact absurd h1 (other_of_fresh k none p (by simp))

/-- a change of at most the list `c` -/
theorem Rep.update {h h' : Mem} {w w' : Seqs} (r : Rep h w) (c : Option Nat)
    (same : ∀ q, some q ≠ c → w'.lists q = w.lists q)
    (frame : ∀ q u, some q ≠ c → Owns w q u → h' u = h u)
    (ring : ∀ p l, c = some p → w'.lists p = some l → IsRing h' p l ∧ ∀ u ∈ p :: l, Other w c u ∧ w'.loose u = false)
    (loose : ∀ u, w'.loose u = true → h' u = some ⟨false, some u, some u⟩ ∧ Other w c u)
    (noLeak : ∀ u, h' u ≠ none → w'.loose u = true ∨ (∃ p l, c = some p ∧ w'.lists p = some l ∧ u ∈ p :: l) ∨
      ∃ q, some q ≠ c ∧ Owns w q u) : Rep h' w' := by
  have owns : ∀ q u, some q ≠ c → (Owns w' q u ↔ Owns w q u) := by
    intro q u hq; unfold Owns; rw [same q hq]
  refine ⟨?_, fun x hx => (loose x hx).1, ?_, ?_, ?_⟩
  · intro p l hp
    by_cases hc : some p = c
    · exact (ring p l hc.symm hp).1
    · rw [same p hc] at hp
      exact (r.ring p l hp).frame (fun u hu => frame p u hc ⟨l, hp, hu⟩)
  · intro p q u kp kq
    by_cases hp : some p = c
    · by_cases hq : some q = c
      · exact Option.some.inj (hp.trans hq.symm)
      · obtain ⟨l, h1, h2⟩ := kp
        exact absurd ((owns q u hq).1 kq) (((ring p l hp.symm h1).2 u h2).1 q hq)
    · by_cases hq : some q = c
      · obtain ⟨l, h1, h2⟩ := kq
        exact absurd ((owns p u hp).1 kp) (((ring q l hq.symm h1).2 u h2).1 p hp)
      · exact r.one p q u ((owns p u hp).1 kp) ((owns q u hq).1 kq)
  · intro p u k
    by_cases hp : some p = c
    · obtain ⟨l, h1, h2⟩ := k
      exact ((ring p l hp.symm h1).2 u h2).2
    · cases hl : w'.loose u with
      | false => rfl
      | true => exact absurd ((owns p u hp).1 k) ((loose u hl).2 p hp)
  · intro u hu
    rcases noLeak u hu with k | ⟨p, l, _, h1, h2⟩ | ⟨q, hq, k⟩
    · exact .inl k
    · exact .inr ⟨p, l, h1, h2⟩
    · exact .inr ⟨q, (owns q u hq).2 k⟩

theorem Rep.loose_not_mem {h : Mem} {w : Seqs} (r : Rep h w) {p x : Nat} {l : List Nat} (hp : w.lists p = some l)
    (hx : w.loose x = true) : x ∉ p :: l := by
  intro hm
  have := r.apart p x ⟨l, hp, hm⟩
  rw [hx] at this; cases this

theorem Rep.loose_fl {h : Mem} {w : Seqs} (r : Rep h w) {x : Nat} (hx : w.loose x = true) : fl h x = some false := by
  unfold fl; rw [r.loose x hx]; rfl

/-- insertion at any place -/
theorem Rep.insert {h : Mem} {w : Seqs} (r : Rep h w) {p x : Nat} {l1 l2 : List Nat} (hp : w.lists p = some (l1 ++ l2))
    (hx : w.loose x = true) : ∃ h', CList.insert h ((p :: l1).getLast (by simp)) x = .ok h' ∧
    Rep h' ((w.setList p (some (l1 ++ x :: l2))).setLoose x false) := by
  have hxn := r.loose_not_mem hp hx
  obtain ⟨h', g1, g2, g3⟩ := ring_insert (r.ring p _ hp) hxn (r.loose_fl hx)
  refine ⟨h', g1, r.update (some p) ?_ ?_ ?_ ?_ ?_⟩
  · intro q hq
    simp only [Seqs.setList, Seqs.setLoose]
    rw [if_neg (fun e => hq (by rw [e]))]
  · intro q u hq k
    refine g3 u (fun hm => ?_)
    have : u = x ∨ u ∈ p :: (l1 ++ l2) := by
      simp only [List.mem_cons, List.mem_append] at hm ⊢
      rcases hm with h | h | h | h <;> simp [h]
    rcases this with rfl | hm
    · exact r.other_of_loose hx (some p) q hq k
    · exact r.other_of_owns ⟨_, hp, hm⟩ q hq k
  · rintro q l e hl
    obtain rfl := Option.some.inj e
    simp only [Seqs.setList, Seqs.setLoose, if_true, Option.some.injEq] at hl
    subst hl
    refine ⟨g2, fun u hm => ?_⟩
    have : u = x ∨ u ∈ p :: (l1 ++ l2) := by
      simp only [List.mem_cons, List.mem_append] at hm ⊢
      rcases hm with h | h | h | h <;> simp [h]
    simp only [Seqs.setList, Seqs.setLoose]
    rcases this with rfl | hm2
    · exact ⟨r.other_of_loose hx _, by simp⟩
    · refine ⟨r.other_of_owns ⟨_, hp, hm2⟩, ?_⟩
      rw [if_neg (by rintro rfl; exact hxn hm2)]
      exact r.apart p u ⟨_, hp, hm2⟩
  · intro u hu
    simp only [Seqs.setList, Seqs.setLoose] at hu
    by_cases e : u = x
    · rw [if_pos e] at hu; cases hu
    · rw [if_neg e] at hu
      refine ⟨?_, r.other_of_loose hu _⟩
      rw [g3 u ?_]; · exact r.loose u hu
      have := r.loose_not_mem hp hu
      simp only [List.mem_cons, List.mem_append, not_or] at this ⊢
      exact ⟨this.1, this.2.1, e, this.2.2⟩
  · intro u hu
    by_cases hm : u ∈ p :: (l1 ++ x :: l2)
    · exact .inr (.inl ⟨p, l1 ++ x :: l2, rfl, by simp [Seqs.setList, Seqs.setLoose], hm⟩)
    · rw [g3 u hm] at hu
      rcases r.noLeak u hu with k | ⟨q, k⟩
      · refine .inl ?_
        simp only [Seqs.setList, Seqs.setLoose]
        rw [if_neg (by rintro rfl; exact hm (by simp))]; exact k
      · refine .inr (.inr ⟨q, ?_, k⟩)
        rintro e
        obtain rfl := Option.some.inj e
        obtain ⟨l, k1, k2⟩ := k
        rw [hp] at k1; obtain rfl := Option.some.inj k1
        apply hm
        simp only [List.mem_cons, List.mem_append] at k2 ⊢
        rcases k2 with h | h | h <;> simp [h]

theorem Rep.remove {h : Mem} {w : Seqs} (r : Rep h w) {p x : Nat} {l1 l2 : List Nat} (hp : w.lists p = some (l1 ++ x :: l2)) :
    ∃ h', CList.remove h x = .ok (h', true) ∧ Rep h' ((w.setList p (some (l1 ++ l2))).setLoose x true) := by
  obtain ⟨h', g1, g2, g3, g4⟩ := ring_remove (r.ring p _ hp)
  have hsub : ∀ u, u ∈ p :: (l1 ++ l2) → u ∈ p :: (l1 ++ x :: l2) := by
    intro u hm
    simp only [List.mem_cons, List.mem_append] at hm ⊢
    rcases hm with h | h | h <;> simp [h]
  have hxn : x ∉ p :: (l1 ++ l2) := by
    have := (r.ring p _ hp).nd
    rw [← List.cons_append] at this ⊢
    rw [List.nodup_append] at this
    obtain ⟨_, a2, a3⟩ := this
    rw [List.mem_append, not_or]
    exact ⟨fun hm => a3 x hm x (by simp) rfl, (List.nodup_cons.1 a2).1⟩
  refine ⟨h', g1, r.update (some p) ?_ ?_ ?_ ?_ ?_⟩
  · intro q hq
    simp only [Seqs.setList, Seqs.setLoose]
    rw [if_neg (fun e => hq (by rw [e]))]
  · intro q u hq k
    exact g4 u (fun hm => r.other_of_owns ⟨_, hp, hm⟩ q hq k)
  · rintro q l e hl
    obtain rfl := Option.some.inj e
    simp only [Seqs.setList, Seqs.setLoose, if_true, Option.some.injEq] at hl
    subst hl
    refine ⟨g2, fun u hm => ⟨r.other_of_owns ⟨_, hp, hsub u hm⟩, ?_⟩⟩
    simp only [Seqs.setList, Seqs.setLoose]
    rw [if_neg (by rintro rfl; exact hxn hm)]
    exact r.apart p u ⟨_, hp, hsub u hm⟩
  · intro u hu
    simp only [Seqs.setList, Seqs.setLoose] at hu
    by_cases e : u = x
    · subst e; exact ⟨g3, r.other_of_owns ⟨_, hp, by simp⟩⟩
    · rw [if_neg e] at hu
      exact ⟨by rw [g4 u (r.loose_not_mem hp hu)]; exact r.loose u hu, r.other_of_loose hu _⟩
  · intro u hu
    by_cases hm : u ∈ p :: (l1 ++ x :: l2)
    · by_cases e : u = x
      · exact .inl (by simp [Seqs.setLoose, e])
      · refine .inr (.inl ⟨p, l1 ++ l2, rfl, by simp [Seqs.setList, Seqs.setLoose], ?_⟩)
        simp only [List.mem_cons, List.mem_append] at hm ⊢
        rcases hm with h | h | h | h
        · simp [h]
        · simp [h]
        · exact absurd h e
        · simp [h]
    · rw [g4 u hm] at hu
      rcases r.noLeak u hu with k | ⟨q, k⟩
      · refine .inl ?_
        simp only [Seqs.setList, Seqs.setLoose]
        rw [if_neg (by rintro rfl; exact hm (by simp))]; exact k
      · refine .inr (.inr ⟨q, ?_, k⟩)
        rintro e
        obtain rfl := Option.some.inj e
        obtain ⟨l, k1, k2⟩ := k
        rw [hp] at k1; obtain rfl := Option.some.inj k1
        exact hm k2

theorem Rep.clear {h : Mem} {w : Seqs} (r : Rep h w) {p : Nat} {l : List Nat} (hp : w.lists p = some l) :
    ∃ h', (∀ k, l.length ≤ k → CList.clear k h p = .ok (some h')) ∧ Rep h' (w.setList p (some [])) := by
  obtain ⟨h', g1, g2, g3, g4⟩ := clearLoop_ring (r.ring p _ hp)
  refine ⟨h', ?_, r.update (some p) ?_ ?_ ?_ ?_ ?_⟩
  · intro k hk; unfold CList.clear; rw [next_head (r.ring p _ hp)]; exact g1 k hk
  · intro q hq
    simp only [Seqs.setList]
    rw [if_neg (fun e => hq (by rw [e]))]
  · intro q u hq k
    exact g4 u (fun hm => r.other_of_owns ⟨_, hp, hm⟩ q hq k)
  · rintro q l' e hl
    obtain rfl := Option.some.inj e
    simp only [Seqs.setList, if_true, Option.some.injEq] at hl
    subst hl
    refine ⟨g2, fun u hm => ?_⟩
    have hm' : u ∈ p :: l := by simp only [List.mem_singleton] at hm; simp [hm]
    exact ⟨r.other_of_owns ⟨_, hp, hm'⟩, r.apart p u ⟨_, hp, hm'⟩⟩
  · intro u hu
    exact ⟨by rw [g4 u (r.loose_not_mem hp hu)]; exact r.loose u hu, r.other_of_loose hu _⟩
  · intro u hu
    by_cases hm : u ∈ p :: l
    · rcases List.mem_cons.1 hm with e | hm
      · exact .inr (.inl ⟨p, [], rfl, by simp [Seqs.setList], by simp [e]⟩)
      · exact absurd (g3 u hm) hu
    · rw [g4 u hm] at hu
      rcases r.noLeak u hu with k | ⟨q, k⟩
      · exact .inl k
      · refine .inr (.inr ⟨q, ?_, k⟩)
        rintro e
        obtain rfl := Option.some.inj e
        obtain ⟨l, k1, k2⟩ := k
        rw [hp] at k1; obtain rfl := Option.some.inj k1
        exact hm k2

theorem Rep.newList {h : Mem} {w : Seqs} (r : Rep h w) {p : Nat} (hp : w.Fresh p) :
    Rep (put h p ⟨true, some p, some p⟩) (w.setList p (some [])) := by
  refine r.update (some p) ?_ ?_ ?_ ?_ ?_
  · intro q hq
    simp only [Seqs.setList]
    rw [if_neg (fun e => hq (by rw [e]))]
  · intro q u hq k
    unfold put; rw [if_neg]
    rintro rfl; exact other_of_fresh hp (some u) q hq k
  · rintro q l e hl
    obtain rfl := Option.some.inj e
    simp only [Seqs.setList, if_true, Option.some.injEq] at hl
    subst hl
    refine ⟨⟨by simp, ?_, ?_, by simp⟩, ?_⟩
    · simp [Links, nx, pv, put]
    · simp [fl, put]
    · intro u hu; simp only [List.mem_singleton] at hu; subst hu
      exact ⟨other_of_fresh hp _, hp.1⟩
  · intro u hu
    refine ⟨?_, r.other_of_loose hu _⟩
    unfold put; rw [if_neg]; · exact r.loose u hu
    rintro rfl; simp only [Seqs.setList] at hu; rw [hp.1] at hu; cases hu
  · intro u hu
    by_cases e : u = p
    · exact .inr (.inl ⟨p, [], rfl, by simp [Seqs.setList], by simp [e]⟩)
    · unfold put at hu; rw [if_neg e] at hu
      rcases r.noLeak u hu with k | ⟨q, k⟩
      · exact .inl k
      · refine .inr (.inr ⟨q, ?_, k⟩)
        rintro e
        obtain rfl := Option.some.inj e
        obtain ⟨l, k1, k2⟩ := k
        rw [hp.2.1] at k1; cases k1

theorem Rep.newElement {h : Mem} {w : Seqs} (r : Rep h w) {x : Nat} (hp : w.Fresh x) :
    Rep (put h x ⟨false, some x, some x⟩) (w.setLoose x true) := by
  refine r.update none (fun _ _ => rfl) ?_ (by intro _ _ h; cases h) ?_ ?_
  · intro q u hq k
    unfold put; rw [if_neg]
    rintro rfl; exact other_of_fresh hp none q hq k
  · intro u hu
    by_cases e : u = x
    · subst e; exact ⟨by simp [put], other_of_fresh hp _⟩
    · simp only [Seqs.setLoose, if_neg e] at hu
      exact ⟨by unfold put; rw [if_neg e]; exact r.loose u hu, r.other_of_loose hu _⟩
  · intro u hu
    by_cases e : u = x
    · exact .inl (by simp [Seqs.setLoose, e])
    · unfold put at hu; rw [if_neg e] at hu
      rcases r.noLeak u hu with k | ⟨q, k⟩
      · exact .inl (by simp [Seqs.setLoose, e, k])
      · exact .inr (.inr ⟨q, by simp, k⟩)

theorem Rep.freeElement {h : Mem} {w : Seqs} (r : Rep h w) {x : Nat} (hx : w.loose x = true) :
    Rep (fun q => if q = x then none else h q) (w.setLoose x false) := by
  refine r.update none (fun _ _ => rfl) ?_ (by intro _ _ h; cases h) ?_ ?_
  · intro q u hq k
    rw [if_neg]
    rintro rfl; exact r.other_of_loose hx none q hq k
  · intro u hu
    by_cases e : u = x
    · simp [Seqs.setLoose, e] at hu
    · simp only [Seqs.setLoose, if_neg e] at hu
      exact ⟨by rw [if_neg e]; exact r.loose u hu, r.other_of_loose hu _⟩
  · intro u hu
    by_cases e : u = x
    · simp [e] at hu
    · simp only [if_neg e] at hu
      rcases r.noLeak u hu with k | ⟨q, k⟩
      · exact .inl (by simp [Seqs.setLoose, e, k])
      · exact .inr (.inr ⟨q, by simp, k⟩)

theorem Rep.freeList {h : Mem} {w : Seqs} (r : Rep h w) {p : Nat} (hp : w.lists p = some []) :
    Rep (fun q => if q = p then none else h q) (w.setList p none) := by
  have own : Owns w p p := ⟨[], hp, by simp⟩
  refine r.update (some p) ?_ ?_ ?_ ?_ ?_
  · intro q hq
    simp only [Seqs.setList]
    rw [if_neg (fun e => hq (by rw [e]))]
  · intro q u hq k
    rw [if_neg]
    rintro rfl; exact r.other_of_owns own q hq k
  · rintro q l e hl
    obtain rfl := Option.some.inj e
    simp [Seqs.setList] at hl
  · intro u hu
    refine ⟨?_, r.other_of_loose hu _⟩
    rw [if_neg]; · exact r.loose u hu
    rintro rfl; have := r.apart u u own; simp only [Seqs.setList] at hu; rw [hu] at this; cases this
  · intro u hu
    by_cases e : u = p
    · simp [e] at hu
    · simp only [if_neg e] at hu
      rcases r.noLeak u hu with k | ⟨q, k⟩
      · exact .inl k
      · refine .inr (.inr ⟨q, ?_, k⟩)
        rintro e'
        obtain rfl := Option.some.inj e'
        obtain ⟨l, k1, k2⟩ := k
        rw [hp] at k1; obtain rfl := Option.some.inj k1
        exact e (by simpa using k2)

/-! ### sequences split at an element -/

theorem after_split {x : Nat} {l1 l2 : List Nat} (nd : (l1 ++ x :: l2).Nodup) : Spec.after x (l1 ++ x :: l2) = l2.head? := by
  induction l1 with
  | nil => simp [Spec.after]
  | cons a l ih =>
    rw [List.cons_append, List.nodup_cons] at nd
    simp only [List.cons_append, Spec.after]
    rw [if_neg (by rintro rfl; exact nd.1 (by simp)), ih nd.2]

theorem before_split {x : Nat} {l1 l2 : List Nat} (nd : (l1 ++ x :: l2).Nodup) : Spec.before x (l1 ++ x :: l2) = l1.getLast? := by
  unfold Spec.before
  have e : (l1 ++ x :: l2).reverse = l2.reverse ++ x :: l1.reverse := by simp
  have nd' : (l2.reverse ++ x :: l1.reverse).Nodup := by
    rw [← e]; unfold List.Nodup at nd ⊢
    rw [List.pairwise_reverse]
    exact nd.imp (fun h => Ne.symm h)
  rw [e, after_split nd', List.head?_reverse]

theorem insertAfter_split {x y : Nat} {l1 l2 : List Nat} (nd : (l1 ++ y :: l2).Nodup) :
    Spec.insertAfter y x (l1 ++ y :: l2) = l1 ++ y :: x :: l2 := by
  induction l1 with
  | nil => simp [Spec.insertAfter]
  | cons a l ih =>
    rw [List.cons_append, List.nodup_cons] at nd
    simp only [List.cons_append, Spec.insertAfter]
    rw [if_neg (by rintro rfl; exact nd.1 (by simp)), ih nd.2]

theorem erase_split {x : Nat} {l1 l2 : List Nat} (nd : (l1 ++ x :: l2).Nodup) : (l1 ++ x :: l2).erase x = l1 ++ l2 := by
  rw [List.nodup_append] at nd
  rw [List.erase_append_right _ (fun hm => nd.2.2 x hm x (by simp) rfl)]
  simp

end Uecho.Lemmas
