import Verif.Spec.ObjC
/-! # Lemmas about the Objective-C wrapper -/
namespace Uecho.Lemmas
open Uecho Uecho.Spec Uecho.ObjC

/-- What an object is responsible for. -/
def ownOf (w : Wrap) : List Nat := if w.held && !w.weak then w.region :: w.table.toList else []

def ownedBy (ws : List Wrap) : List Nat := ws.flatMap ownOf

/-- What has a responsible object. -/
def ownable : Kind → Bool
  | .response | .arrived => false
  | _ => true

structure OInv (s : St) : Prop where
  nodup : (ownedBy s.wraps).Nodup
  live : ∀ r, r ∈ ownedBy s.wraps ↔ ∃ k, s.regions[r]? = some ⟨k, true⟩ ∧ ownable k = true

theorem oinv_empty : OInv noObjects := ⟨by simp [ownedBy, noObjects], by simp [ownedBy, noObjects]⟩

theorem owned_snoc (ws : List Wrap) (w : Wrap) : ownedBy (ws ++ [w]) = ownedBy ws ++ ownOf w := by
  simp [ownedBy]

theorem held_some {s : St} {i : Nat} {w : Wrap} (h : held s i = some w) : s.wraps[i]? = some w ∧ w.held = true := by
  unfold held at h
  rw [Option.filter_eq_some_iff] at h
  exact h

theorem split_at {ws : List Wrap} {i : Nat} {w : Wrap} (h : ws[i]? = some w) (w' : Wrap) :
    ∃ xs ys, ws = xs ++ w :: ys ∧ ws.set i w' = xs ++ w' :: ys := by
  obtain ⟨hi, hw⟩ := List.getElem?_eq_some_iff.1 h
  refine ⟨ws.take i, ws.drop (i + 1), ?_, ?_⟩
  · rw [← hw, List.getElem_cons_drop, List.take_append_drop]
  · rw [List.set_eq_take_append_cons_drop, if_pos hi]

theorem free_ok {s : St} {r : Nat} (h : Alive s r) : ∃ k, s.regions[r]? = some ⟨k, true⟩ ∧
    free s r = .ok { s with regions := s.regions.set r ⟨k, false⟩ } := by
  obtain ⟨k, h⟩ := h
  exact ⟨k, h, by unfold free; rw [h]⟩

theorem touch_ok {s : St} {r : Nat} (h : Alive s r) : touch s r = .ok () := by
  obtain ⟨k, h⟩ := h
  unfold touch; rw [h]

theorem touch_alive {s : St} {r : Nat} {x : Unit} (h : touch s r = .ok x) : Alive s r := by
  unfold touch at h
  split at h
  · rename_i k hk; exact ⟨k, hk⟩
  · cases h

theorem set_live {l : List Region} {t : Nat} {k0 : Kind} (ht : l[t]? = some ⟨k0, true⟩) (r : Nat) (k : Kind) :
    (l.set t ⟨k0, false⟩)[r]? = some ⟨k, true⟩ ↔ r ≠ t ∧ l[r]? = some ⟨k, true⟩ := by
  by_cases h : t = r
  · subst h
    rw [List.getElem?_set_self (List.getElem?_eq_some_iff.1 ht).1]
    simp
  · rw [List.getElem?_set_ne h]
    exact ⟨fun hx => ⟨fun hh => h hh.symm, hx⟩, fun hx => hx.2⟩

theorem snoc_live (l : List Region) (k0 : Kind) (r : Nat) (k : Kind) :
    (l ++ [⟨k0, true⟩])[r]? = some ⟨k, true⟩ ↔ l[r]? = some ⟨k, true⟩ ∨ (r = l.length ∧ k = k0) := by
  by_cases h : r < l.length
  · rw [List.getElem?_append_left h]
    exact ⟨.inl, fun hx => hx.elim id fun hy => by omega⟩
  · rw [List.getElem?_append_right (by omega)]
    have hn : l[r]? = none := List.getElem?_eq_none (by omega)
    rw [hn]
    by_cases h2 : r = l.length
    · subst h2
      simp only [Nat.sub_self, List.getElem?_cons_zero, Option.some.injEq, Region.mk.injEq, and_true, true_and, false_or, reduceCtorEq]
      exact ⟨fun h => h.symm, fun h => h.symm⟩
    · have : (([⟨k0, true⟩] : List Region))[r - l.length]? = none := List.getElem?_eq_none (by simp; omega)
      rw [this]
      simp [h2]

theorem OInv.fresh {s : St} (h : OInv s) : s.regions.length ∉ ownedBy s.wraps := by
  rw [h.live]
  rintro ⟨k, hk, _⟩
  rw [List.getElem?_eq_none (Nat.le_refl _)] at hk
  cases hk

/-- A region without a responsible object is made. -/
theorem OInv.allocOther {s : St} (h : OInv s) {k : Kind} (hk : ownable k = false) : OInv (alloc s k).1 := by
  refine ⟨h.nodup, fun r => ?_⟩
  simp only [alloc]
  rw [h.live]
  constructor
  · rintro ⟨k', h1, h2⟩
    exact ⟨k', (snoc_live _ _ _ _).2 (.inl h1), h2⟩
  · rintro ⟨k', h1, h2⟩
    rcases (snoc_live _ _ _ _).1 h1 with h1 | ⟨_, rfl⟩
    · exact ⟨k', h1, h2⟩
    · rw [hk] at h2; cases h2

theorem OInv.wrapWeak {s : St} (h : OInv s) (r : Nat) (t : Option Nat) : OInv (wrap s r true t) := by
  have : ownedBy (wrap s r true t).wraps = ownedBy s.wraps := by
    simp only [wrap, owned_snoc, ownOf, Bool.not_true, Bool.and_false, Bool.false_eq_true, if_false, List.append_nil]
  exact ⟨by rw [this]; exact h.nodup, fun r => by rw [this]; exact h.live r⟩

theorem OInv.newObject {s : St} (h : OInv s) {k : Kind} (hk : ownable k = true) : OInv (newObject s k) := by
  have ho : ownedBy (ObjC.newObject s k).wraps = ownedBy s.wraps ++ [s.regions.length] := by
    simp [ObjC.newObject, alloc, wrap, owned_snoc, ownOf]
  refine ⟨?_, fun r => ?_⟩
  · rw [ho, List.nodup_append]
    refine ⟨h.nodup, by simp, ?_⟩
    intro a ha b hb hab
    simp only [List.mem_singleton] at hb
    subst hab; subst hb
    exact h.fresh ha
  · rw [ho, List.mem_append, h.live]
    simp only [ObjC.newObject, alloc, wrap, snoc_live, List.mem_singleton]
    constructor
    · rintro (⟨k', h1, h2⟩ | rfl)
      · exact ⟨k', .inl h1, h2⟩
      · exact ⟨k, .inr ⟨rfl, rfl⟩, hk⟩
    · rintro ⟨k', h1 | ⟨h1, _⟩, h2⟩
      · exact .inl ⟨k', h1, h2⟩
      · exact .inr h1

theorem OInv.newController {s : St} (h : OInv s) : OInv (newController s) := by
  have ho : ownedBy (ObjC.newController s).wraps = ownedBy s.wraps ++ [s.regions.length, s.regions.length + 1] := by
    simp [ObjC.newController, alloc, wrap, owned_snoc, ownOf]
  have hfr : ∀ r, r ∈ ownedBy s.wraps → r < s.regions.length := by
    intro r hr
    obtain ⟨k, hk, _⟩ := (h.live r).1 hr
    exact (List.getElem?_eq_some_iff.1 hk).1
  refine ⟨?_, fun r => ?_⟩
  · rw [ho, List.nodup_append]
    refine ⟨h.nodup, by simp, ?_⟩
    intro a ha b hb hab
    have := hfr a ha
    simp only [List.mem_cons, List.not_mem_nil, or_false] at hb
    omega
  · rw [ho, List.mem_append, h.live]
    simp only [ObjC.newController, alloc, wrap, snoc_live, List.mem_cons, List.not_mem_nil, or_false, List.length_append, List.length_singleton]
    constructor
    · rintro (⟨k', h1, h2⟩ | rfl | rfl)
      · exact ⟨k', .inl (.inl h1), h2⟩
      · exact ⟨.controller, .inl (.inr ⟨rfl, rfl⟩), rfl⟩
      · exact ⟨.table, .inr ⟨rfl, rfl⟩, rfl⟩
    · rintro ⟨k', (h1 | ⟨h1, _⟩) | ⟨h1, _⟩, h2⟩
      · exact .inl ⟨k', h1, h2⟩
      · exact .inr (.inl h1)
      · exact .inr (.inr h1)

theorem own_mem {ws : List Wrap} {i : Nat} {w : Wrap} (h : ws[i]? = some w) {r : Nat} (hr : r ∈ ownOf w) : r ∈ ownedBy ws :=
  List.mem_flatMap.2 ⟨w, List.mem_of_getElem? h, hr⟩

theorem OInv.alive {s : St} (h : OInv s) {i : Nat} {w : Wrap} (hw : s.wraps[i]? = some w) {r : Nat} (hr : r ∈ ownOf w) : Alive s r := by
  obtain ⟨k, hk, _⟩ := (h.live r).1 (own_mem hw hr)
  exact ⟨k, hk⟩

theorem dealloc_weak {s : St} (h : OInv s) {i : Nat} {w : Wrap} (hw : s.wraps[i]? = some w) (hk : w.weak = true) :
    ∃ s', dealloc s i w = .ok s' ∧ OInv s' ∧ s'.regions = s.regions := by
  refine ⟨{ s with wraps := s.wraps.set i { w with held := false } }, by unfold dealloc; simp [hk], ?_, rfl⟩
  obtain ⟨xs, ys, h1, h2⟩ := split_at hw { w with held := false }
  have : ownedBy (s.wraps.set i { w with held := false }) = ownedBy s.wraps := by
    rw [h2]
    conv => rhs; rw [h1]
    simp [ownedBy, ownOf, hk]
  exact ⟨by simp only; rw [this]; exact h.nodup, fun r => by simp only; rw [this]; exact h.live r⟩

/-- Letting go of a responsible object: exactly what it is responsible for is freed. -/
theorem dealloc_strong {s : St} (h : OInv s) {i : Nat} {w : Wrap} (hw : s.wraps[i]? = some w) (hd : w.held = true) (hk : w.weak = false) :
    ∃ s', dealloc s i w = .ok s' ∧ OInv s' ∧ ∀ r k, s'.regions[r]? = some ⟨k, true⟩ ↔ (r ∉ ownOf w ∧ s.regions[r]? = some ⟨k, true⟩) := by
  obtain ⟨rg, wk, tb, hl⟩ := w
  simp only at hd hk
  subst hd hk
  obtain ⟨xs, ys, h1, h2⟩ := split_at hw ⟨rg, false, tb, false⟩
  have hown : ownOf ⟨rg, false, tb, true⟩ = rg :: tb.toList := by simp [ownOf]
  have hold : ownedBy s.wraps = xs.flatMap ownOf ++ (ownOf ⟨rg, false, tb, true⟩ ++ ys.flatMap ownOf) := by
    rw [h1]; simp [ownedBy]
  have hnew : ownedBy (s.wraps.set i ⟨rg, false, tb, false⟩) = xs.flatMap ownOf ++ ys.flatMap ownOf := by
    rw [h2]; simp [ownedBy, ownOf]
  have hnd := h.nodup
  rw [hold] at hnd
  have hnd1 : (xs.flatMap ownOf ++ ys.flatMap ownOf).Nodup := by
    rw [List.nodup_append] at hnd ⊢
    rw [List.nodup_append] at hnd
    exact ⟨hnd.1, hnd.2.1.2.1, fun a ha b hb => hnd.2.2 a ha b (List.mem_append.2 (.inr hb))⟩
  have hmem : ∀ r, r ∈ xs.flatMap ownOf ++ ys.flatMap ownOf ↔ r ∉ ownOf ⟨rg, false, tb, true⟩ ∧ r ∈ ownedBy s.wraps := by
    intro r
    rw [hold]
    simp only [List.nodup_append, List.mem_append] at hnd ⊢
    constructor
    · rintro (hr | hr)
      · exact ⟨fun hx => hnd.2.2 r hr r (.inl hx) rfl, .inl hr⟩
      · exact ⟨fun hx => hnd.2.1.2.2 r hx r hr rfl, .inr (.inr hr)⟩
    · rintro ⟨hn, hr | hr | hr⟩
      · exact .inl hr
      · exact absurd hr hn
      · exact .inr hr
  have key : ∀ s' : St, s'.wraps = s.wraps.set i ⟨rg, false, tb, false⟩ →
      (∀ r k, s'.regions[r]? = some ⟨k, true⟩ ↔ (r ∉ ownOf ⟨rg, false, tb, true⟩ ∧ s.regions[r]? = some ⟨k, true⟩)) → OInv s' := by
    intro s' hs hr
    refine ⟨by rw [hs, hnew]; exact hnd1, fun r => ?_⟩
    rw [hs, hnew, hmem, h.live]
    constructor
    · rintro ⟨g1, k, g2, g3⟩
      exact ⟨k, (hr r k).2 ⟨g1, g2⟩, g3⟩
    · rintro ⟨k, g2, g3⟩
      exact ⟨((hr r k).1 g2).1, k, ((hr r k).1 g2).2, g3⟩
  obtain ⟨k1, hk1, hf1⟩ := free_ok (s := { s with wraps := s.wraps.set i ⟨rg, false, tb, false⟩ })
    (r := rg) (h.alive hw (by rw [hown]; simp))
  simp only at hk1 hf1
  cases tb with
  | none =>
    refine ⟨_, by unfold dealloc; simp only [Bool.false_eq_true, if_false, hf1, Res.bind_ok, Res.pure_eq]; rfl, ?_⟩
    have hr : ∀ r k, (s.regions.set rg ⟨k1, false⟩)[r]? = some ⟨k, true⟩ ↔ (r ∉ ownOf ⟨rg, false, none, true⟩ ∧ s.regions[r]? = some ⟨k, true⟩) := by
      intro r k
      rw [set_live hk1, hown]
      simp
    exact ⟨key _ rfl hr, hr⟩
  | some t =>
    have htr : t ≠ rg := by
      intro hx
      rw [List.nodup_append, List.nodup_append, hown, hx] at hnd
      simp at hnd
    obtain ⟨k2, hk2⟩ := h.alive hw (r := t) (by rw [hown]; simp)
    have hk2' : (s.regions.set rg ⟨k1, false⟩)[t]? = some ⟨k2, true⟩ := (set_live hk1 _ _).2 ⟨htr, hk2⟩
    refine ⟨{ wraps := s.wraps.set i ⟨rg, false, (some t), false⟩, regions := (s.regions.set rg ⟨k1, false⟩).set t ⟨k2, false⟩ }, ?_, ?_⟩
    · unfold dealloc
      simp only [Bool.false_eq_true, if_false, hf1, Res.bind_ok]
      unfold free
      simp only [hk2']
    · have hr : ∀ r k, ((s.regions.set rg ⟨k1, false⟩).set t ⟨k2, false⟩)[r]? = some ⟨k, true⟩ ↔
          (r ∉ ownOf ⟨rg, false, (some t), true⟩ ∧ s.regions[r]? = some ⟨k, true⟩) := by
        intro r k
        rw [set_live hk2', set_live hk1, hown]
        simp only [Option.toList_some, List.mem_cons, List.not_mem_nil, or_false, not_or, ne_eq]
        exact ⟨fun ⟨a, b, c⟩ => ⟨⟨b, a⟩, c⟩, fun ⟨⟨b, a⟩, c⟩ => ⟨a, b, c⟩⟩
      exact ⟨key _ rfl hr, hr⟩

/-- A controller that is held is responsible for its nodes: none of the objects with a table is weak. -/
def Tabled (s : St) : Prop := ∀ w ∈ s.wraps, w.table ≠ none → w.weak = false

theorem start_spec {s : St} (h : OInv s) {i t : Nat} {w : Wrap} (hw : s.wraps[i]? = some w) (hd : w.held = true) (hk : w.weak = false)
    (ht : w.table = some t) : ∃ s', start s i w = .ok s' ∧ OInv s' ∧
      s'.wraps = s.wraps.set i { w with table := some s.regions.length } ∧
      ∀ r k, s'.regions[r]? = some ⟨k, true⟩ ↔ ((r ≠ t ∧ s.regions[r]? = some ⟨k, true⟩) ∨ (r = s.regions.length ∧ k = .table)) := by
  obtain ⟨xs, ys, h1, h2⟩ := split_at hw { w with table := some s.regions.length }
  have hown : ownOf w = [w.region, t] := by simp [ownOf, hd, hk, ht]
  have hold : ownedBy s.wraps = xs.flatMap ownOf ++ ([w.region, t] ++ ys.flatMap ownOf) := by
    rw [h1]; simp [ownedBy, hown]
  have hnew : ownedBy (s.wraps.set i { w with table := some s.regions.length }) =
      xs.flatMap ownOf ++ ([w.region, s.regions.length] ++ ys.flatMap ownOf) := by
    rw [h2]; simp [ownedBy, ownOf, hd, hk]
  obtain ⟨k2, hk2, hf⟩ := free_ok (h.alive hw (r := t) (by rw [hown]; simp))
  have hfr := h.fresh
  have hnd := h.nodup
  rw [hold] at hfr hnd
  simp only [List.nodup_append, List.mem_append, List.mem_cons, List.not_mem_nil, or_false, not_or, List.nodup_cons, List.nodup_nil,
    not_false_eq_true, and_true] at hfr hnd
  have hr : ∀ r k, (s.regions.set t ⟨k2, false⟩ ++ [⟨.table, true⟩])[r]? = some ⟨k, true⟩ ↔
      ((r ≠ t ∧ s.regions[r]? = some ⟨k, true⟩) ∨ (r = s.regions.length ∧ k = .table)) := by
    intro r k
    rw [snoc_live, set_live hk2, List.length_set]
  have hlen : (s.regions.set t ⟨k2, false⟩).length = s.regions.length := List.length_set
  refine ⟨{ regions := s.regions.set t ⟨k2, false⟩ ++ [⟨.table, true⟩], wraps := s.wraps.set i { w with table := some s.regions.length } }, ?_, ?_, rfl, hr⟩
  · unfold start
    simp only [ht, touch_ok (h.alive hw (r := w.region) (by rw [hown]; simp)), Res.bind_ok, hf, alloc, Res.pure_eq, hlen]
  · refine ⟨?_, fun r => ?_⟩
    · simp only
      rw [hnew]
      simp only [List.nodup_append, List.mem_append, List.mem_cons, List.not_mem_nil, or_false, List.nodup_cons, List.nodup_nil,
        not_false_eq_true, and_true]
      refine ⟨hnd.1, ⟨fun hx => hfr.2.1.1 hx.symm, hnd.2.1.2.1, ?_⟩, ?_⟩
      · intro a ha b hb
        rcases ha with rfl | rfl
        · exact hnd.2.1.2.2 _ (.inl rfl) b hb
        · rintro rfl; exact hfr.2.2 hb
      · intro a ha b hb
        rcases hb with (rfl | rfl) | hb
        · exact hnd.2.2 a ha _ (.inl (.inl rfl))
        · rintro rfl; exact hfr.1 ha
        · exact hnd.2.2 a ha b (.inr hb)
    · simp only
      rw [hnew]
      have hmem : ∀ r, r ∈ xs.flatMap ownOf ++ ([w.region, s.regions.length] ++ ys.flatMap ownOf) ↔
          (r ≠ t ∧ r ∈ ownedBy s.wraps) ∨ r = s.regions.length := by
        intro r
        rw [hold]
        simp only [List.mem_append, List.mem_cons, List.not_mem_nil, or_false]
        constructor
        · rintro (hx | (rfl | rfl) | hx)
          · exact .inl ⟨hnd.2.2 r hx t (.inl (.inr rfl)), .inl hx⟩
          · exact .inl ⟨hnd.2.1.1, .inr (.inl (.inl rfl))⟩
          · exact .inr rfl
          · exact .inl ⟨fun hy => hnd.2.1.2.2 t (.inr rfl) r hx hy.symm, .inr (.inr hx)⟩
        · rintro (⟨hn, hx | (rfl | rfl) | hx⟩ | rfl)
          · exact .inl hx
          · exact .inr (.inl (.inl rfl))
          · exact absurd rfl hn
          · exact .inr (.inr hx)
          · exact .inr (.inl (.inr rfl))
      rw [hmem, h.live]
      constructor
      · rintro (⟨g1, k, g2, g3⟩ | rfl)
        · exact ⟨k, (hr r k).2 (.inl ⟨g1, g2⟩), g3⟩
        · exact ⟨.table, (hr _ _).2 (.inr ⟨rfl, rfl⟩), rfl⟩
      · rintro ⟨k, g2, g3⟩
        rcases (hr r k).1 g2 with ⟨g4, g5⟩ | ⟨g4, _⟩
        · exact .inl ⟨g4, k, g5, g3⟩
        · exact .inr g4

/-- What ended the life of a region. -/
def Ended (s : St) (op : Op) (r : Nat) (k : Kind) : Prop :=
  (k = .arrived ∧ op = .returned r) ∨ ∃ (i : Nat) (w : Wrap), s.wraps[i]? = some w ∧ w.held = true ∧ w.weak = false ∧
    ((op = .release i ∧ r ∈ ownOf w) ∨ (op = .start i ∧ w.table = some r))

/-- What a step keeps. -/
structure OKept (s : St) (op : Op) (s' : St) : Prop where
  inv : OInv s'
  tabled : Tabled s'
  lives : ∀ r k, s.regions[r]? = some ⟨k, true⟩ → s'.regions[r]? = some ⟨k, true⟩ ∨ Ended s op r k

/-- A held weak object among those used points to memory that is gone. -/
def Dangles (s : St) (op : Op) : Prop :=
  ∃ i ∈ usedBy op, ∃ w : Wrap, s.wraps[i]? = some w ∧ w.held = true ∧ w.weak = true ∧ ¬ Alive s w.region

theorem OKept.same {s : St} (h : OInv s) (ht : Tabled s) (op : Op) : OKept s op s := ⟨h, ht, fun _ _ hr => .inl hr⟩

theorem tabled_wrap {s : St} (h : Tabled s) (r : Nat) : Tabled (wrap s r true none) := by
  intro w hw
  simp only [wrap, List.mem_append, List.mem_singleton] at hw
  rcases hw with hw | rfl
  · exact h w hw
  · intro hx; exact absurd rfl hx

theorem tabled_strong {s : St} (h : Tabled s) (s' : St) {r : Nat} {t : Option Nat} (hs : s'.wraps = s.wraps ++ [⟨r, false, t, true⟩]) : Tabled s' := by
  intro w hw
  rw [hs, List.mem_append, List.mem_singleton] at hw
  rcases hw with hw | rfl
  · exact h w hw
  · intro _; rfl

theorem tabled_set {s : St} (h : Tabled s) (s' : St) {i : Nat} {w w' : Wrap} (hw : s.wraps[i]? = some w) (h1 : w'.weak = w.weak)
    (h2 : w'.table ≠ none → w.table ≠ none) (hs : s'.wraps = s.wraps.set i w') : Tabled s' := by
  intro x hx
  rw [hs] at hx
  rcases List.mem_or_eq_of_mem_set hx with hx | rfl
  · exact h x hx
  · intro ht
    rw [h1]
    exact h w (List.mem_of_getElem? hw) (h2 ht)

theorem snoc_lives {s : St} {op : Op} {k0 : Kind} (r : Nat) (k : Kind) (h : s.regions[r]? = some ⟨k, true⟩) :
    (alloc s k0).1.regions[r]? = some ⟨k, true⟩ ∨ Ended s op r k := .inl ((snoc_live _ _ _ _).2 (.inl h))

theorem alive_strong {s : St} (h : OInv s) {i : Nat} {w : Wrap} (hw : s.wraps[i]? = some w) (hd : w.held = true) (hk : w.weak = false) :
    Alive s w.region := h.alive hw (by simp [ownOf, hd, hk])

theorem not_touch {s : St} {r : Nat} (h : ¬ Alive s r) : touch s r = .ub := by
  cases hx : touch s r with
  | ub => rfl
  | ok _ => exact absurd (touch_alive hx) h

/-- A use either touches memory that is there, or that of a weak object that is gone. -/
theorem touch_held {s : St} (h : OInv s) {i : Nat} {w : Wrap} (hw : s.wraps[i]? = some w) (hd : w.held = true) :
    touch s w.region = .ok () ∨ (touch s w.region = .ub ∧ w.weak = true ∧ ¬ Alive s w.region) := by
  by_cases ha : Alive s w.region
  · exact .inl (touch_ok ha)
  · refine .inr ⟨not_touch ha, ?_, ha⟩
    cases hk : w.weak with
    | true => rfl
    | false => exact absurd (alive_strong h hw hd hk) ha

theorem opost_spec {s : St} (h : OInv s) (ht : Tabled s) {i n o m : Nat} {w wn wo wm : Wrap} {ok : Bool}
    (hw : s.wraps[i]? = some w) (hwd : w.held = true) (hn : s.wraps[n]? = some wn) (hnd : wn.held = true)
    (ho : s.wraps[o]? = some wo) (hod : wo.held = true) (hm : s.wraps[m]? = some wm) (hmd : wm.held = true) :
    (∃ s', post s w wn wo wm ok = .ok s' ∧ OKept s (.post i n o m ok) s') ∨
      (post s w wn wo wm ok = .ub ∧ Dangles s (.post i n o m ok)) := by
  have bad : ∀ {j : Nat} {x : Wrap}, j ∈ [i, n, o, m] → s.wraps[j]? = some x → x.held = true → ¬ Alive s x.region → Dangles s (.post i n o m ok) := by
    intro j x hj hx hxd ha
    refine ⟨j, hj, x, hx, hxd, ?_, ha⟩
    rcases touch_held h hx hxd with h1 | h1
    · exact absurd (touch_alive h1) ha
    · exact h1.2.1
  by_cases a1 : Alive s w.region
  · by_cases a2 : Alive s wm.region
    · by_cases a3 : Alive s wo.region
      · by_cases a4 : Alive s wn.region
        · left
          have e0 : post s w wn wo wm ok = if ok then .ok (wrap (alloc s .response).1 s.regions.length true none) else free (alloc s .response).1 s.regions.length := by
            unfold post
            simp only [touch_ok a1, touch_ok a2, touch_ok a3, touch_ok a4, Res.bind_ok, Res.pure_eq]
            rfl
          rw [e0]
          cases ok with
          | true =>
            exact ⟨_, rfl, (h.allocOther rfl).wrapWeak _ _, tabled_wrap (s := (alloc s .response).1) ht _, snoc_lives⟩
          | false =>
            have hl : (alloc s .response).1.regions[s.regions.length]? = some ⟨.response, true⟩ := (snoc_live _ _ _ _).2 (.inr ⟨rfl, rfl⟩)
            obtain ⟨k, h1, h2⟩ := free_ok (s := (alloc s .response).1) ⟨_, hl⟩
            rw [hl] at h1; cases h1
            refine ⟨⟨(alloc s .response).1.regions.set s.regions.length ⟨.response, false⟩, s.wraps⟩, by simp only [Bool.false_eq_true, if_false]; exact h2, ⟨h.nodup, fun r => ?_⟩, ht, fun r k hr => .inl ?_⟩
            · simp only
              have hi := (h.allocOther (k := .response) rfl).live r
              rw [show (alloc s .response).1.wraps = s.wraps from rfl] at hi
              rw [hi]
              constructor
              · rintro ⟨k, g1, g2⟩
                refine ⟨k, (set_live hl _ _).2 ⟨?_, g1⟩, g2⟩
                rintro rfl
                rw [hl] at g1; cases g1; cases g2
              · rintro ⟨k, g1, g2⟩
                exact ⟨k, ((set_live hl _ _).1 g1).2, g2⟩
            · refine (set_live hl _ _).2 ⟨?_, (snoc_live _ _ _ _).2 (.inl hr)⟩
              rintro rfl
              rw [List.getElem?_eq_none (Nat.le_refl _)] at hr
              cases hr
        · exact .inr ⟨by unfold post; simp only [touch_ok a1, touch_ok a2, touch_ok a3, not_touch a4, Res.bind_ok, Res.bind_ub], bad (by simp) hn hnd a4⟩
      · exact .inr ⟨by unfold post; simp only [touch_ok a1, touch_ok a2, not_touch a3, Res.bind_ok, Res.bind_ub], bad (by simp) ho hod a3⟩
    · exact .inr ⟨by unfold post; simp only [touch_ok a1, not_touch a2, Res.bind_ok, Res.bind_ub], bad (by simp) hm hmd a2⟩
  · exact .inr ⟨by unfold post; simp only [not_touch a1, Res.bind_ub], bad (by simp) hw hwd a1⟩

theorem step_spec {s : St} (h : OInv s) (ht : Tabled s) (op : Op) :
    (∃ s', step s op = .ok s' ∧ OKept s op s') ∨ (step s op = .ub ∧ Dangles s op) := by
  have same : ∃ s', (Res.ok s : Res St) = .ok s' ∧ OKept s op s' := ⟨s, rfl, .same h ht op⟩
  cases op with
  | newMessage => exact .inl ⟨_, rfl, h.newObject rfl, tabled_strong ht _ rfl, snoc_lives⟩
  | newProperty => exact .inl ⟨_, rfl, h.newObject rfl, tabled_strong ht _ rfl, snoc_lives⟩
  | newController =>
    refine .inl ⟨_, rfl, h.newController, tabled_strong ht _ rfl, fun r k hr => .inl ?_⟩
    exact (snoc_live _ _ _ _).2 (.inl ((snoc_live _ _ _ _).2 (.inl hr)))
  | call i =>
    cases hi : held s i with
    | none => simp only [step, hi]; exact .inl same
    | some w =>
      obtain ⟨hw, hd⟩ := held_some hi
      rcases touch_held h hw hd with h1 | ⟨h1, h2, h3⟩
      · simp only [step, hi, call, h1, Res.bind_ok, Res.pure_eq]; exact .inl same
      · exact .inr ⟨by simp only [step, hi, call, h1, Res.bind_ub], i, by simp [usedBy], w, hw, hd, h2, h3⟩
  | part i =>
    cases hi : held s i with
    | none => simp only [step, hi]; exact .inl same
    | some w =>
      obtain ⟨hw, hd⟩ := held_some hi
      rcases touch_held h hw hd with h1 | ⟨h1, h2, h3⟩
      · simp only [step, hi, part, h1, Res.bind_ok, Res.pure_eq]
        exact .inl ⟨_, rfl, h.wrapWeak _ _, tabled_wrap ht _, fun r k hr => .inl hr⟩
      · exact .inr ⟨by simp only [step, hi, part, h1, Res.bind_ub], i, by simp [usedBy], w, hw, hd, h2, h3⟩
  | node i =>
    left
    cases hi : held s i with
    | none => simp only [step, hi]; exact same
    | some w =>
      obtain ⟨hw, hd⟩ := held_some hi
      simp only [step, hi, node]
      cases htb : w.table with
      | none => exact same
      | some t =>
        have hk := ht w (List.mem_of_getElem? hw) (by rw [htb]; simp)
        have a1 := alive_strong h hw hd hk
        have a2 : Alive s t := h.alive hw (by simp [ownOf, hd, hk, htb])
        simp only [touch_ok a1, touch_ok a2, Res.bind_ok, Res.pure_eq]
        exact ⟨_, rfl, h.wrapWeak _ _, tabled_wrap ht _, fun r k hr => .inl hr⟩
  | start i =>
    left
    cases hi : held s i with
    | none => simp only [step, hi]; exact same
    | some w =>
      obtain ⟨hw, hd⟩ := held_some hi
      simp only [step, hi]
      cases htb : w.table with
      | none => unfold start; rw [htb]; exact same
      | some t =>
        have hk := ht w (List.mem_of_getElem? hw) (by rw [htb]; simp)
        obtain ⟨s', g1, g2, g3, g4⟩ := start_spec h hw hd hk htb
        refine ⟨s', g1, g2, tabled_set ht s' (w' := { w with table := some s.regions.length }) hw rfl (fun _ => by rw [htb]; simp) g3, fun r k hr => ?_⟩
        by_cases hrt : r = t
        · subst hrt; exact .inr (.inr ⟨i, w, hw, hd, hk, .inr ⟨rfl, htb⟩⟩)
        · exact .inl ((g4 r k).2 (.inl ⟨hrt, hr⟩))
  | post i n o m ok =>
    cases hi : held s i with
    | none => simp only [step, hi]; exact .inl same
    | some w =>
      cases hn : held s n with
      | none => simp only [step, hi, hn]; exact .inl same
      | some wn =>
        cases ho : held s o with
        | none => simp only [step, hi, hn, ho]; exact .inl same
        | some wo =>
          cases hm : held s m with
          | none => simp only [step, hi, hn, ho, hm]; exact .inl same
          | some wm =>
            simp only [step, hi, hn, ho, hm]
            exact opost_spec h ht (held_some hi).1 (held_some hi).2 (held_some hn).1 (held_some hn).2 (held_some ho).1 (held_some ho).2
              (held_some hm).1 (held_some hm).2
  | arrives i =>
    left
    cases hi : held s i with
    | none => simp only [step, hi]; exact same
    | some w =>
      obtain ⟨hw, hd⟩ := held_some hi
      simp only [step, hi, arrives]
      cases htb : w.table with
      | none => exact same
      | some t =>
        have hk := ht w (List.mem_of_getElem? hw) (by rw [htb]; simp)
        simp only [touch_ok (alive_strong h hw hd hk), Res.bind_ok, Res.pure_eq]
        exact ⟨_, rfl, ((h.allocOther (k := .arrived) rfl).wrapWeak _ _).wrapWeak _ _,
          tabled_wrap (tabled_wrap (s := (alloc s .arrived).1) ht _) _, snoc_lives⟩
  | returned x =>
    left
    simp only [step, returned]
    split
    · rename_i hx
      obtain ⟨k, h1, h2⟩ := free_ok (s := s) ⟨_, hx⟩
      rw [hx] at h1; cases h1
      refine ⟨_, h2, ⟨h.nodup, fun r => ?_⟩, ht, fun r k hr => ?_⟩
      · simp only
        rw [h.live]
        constructor
        · rintro ⟨k, g1, g2⟩
          refine ⟨k, (set_live hx _ _).2 ⟨?_, g1⟩, g2⟩
          rintro rfl
          rw [hx] at g1; cases g1; cases g2
        · rintro ⟨k, g1, g2⟩
          exact ⟨k, ((set_live hx _ _).1 g1).2, g2⟩
      · by_cases hrx : r = x
        · subst hrx
          rw [hx] at hr; cases hr
          exact .inr (.inl ⟨rfl, rfl⟩)
        · exact .inl ((set_live hx _ _).2 ⟨hrx, hr⟩)
    · exact same
  | release i =>
    left
    cases hi : held s i with
    | none => simp only [step, hi]; exact same
    | some w =>
      obtain ⟨hw, hd⟩ := held_some hi
      simp only [step, hi]
      cases hk : w.weak with
      | true =>
        obtain ⟨s', g1, g2, g3⟩ := dealloc_weak h hw hk
        have hs : s'.wraps = s.wraps.set i { w with held := false } := by
          unfold dealloc at g1; rw [if_pos hk] at g1; cases g1; rfl
        exact ⟨s', g1, g2, tabled_set ht s' (w' := { w with held := false }) hw rfl id hs, fun r k hr => .inl (by rw [g3]; exact hr)⟩
      | false =>
        obtain ⟨s', g1, g2, g3⟩ := dealloc_strong h hw hd hk
        have hs : s'.wraps = s.wraps.set i { w with held := false } := by
          have hf : ∀ {a b : St} {r : Nat}, free a r = .ok b → b.wraps = a.wraps := by
            intro a b r hab
            unfold free at hab
            split at hab <;> cases hab
            rfl
          have hg := g1
          unfold dealloc at hg
          rw [if_neg (by simp [hk]), Res.bind_eq_ok] at hg
          obtain ⟨s1, e1, e2⟩ := hg
          split at e2
          · cases e2; exact hf e1
          · rw [hf e2, hf e1]
        refine ⟨s', g1, g2, tabled_set ht s' (w' := { w with held := false }) hw rfl id hs, fun r k hr => ?_⟩
        by_cases hro : r ∈ ownOf w
        · exact .inr (.inr ⟨i, w, hw, hd, hk, .inl ⟨rfl, hro⟩⟩)
        · exact .inl ((g3 r k).2 ⟨hro, hr⟩)

theorem orun_inv : ∀ (os : List Op) {s s' : St}, OInv s → Tabled s → run os s = .ok s' → OInv s' ∧ Tabled s'
  | [], s, s', h, ht, hr => by cases hr; exact ⟨h, ht⟩
  | o :: os, s, s', h, ht, hr => by
      simp only [run, Res.bind_eq_ok] at hr
      obtain ⟨s1, h1, h2⟩ := hr
      rcases step_spec h ht o with ⟨s2, g1, g2⟩ | g
      · rw [h1] at g1; cases g1
        exact orun_inv os g2.inv g2.tabled h2
      · rw [g.1] at h1; cases h1

end Uecho.Lemmas
