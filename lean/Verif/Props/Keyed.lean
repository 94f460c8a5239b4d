import Verif.Lemmas.Keyed
/-!
# C120: lists of things with a code
-/
namespace Uecho.Props
open Uecho Uecho.Spec Uecho.Lemmas Uecho.CList

/-- The library calls that belong to an operation. -/
def runDict (k : Nat) (junk : Cell) (m : Keyed.Mem) : DictOp → Res (Option (Keyed.Mem × SeqObs))
  | .newList p => do
      let m ← Keyed.newList junk m p
      return some (m, .done)
  | .newElement x => do
      let m ← Keyed.newElement junk m x
      return some (m, .done)
  | .setCode x c => do
      let m ← Keyed.setCode m x c
      return some (m, .done)
  | .add p x => do
      let r ← Keyed.add k m p x
      return r.map fun (m, b) => (m, .bool b)
  | .find p c => do
      let r ← Keyed.find k m p c
      return r.map fun q => (m, .ptr q)
  | .set p c x => do
      let r ← Keyed.set k junk m p c x
      return r.map fun (m, b) => (m, .bool b)
  | .getOrNew p c x => do
      let r ← Keyed.getOrNew k junk m p c x
      return r.map fun (m, q) => (m, .ptr q)
  | .deleteIn _ x => do
      let m ← Keyed.delete m x
      return some (m, .done)
  | .deleteLoose x => do
      let m ← Keyed.delete m x
      return some (m, .done)
  | .deleteList p => do
      let r ← Keyed.deleteList k m p
      return r.map fun m => (m, .done)

/-- The calls of a history, made one after the other; what each one returned. -/
def runDicts (k : Nat) (junk : Cell) : Keyed.Mem → List DictOp → Res (Option (Keyed.Mem × List SeqObs))
  | m, [] => .ok (some (m, []))
  | m, op :: ops => do
      match ← runDict k junk m op with
      | none => return none
      | some (m, ob) => do
          match ← runDicts k junk m ops with
          | none => return none
          | some (m, obs) => return some (m, ob :: obs)

theorem newElement_rep {m : Keyed.Mem} {w : Dicts} (r : DRep m w) (junk : Cell) {x : Nat} (hx : w.seqs.Fresh x) (c : Int) :
    ∃ m1 m2, Keyed.newElement junk m x = .ok m1 ∧ m1.code = (w.setCode x 0).code ∧ Rep m1.cells (w.seqs.setLoose x true) ∧
    Keyed.setCode m1 x c = .ok m2 ∧ m2.code = (w.setCode x c).code ∧ m2.cells = m1.cells := by
  refine ⟨⟨put m.cells x ⟨false, some x, some x⟩, fun y => if y = x then 0 else m.code y⟩,
    ⟨put m.cells x ⟨false, some x, some x⟩, fun y => if y = x then c else if y = x then 0 else m.code y⟩, ?_, ?_, r.rep.newElement hx, ?_, ?_, rfl⟩
  · simp only [Keyed.newElement, nodeInit, alloc, cell_put, put_put, Res.bind_ok, Res.pure_eq]
  · simp only [Dicts.setCode, r.code]
  · simp only [Keyed.setCode, cell_put, Res.bind_ok, Res.pure_eq]
  · simp only [Dicts.setCode, r.code]
    funext y
    split <;> simp_all

theorem fresh_not_mem {s : Seqs} {x : Nat} (hx : s.Fresh x) : ∀ p l, s.lists p = some l → x ∉ l := fun p l h => hx.2.2 p l h

theorem find_none {code : Nat → Int} {l : List Nat} {c : Int} (h : ∀ y ∈ l, code y ≠ c) : (l.find? fun y => code y = c) = none := by
  rw [List.find?_eq_none]; simpa using h

theorem find_some {code : Nat → Int} {l : List Nat} {c : Int} (nd : (l.map code).Nodup) {y : Nat} (hy : y ∈ l) (hc : code y = c) :
    (l.find? fun y => code y = c) = some y := by
  cases h : l.find? fun y => code y = c with
  | none => rw [List.find?_eq_none] at h; exact absurd hc (by simpa using h y hy)
  | some z =>
    have h1 := List.mem_of_find?_eq_some h
    have h2 : code z = c := by simpa using List.find?_some h
    rw [mem_of_code nd hy h1 (hc.trans h2.symm)]

/-- Making a new element with a code, for a list that does not have the code. -/
theorem makeNew_rep {m : Keyed.Mem} {w : Dicts} (r : DRep m w) (junk : Cell) {p x : Nat} {l : List Nat} {c : Int}
    (hp : w.seqs.lists p = some l) (hc : ∀ y ∈ l, w.code y ≠ c) (hx : w.seqs.Fresh x) :
    ∃ m1 m2 h', Keyed.newElement junk m x = .ok m1 ∧ Keyed.setCode m1 x c = .ok m2 ∧ CList.add m2.cells p x = .ok (h', true) ∧
      Keyed.getCode m2 x = .ok c ∧ (∀ k, l.length ≤ k → Keyed.find k m2 p c = .ok (some none)) ∧
      DRep ⟨h', m2.code⟩ ((w.setCode x c).append p x l) := by
  obtain ⟨m1, m2, g1, g2, g3, g4, g5, g6⟩ := newElement_rep r junk hx c
  have hp' : (w.seqs.setLoose x true).lists p = some l := hp
  have hxl : x ∉ l := fresh_not_mem hx p l hp
  have r2 : Rep m2.cells (w.seqs.setLoose x true) := g6 ▸ g3
  obtain ⟨h', g7, g8⟩ := add_rep r2 hp' (x := x) (by simp [Seqs.setLoose])
  have hcode : (w.setCode x c).code x = c := by simp [Dicts.setCode]
  have hothers : ∀ y ∈ l, (w.setCode x c).code y = w.code y := by
    intro y hy
    have : y ≠ x := fun e => hxl (e ▸ hy)
    simp [Dicts.setCode, this]
  refine ⟨m1, m2, h', g1, g4, g7, ?_, ?_, ?_⟩
  · have : m2.cells x = some ⟨false, some x, some x⟩ := r2.loose x (by simp [Seqs.setLoose])
    simp [Keyed.getCode, cell_eq this, g5, hcode]
  · intro k hk
    rw [find_rep r2 c hp' k hk, g5, find_none (code := (w.setCode x c).code) (c := c)]
    intro y hy
    rw [hothers y hy]; exact hc y hy
  · rw [g5]
    have u : Uniq (w.setCode x c) := uniq_setCode r.uniq (fresh_not_mem hx) c
    refine drep_append u ?_ ?_ ?_
    · rw [List.map_congr_left hothers]; exact r.uniq p l hp
    · intro y hy
      rw [hothers y hy, hcode]; exact hc y hy
    · have e : ((w.seqs.setLoose x true).setList p (some (l ++ [x]))).setLoose x false =
          ((w.setCode x c).seqs.setList p (some (l ++ [x]))).setLoose x false := by
        simp only [Seqs.setLoose, Seqs.setList, Dicts.setCode, Seqs.mk.injEq, true_and]
        funext y; split <;> rfl
      rw [← e]; exact g8

/-- one call -/
theorem runDict_rep {m : Keyed.Mem} {w w' : Dicts} {op : DictOp} {ob : SeqObs} (r : DRep m w) (junk : Cell) (s : DictOp.Run w op w' ob) :
    ∃ m' k0, (∀ k, k0 ≤ k → runDict k junk m op = .ok (some (m', ob))) ∧ DRep m' w' := by
  cases s with
  | newList hp =>
    rename_i p
    refine ⟨⟨put m.cells p ⟨true, some p, some p⟩, m.code⟩, 0, fun k _ => ?_, r.rep.newList hp, r.code, uniq_setList r.uniq (by simp) _ rfl⟩
    simp only [runDict, Keyed.newList, headerInit, alloc, cell_put, put_put, Res.bind_ok, Res.pure_eq]
  | newElement hx =>
    rename_i x
    obtain ⟨m1, _, g1, g2, g3, _⟩ := newElement_rep r junk hx 0
    exact ⟨m1, 0, fun k _ => by simp [runDict, g1], g3, g2, uniq_setCode r.uniq (fresh_not_mem hx) 0⟩
  | setCode hx =>
    rename_i x c
    refine ⟨{ m with code := fun y => if y = x then c else m.code y }, 0, fun k _ => ?_, r.rep, ?_, ?_⟩
    · simp [runDict, Keyed.setCode, cell_eq (r.rep.loose x hx)]
    · simp [Dicts.setCode, r.code]
    · exact uniq_setCode r.uniq (fun p l hp hm => r.rep.loose_not_mem hp hx (by simp [hm])) c
  | add hp hx =>
    rename_i p x l
    have hcx : Keyed.getCode m x = .ok (w.code x) := by simp [Keyed.getCode, cell_eq (r.rep.loose x hx), r.code]
    have hf := fun k hk => find_rep r.rep (w.code x) hp k hk
    rw [r.code] at hf
    by_cases hc : ∃ y ∈ l, w.code y = w.code x
    · obtain ⟨y, hy, hyc⟩ := hc
      obtain ⟨h1, h2, g1, g2, g3, g4⟩ := remove_free r.rep hp hy
      have hx' : (w.seqs.setList p (some (l.erase y))).loose x = true := hx
      obtain ⟨h', g5, g6⟩ := add_rep g4 (p := p) (l := l.erase y) (by simp [Seqs.setList]) hx'
      rw [setList_same] at g6
      rw [find_some (r.uniq p l hp) hy hyc] at hf
      refine ⟨⟨h', w.code⟩, l.length, fun k hk => ?_, ?_⟩
      · simp [runDict, Keyed.add, hcx, hf k hk, g1, Keyed.delete, g2, g3, g5, r.code]
      · have e := erase_eq_filter (r.uniq p l hp) hy
        rw [hyc] at e
        rw [e] at g6
        refine drep_append r.uniq (nodup_filter_map (r.uniq p l hp) _) ?_ g6
        intro z hz
        simpa using (List.mem_filter.1 hz).2
    · have hc : ∀ y ∈ l, w.code y ≠ w.code x := fun y hy e => hc ⟨y, hy, e⟩
      rw [find_none hc] at hf
      obtain ⟨h', g5, g6⟩ := add_rep r.rep hp hx
      refine ⟨⟨h', w.code⟩, l.length, fun k hk => ?_, ?_⟩
      · simp [runDict, Keyed.add, hcx, hf k hk, g5, r.code]
      · have e : (l.filter fun y => w.code y ≠ w.code x) = l := by
          rw [List.filter_eq_self]; simpa using hc
        rw [e]
        exact drep_append r.uniq (r.uniq p l hp) hc g6
  | find hp =>
    rename_i p c l
    refine ⟨m, l.length, fun k hk => ?_, r⟩
    simp [runDict, find_rep r.rep c hp k hk, r.code]
  | setOld hp hy =>
    rename_i p c x l
    obtain ⟨y, hy, hc⟩ := hy
    refine ⟨m, l.length, fun k hk => ?_, r⟩
    have hf := find_rep r.rep c hp k hk
    rw [r.code, find_some (r.uniq p l hp) hy hc] at hf
    simp [runDict, Keyed.set, hf]
  | setNew hp hc hx =>
    rename_i p c x l
    obtain ⟨m1, m2, h', g1, g2, g3, _, _, g5⟩ := makeNew_rep r junk hp hc hx
    refine ⟨⟨h', m2.code⟩, l.length, fun k hk => ?_, g5⟩
    have hf := find_rep r.rep c hp k hk
    rw [r.code, find_none hc] at hf
    simp [runDict, Keyed.set, hf, g1, g2, g3]
  | getOld hp hy hc =>
    rename_i p c x y l
    refine ⟨m, l.length, fun k hk => ?_, r⟩
    have hf := find_rep r.rep c hp k hk
    rw [r.code, find_some (r.uniq p l hp) hy hc] at hf
    simp [runDict, Keyed.getOrNew, hf]
  | getNew hp hc hx =>
    rename_i p c x l
    obtain ⟨m1, m2, h', g1, g2, g3, g4, g4', g5⟩ := makeNew_rep r junk hp hc hx
    refine ⟨⟨h', m2.code⟩, l.length, fun k hk => ?_, g5⟩
    have hf := find_rep r.rep c hp k hk
    rw [r.code, find_none hc] at hf
    simp [runDict, Keyed.getOrNew, hf, g1, g2, Keyed.add, g4, g4' k hk, g3]
  | deleteIn hp hx =>
    rename_i p x l
    obtain ⟨h1, h2, g1, g2, g3, g4⟩ := remove_free r.rep hp hx
    refine ⟨{ m with cells := h2 }, 0, fun k _ => by simp [runDict, Keyed.delete, g1, g3], g4, r.code, ?_⟩
    refine uniq_setList r.uniq ?_ _ rfl
    rw [erase_eq_filter (r.uniq p l hp) hx]
    exact nodup_filter_map (r.uniq p l hp) _
  | deleteLoose hx =>
    rename_i x
    obtain ⟨h', g1, rfl⟩ := remove_loose (r.rep.loose x hx)
    refine ⟨⟨fun q => if q = x then none else m.cells q, m.code⟩, 0, fun k _ => ?_, r.rep.freeElement hx, r.code, r.uniq⟩
    simp [runDict, Keyed.delete, g1, CList.free, cell_eq (r.rep.loose x hx)]
  | deleteList hp =>
    rename_i p l
    obtain ⟨h', g1, g2⟩ := r.rep.clear hp
    have hp' : (w.seqs.setList p (some [])).lists p = some [] := by simp [Seqs.setList]
    obtain ⟨c, ec, _⟩ := fl_some (g2.ring p _ hp').head
    have g3 := g2.freeList hp'
    rw [setList_same] at g3
    refine ⟨⟨fun q => if q = p then none else h' q, m.code⟩, l.length, fun k hk => ?_, g3, r.code, ?_⟩
    · simp [runDict, Keyed.deleteList, g1 k hk, CList.free, cell_eq ec]
    · intro q l' hq
      simp only [Seqs.setList] at hq
      split at hq
      · cases hq
      · exact r.uniq q l' hq

theorem runDicts_snoc {k : Nat} {junk : Cell} {h h1 h2 : Keyed.Mem} {ops : List DictOp} {op : DictOp} {obs : List SeqObs} {ob : SeqObs}
    (a : runDicts k junk h ops = .ok (some (h1, obs))) (b : runDict k junk h1 op = .ok (some (h2, ob))) :
    runDicts k junk h (ops ++ [op]) = .ok (some (h2, obs ++ [ob])) := by
  induction ops generalizing h obs with
  | nil =>
    simp only [runDicts, Res.ok.injEq, Option.some.injEq, Prod.mk.injEq] at a
    obtain ⟨rfl, rfl⟩ := a
    simp [runDicts, b]
  | cons x ops ih =>
    simp only [runDicts, List.cons_append] at a ⊢
    rw [Res.bind_eq_ok] at a
    obtain ⟨r, r1, r2⟩ := a
    rw [r1]
    cases r with
    | none => simp at r2
    | some y =>
      obtain ⟨h', o⟩ := y
      simp only [Res.bind_ok] at r2 ⊢
      rw [Res.bind_eq_ok] at r2
      obtain ⟨q, q1, q2⟩ := r2
      cases q with
      | none => simp at q2
      | some z =>
        obtain ⟨h'', os⟩ := z
        simp only [Res.pure_eq, Res.ok.injEq, Option.some.injEq, Prod.mk.injEq] at q2
        obtain ⟨rfl, rfl⟩ := q2
        rw [ih q1]; rfl

theorem dict_history {hs : List (DictOp × SeqObs)} {w : Dicts} (H : DictHistory hs w) (junk : Cell) :
    ∃ m k0, (∀ k, k0 ≤ k → runDicts k junk ⟨fun _ => none, fun _ => 0⟩ (hs.map (·.1)) = .ok (some (m, hs.map (·.2)))) ∧ DRep m w := by
  induction H with
  | nil => exact ⟨_, 0, fun _ _ => rfl, rep_empty, rfl, fun p l h => by cases h⟩
  | snoc _ s ih =>
    obtain ⟨m, k0, g1, g2⟩ := ih
    obtain ⟨m', k1, g3, g4⟩ := runDict_rep g2 junk s
    refine ⟨m', max k0 k1, fun k hk => ?_, g4⟩
    rw [List.map_append, List.map_append]
    exact runDicts_snoc (g1 k (by omega)) (g3 k (by omega))

/-- **C120.** For every history of calls on lists of things with a code, in which elements are added that are in no list and get their code
before: every call has defined behaviour and ends, and returns what the dictionary returns; no list has two elements with one code;
what is allocated is what the dictionaries hold: a replaced element is freed. Missing: elements that are in the list already, see
`C120_add_twice_violated` and `C120_code_changed_violated`. -/
theorem C120_dictionary_partial {hs : List (DictOp × SeqObs)} {w : Dicts} (H : DictHistory hs w) (junk : Cell) :
    ∃ m k0, (∀ k, k0 ≤ k → runDicts k junk ⟨fun _ => none, fun _ => 0⟩ (hs.map (·.1)) = .ok (some (m, hs.map (·.2)))) ∧
    (∀ p l, w.seqs.lists p = some l → (l.map w.code).Nodup) ∧
    (∀ x, m.cells x ≠ none ↔ w.seqs.loose x = true ∨ ∃ p l, w.seqs.lists p = some l ∧ x ∈ p :: l) := by
  obtain ⟨m, k0, g1, g2⟩ := dict_history H junk
  refine ⟨m, k0, g1, g2.uniq, fun x => ⟨fun hx => ?_, ?_⟩⟩
  · rcases g2.rep.noLeak x hx with h | ⟨p, l, h1, h2⟩
    · exact .inl h
    · exact .inr ⟨p, l, h1, h2⟩
  · rintro (h | ⟨p, l, h1, h2⟩)
    · rw [g2.rep.loose x h]; simp
    · rcases List.mem_cons.1 h2 with rfl | h2
      · obtain ⟨c, e, _⟩ := fl_some (g2.rep.ring _ _ h1).head; rw [e]; simp
      · obtain ⟨c, e, _⟩ := fl_some ((g2.rep.ring _ _ h1).elem x h2); rw [e]; simp

/-- Two elements with code 7 are added to the list 10, the second replaces the first; code 8 is looked up and made. -/
theorem dHist : ∃ w, DictHistory [(.newList 10, .done), (.newElement 1, .done), (.setCode 1 7, .done), (.add 10 1, .bool true), (.newElement 2, .done),
    (.setCode 2 7, .done), (.add 10 2, .bool true), (.find 10 7, .ptr (some 2)), (.find 10 8, .ptr none), (.getOrNew 10 8 1, .ptr (some 1))] w := by
  have h0 := DictHistory.nil
  have h1 := h0.snoc (.newList (p := 10) (by simp [Seqs.Fresh]))
  have h2 := h1.snoc (.newElement (x := 1) (by simp [Seqs.Fresh, Seqs.setList]))
  have h3 := h2.snoc (.setCode (x := 1) (c := 7) (by simp [Seqs.setList, Seqs.setLoose, Dicts.setCode]))
  have h4 := h3.snoc (.add (p := 10) (x := 1) (l := []) rfl rfl)
  have h5 := h4.snoc (.newElement (x := 2) ⟨rfl, rfl, fun q l h => by
      by_cases hq : q = 10
      · subst hq
        have h' : some [1] = some l := h
        injection h' with h'
        subst h'
        decide
      · simp [Seqs.setList, Seqs.setLoose, Dicts.setCode, Dicts.append, hq] at h⟩)
  have h6 := h5.snoc (.setCode (x := 2) (c := 7) (by simp [Seqs.setList, Seqs.setLoose, Dicts.setCode, Dicts.append]))
  have h7 := h6.snoc (.add (p := 10) (x := 2) (l := [1]) rfl rfl)
  have h8 := h7.snoc (.find (p := 10) (c := 7) (l := [2]) rfl)
  have h9 := h8.snoc (.find (p := 10) (c := 8) (l := [2]) rfl)
  exact ⟨_, h9.snoc (.getNew (p := 10) (c := 8) (x := 1) (l := [2]) rfl
    (by simp [Dicts.setCode, Dicts.append])
    ⟨rfl, rfl, fun q l h => by
      by_cases hq : q = 10
      · subst hq
        have h' : some [2] = some l := h
        injection h' with h'
        subst h'
        decide
      · simp [Seqs.setList, Seqs.setLoose, Dicts.setCode, Dicts.append, hq] at h⟩)⟩

/-- **C120**, violated. Adding an element that is in the list already deletes it and then links the freed memory. -/
theorem C120_add_twice_violated : ¬ ∀ (p x : Nat) (k : Nat) (junk : Cell), p ≠ x → 2 ≤ k →
    (runDicts k junk ⟨fun _ => none, fun _ => 0⟩ [.newList p, .newElement x, .add p x, .add p x]).Defined := by
  intro h
  have := h 10 1 5 ⟨true, none, none⟩ (by decide) (by decide)
  rw [Res.defined_iff_ne_ub] at this
  exact this (by rfl)

/-- **C120**, violated. If the code of an element is changed while it is in a list, the list can have two elements with one code: here the
elements 1 and 2 both have the code 7, and both stay. -/
theorem C120_code_changed_violated : ¬ ∀ (k : Nat) (junk : Cell) (m : Keyed.Mem) (obs : List SeqObs), 5 ≤ k →
    runDicts k junk ⟨fun _ => none, fun _ => 0⟩ [.newList 10, .newElement 1, .setCode 1 6, .add 10 1, .newElement 2, .setCode 2 7, .add 10 2,
      .setCode 1 7] = .ok (some (m, obs)) →
    ∀ l, iterate k m.cells 10 = .ok (some l) → (l.map m.code).Nodup := by
  intro h
  have := h 5 ⟨true, none, none⟩ _ _ (by decide) (by rfl) [1, 2] (by rfl)
  exact absurd this (by decide)

end Uecho.Props
