import Verif.Lemmas.CListRep
/-!
# C56: linked lists
-/
namespace Uecho.Props
open Uecho Uecho.Spec Uecho.Lemmas Uecho.CList

/-- The library calls that belong to an operation on sequences. `k` bounds the rounds of the loops; `junk` is the
content of allocated memory. Outcome `none`: a loop was not finished within `k` rounds. -/
def runOp (k : Nat) (junk : Cell) (h : Mem) : SeqOp → Res (Option (Mem × SeqObs))
  | .newList p => do
      let h ← headerInit (alloc h p junk) p
      return some (h, .done)
  | .newElement x => do
      let h ← nodeInit (alloc h x junk) x
      return some (h, .done)
  | .add p x => do
      let (h, b) ← add h p x
      return some (h, .bool b)
  | .insertFirst p x => do
      let h ← insert h p x
      return some (h, .bool true)
  | .insertAfter _ y x => do
      let h ← insert h y x
      return some (h, .bool true)
  | .remove _ x => do
      let (h, b) ← remove h x
      return some (h, .bool b)
  | .removeLoose x => do
      let (h, b) ← remove h x
      return some (h, .bool b)
  | .clear p => do
      let r ← clear k h p
      return r.map fun h => (h, .bool true)
  | .freeElement x => do
      let h ← free h x
      return some (h, .done)
  | .freeList p => do
      let h ← free h p
      return some (h, .done)
  | .size p => do
      let r ← size k h p
      return r.map fun n => (h, .count n)
  | .get p i => do
      let r ← get h p i
      return some (h, .ptr r)
  | .iterate p => do
      let r ← iterate k h p
      return r.map fun l => (h, .all l)
  | .next _ x => do
      let r ← next h x
      return some (h, .ptr r)
  | .prev _ x => do
      let r ← prev h x
      return some (h, .ptr r)
  | .nextCircular _ x => do
      let r ← nextCircular h x
      return some (h, .ptr r)
  | .prevCircular _ x => do
      let r ← prevCircular h x
      return some (h, .ptr r)

/-- The calls of a history, made one after the other; what each one returned. -/
def runOps (k : Nat) (junk : Cell) : Mem → List SeqOp → Res (Option (Mem × List SeqObs))
  | h, [] => .ok (some (h, []))
  | h, op :: ops => do
      match ← runOp k junk h op with
      | none => return none
      | some (h, ob) => do
          match ← runOps k junk h ops with
          | none => return none
          | some (h, obs) => return some (h, ob :: obs)

theorem remove_loose {h : Mem} {x : Nat} (hx : h x = some ⟨false, some x, some x⟩) :
    ∃ h', CList.remove h x = .ok (h', true) ∧ h' = h := by
  refine ⟨_, by simp [CList.remove, cell, put, hx, deref]; rfl, ?_⟩
  funext u
  simp only [put]
  by_cases e : u = x
  · simp [e, hx]
  · simp [e]

theorem put_put (h : Mem) (p : Nat) (c d : Cell) : put (put h p c) p d = put h p d := by
  funext q; simp only [put]; split <;> rfl
theorem cell_put (h : Mem) (p : Nat) (c : Cell) : cell (put h p c) p = .ok c := by
  unfold cell put; rw [if_pos rfl]

/-- one call -/
theorem runOp_rep {h : Mem} {w w' : Seqs} {op : SeqOp} {ob : SeqObs} (r : Rep h w) (junk : Cell) (s : SeqOp.Run w op w' ob) :
    ∃ h' k0, (∀ k, k0 ≤ k → runOp k junk h op = .ok (some (h', ob))) ∧ Rep h' w' := by
  cases s with
  | newList hp =>
    rename_i p
    refine ⟨_, 0, fun k _ => ?_, r.newList hp⟩
    simp only [runOp, headerInit, alloc, cell_put, put_put, Res.bind_ok, Res.pure_eq]
  | newElement hp =>
    rename_i p
    refine ⟨_, 0, fun k _ => ?_, r.newElement hp⟩
    simp only [runOp, nodeInit, alloc, cell_put, put_put, Res.bind_ok, Res.pure_eq]
  | add hp hx =>
    rename_i p x l
    have hp' : w.lists p = some (l ++ []) := by simpa using hp
    obtain ⟨h', g1, g2⟩ := r.insert hp' hx
    refine ⟨h', 0, fun k _ => ?_, g2⟩
    obtain ⟨l', z, rr, e1, e2⟩ := split_ring p l []
    have lk := (r.ring p l hp).links
    generalize hy : (p :: l).getLast (by simp) = y at e1 g1
    rw [← List.cons_append, e1, show l' ++ [y] ++ [p] = l' ++ y :: p :: [] by simp] at lk
    obtain ⟨c, ec, hc⟩ := pv_some (links_mid lk).2
    simp [runOp, CList.add, cell_eq ec, hc, g1]
  | insertFirst hp hx =>
    rename_i p x l
    obtain ⟨h', g1, g2⟩ := r.insert (l1 := []) hp hx
    refine ⟨h', 0, fun k _ => ?_, g2⟩
    have g1' : CList.insert h p x = .ok h' := g1
    simp [runOp, g1']
  | insertAfter hp hy hx =>
    rename_i p y x l
    obtain ⟨l1, l2, rfl⟩ := List.append_of_mem hy
    have nd := (List.nodup_cons.1 (r.ring p _ hp).nd).2
    have hp' : w.lists p = some ((l1 ++ [y]) ++ l2) := by simpa using hp
    obtain ⟨h', g1, g2⟩ := r.insert hp' hx
    have hl : ((p :: l1) ++ [y]).getLast (by simp) = y := by rw [List.getLast_append_of_ne_nil _ (by simp)]; rfl
    have g1' : CList.insert h y x = .ok h' := (congrArg (CList.insert h · x) hl).symm.trans g1
    refine ⟨h', 0, fun k _ => by simp [runOp, g1'], ?_⟩
    rw [insertAfter_split nd]
    simpa using g2
  | remove hp hx =>
    rename_i p x l
    obtain ⟨l1, l2, rfl⟩ := List.append_of_mem hx
    have nd := (List.nodup_cons.1 (r.ring p _ hp).nd).2
    obtain ⟨h', g1, g2⟩ := r.remove hp
    refine ⟨h', 0, fun k _ => by simp [runOp, g1], ?_⟩
    rw [erase_split nd]; exact g2
  | removeLoose hx =>
    obtain ⟨h', g1, rfl⟩ := remove_loose (r.loose _ hx)
    exact ⟨_, 0, fun k _ => by simp [runOp, g1], r⟩
  | clear hp =>
    rename_i p l
    obtain ⟨h', g1, g2⟩ := r.clear hp
    exact ⟨h', l.length, fun k hk => by simp [runOp, g1 k hk], g2⟩
  | freeElement hx =>
    refine ⟨_, 0, fun k _ => ?_, r.freeElement hx⟩
    simp [runOp, CList.free, cell_eq (r.loose _ hx)]
  | freeList hp =>
    obtain ⟨c, ec, _⟩ := fl_some (r.ring _ _ hp).head
    refine ⟨_, 0, fun k _ => ?_, r.freeList hp⟩
    simp [runOp, CList.free, cell_eq ec]
  | size hp hl =>
    rename_i p l
    refine ⟨h, l.length, fun k hk => ?_, r⟩
    have rr := r.ring p l hp
    have := sizeLoop_ring (l1 := []) rr k 0 hk (by omega)
    simp [runOp, CList.size, next_head rr, this]
  | get i hp =>
    rename_i p l
    have rr := r.ring p l hp
    have := getLoop_ring (l1 := []) rr i.toNat
    exact ⟨h, 0, fun k _ => by simp [runOp, CList.get, next_head rr, this], r⟩
  | iterate hp =>
    rename_i p l
    refine ⟨h, l.length, fun k hk => ?_, r⟩
    have rr := r.ring p l hp
    have := iterLoop_ring (l1 := []) rr k [] hk
    simp [runOp, CList.iterate, gets, next_head rr, this]
  | next hp hx =>
    rename_i p x l
    obtain ⟨l1, l2, rfl⟩ := List.append_of_mem hx
    have rr := r.ring p _ hp
    refine ⟨h, 0, fun k _ => ?_, r⟩
    rw [after_split (List.nodup_cons.1 rr.nd).2]
    simp [runOp, next_elem rr]
  | prev hp hx =>
    rename_i p x l
    obtain ⟨l1, l2, rfl⟩ := List.append_of_mem hx
    have rr := r.ring p _ hp
    refine ⟨h, 0, fun k _ => ?_, r⟩
    rw [before_split (List.nodup_cons.1 rr.nd).2]
    simp [runOp, prev_ring rr]
  | nextCircular hp hx =>
    rename_i p x l
    obtain ⟨l1, l2, rfl⟩ := List.append_of_mem hx
    have rr := r.ring p _ hp
    refine ⟨h, 0, fun k _ => ?_, r⟩
    rw [after_split (List.nodup_cons.1 rr.nd).2]
    simp only [runOp, nextCircular_ring rr]; rfl
  | prevCircular hp hx =>
    rename_i p x l
    obtain ⟨l1, l2, rfl⟩ := List.append_of_mem hx
    have rr := r.ring p _ hp
    refine ⟨h, 0, fun k _ => ?_, r⟩
    rw [before_split (List.nodup_cons.1 rr.nd).2]
    simp only [runOp, prevCircular_ring rr]; rfl

theorem runOps_snoc {k : Nat} {junk : Cell} {h h1 h2 : Mem} {ops : List SeqOp} {op : SeqOp} {obs : List SeqObs} {ob : SeqObs}
    (a : runOps k junk h ops = .ok (some (h1, obs))) (b : runOp k junk h1 op = .ok (some (h2, ob))) :
    runOps k junk h (ops ++ [op]) = .ok (some (h2, obs ++ [ob])) := by
  induction ops generalizing h obs with
  | nil =>
    simp only [runOps, Res.ok.injEq, Option.some.injEq, Prod.mk.injEq] at a
    obtain ⟨rfl, rfl⟩ := a
    simp [runOps, b]
  | cons x ops ih =>
    simp only [runOps, List.cons_append] at a ⊢
    rw [Res.bind_eq_ok] at a
    obtain ⟨r, r1, r2⟩ := a
    rw [r1]
    cases r with
    | none => simp at r2
    | some y =>
      obtain ⟨h', o⟩ := y
      simp only [Res.bind_ok] at r2 ⊢
      rw [Res.bind_eq_ok] at r2
      obtain ⟨q, q1, q2⟩ := r2
      cases q with
      | none => simp at q2
      | some z =>
        obtain ⟨h'', os⟩ := z
        simp only [Res.pure_eq, Res.ok.injEq, Option.some.injEq, Prod.mk.injEq] at q2
        obtain ⟨rfl, rfl⟩ := q2
        rw [ih q1]; rfl

/-- **C56.** For every history of calls that keeps to the rules, on any number of lists of any length: every call has defined
behaviour and ends, it returns what the operation on sequences returns, and afterwards every list has the elements
the sequence has, each linked in both directions, with no memory leaked. `Rep` of the final memory: see
`C56_linked` for what it says. -/
theorem C56_list_is_sequence {hs : List (SeqOp × SeqObs)} {w : Seqs} (H : SeqHistory hs w) (junk : Cell) :
    ∃ h k0, (∀ k, k0 ≤ k → runOps k junk (fun _ => none) (hs.map (·.1)) = .ok (some (h, hs.map (·.2)))) ∧ Rep h w := by
  induction H with
  | nil => exact ⟨_, 0, fun _ _ => rfl, rep_empty⟩
  | snoc _ s ih =>
    obtain ⟨h, k0, g1, g2⟩ := ih
    obtain ⟨h', k1, g3, g4⟩ := runOp_rep g2 junk s
    refine ⟨h', max k0 k1, fun k hk => ?_, g4⟩
    rw [List.map_append, List.map_append]
    exact runOps_snoc (g1 k (by omega)) (g3 k (by omega))

/-- **C56**, the state of the memory after a history: from the header of every list the elements can be reached in order
by `next` pointers and in reverse order by `prev` pointers, and back to the header; an element outside lists points to
itself; a cell that is in no list and not outside one is not allocated. -/
theorem C56_linked {hs : List (SeqOp × SeqObs)} {w : Seqs} (H : SeqHistory hs w) (junk : Cell) :
    ∃ h k0, (∀ k, k0 ≤ k → runOps k junk (fun _ => none) (hs.map (·.1)) = .ok (some (h, hs.map (·.2)))) ∧
    (∀ p l, w.lists p = some l →
      (∀ l1 a b l2, p :: (l ++ [p]) = l1 ++ a :: b :: l2 →
        ∃ ca cb, h a = some ca ∧ h b = some cb ∧ ca.next = some b ∧ cb.prev = some a) ∧
      (p :: l).Nodup ∧ (∃ c, h p = some c ∧ c.head = true) ∧ ∀ x ∈ l, ∃ c, h x = some c ∧ c.head = false) ∧
    (∀ x, w.loose x = true → h x = some ⟨false, some x, some x⟩) ∧
    (∀ u, h u ≠ none → w.loose u = true ∨ ∃ p l, w.lists p = some l ∧ u ∈ p :: l) := by
  obtain ⟨h, k0, g1, g2⟩ := C56_list_is_sequence H junk
  refine ⟨h, k0, g1, ?_, g2.loose, ?_⟩
  · intro p l hp
    have r := g2.ring p l hp
    refine ⟨?_, r.nd, fl_some r.head, fun x hx => fl_some (r.elem x hx)⟩
    intro l1 a b l2 e
    have := r.links
    rw [e] at this
    obtain ⟨m1, m2⟩ := links_mid this
    obtain ⟨ca, k1, k2⟩ := nx_some m1
    obtain ⟨cb, k3, k4⟩ := pv_some m2
    exact ⟨ca, cb, k1, k3, k2, k4⟩
  · intro u hu
    rcases g2.noLeak u hu with k | ⟨p, l, k1, k2⟩
    · exact .inl k
    · exact .inr ⟨p, l, k1, k2⟩

/-- a history with two lists: elements 1, 2, 3 are put into list 10 as 3, 1, 2; 1 is moved to list 20; list 10 is cleared -/
theorem cHist : ∃ w, SeqHistory [(.newElement 1, .done), (.newElement 2, .done), (.newElement 3, .done), (.newList 10, .done),
    (.newList 20, .done), (.add 10 1, .bool true), (.insertAfter 10 1 2, .bool true), (.insertFirst 10 3, .bool true),
    (.size 10, .count 3), (.iterate 10, .all [3, 1, 2]), (.prevCircular 10 3, .ptr (some 2)), (.get 10 1, .ptr (some 1)),
    (.remove 10 1, .bool true), (.add 20 1, .bool true), (.next 10 3, .ptr (some 2)), (.clear 10, .bool true)] w := by
  have h0 := SeqHistory.nil
  have h1 := h0.snoc (.newElement (x := 1) (by simp [Seqs.Fresh, Seqs.setList]))
  have h2 := h1.snoc (.newElement (x := 2) (by simp [Seqs.Fresh, Seqs.setList, Seqs.setLoose]))
  have h3 := h2.snoc (.newElement (x := 3) (by simp [Seqs.Fresh, Seqs.setList, Seqs.setLoose]))
  have h4 := h3.snoc (.newList (p := 10) (by simp [Seqs.Fresh, Seqs.setList, Seqs.setLoose]))
  have h5 := h4.snoc (.newList (p := 20) (by simp [Seqs.Fresh, Seqs.setList, Seqs.setLoose]))
  have h6 := h5.snoc (.add (p := 10) (x := 1) (l := []) rfl rfl)
  have h7 := h6.snoc (.insertAfter (p := 10) (y := 1) (x := 2) (l := [1]) rfl (by simp) rfl)
  have h8 := h7.snoc (.insertFirst (p := 10) (x := 3) (l := [1, 2]) rfl rfl)
  have h9 := h8.snoc (.size (p := 10) (l := [3, 1, 2]) rfl (by decide))
  have h10 := h9.snoc (.iterate (p := 10) (l := [3, 1, 2]) rfl)
  have h11 := h10.snoc (.prevCircular (p := 10) (x := 3) (l := [3, 1, 2]) rfl (by simp))
  have h12 := h11.snoc (.get (p := 10) (l := [3, 1, 2]) 1 rfl)
  have h13 := h12.snoc (.remove (p := 10) (x := 1) (l := [3, 1, 2]) rfl (by simp))
  have h14 := h13.snoc (.add (p := 20) (x := 1) (l := []) rfl rfl)
  have h15 := h14.snoc (.next (p := 10) (x := 3) (l := [3, 2]) rfl (by simp))
  exact ⟨_, h15.snoc (.clear (p := 10) (l := [3, 2]) rfl)⟩

example : ∃ h, runOps 5 ⟨true, none, none⟩ (fun _ => none) [.newList 10, .newElement 1, .newElement 2, .add 10 1, .add 10 2,
    .iterate 10] = .ok (some (h, [.done, .done, .done, .bool true, .bool true, .all [1, 2]])) :=
  ⟨_, by with_unfolding_all rfl⟩

end Uecho.Props
