import Verif.Lemmas.OomObj
/-! # C146: objects, nodes and controllers when memory runs out -/
namespace Uecho.Props
open Uecho Uecho.Spec.Short Uecho.Oom Uecho.Lemmas.Short
open Uecho.Spec (Sound)

/-- **C146.** Whichever of the checked requests are refused: an object is made, or NULL is returned and nothing is left. Then any calls on it have
no memory error, and deleting it gives back all of its memory. Missing: requests that the code does not check (`array`), see below. -/
theorem C146_object_partial (cs : List ObjCall) (hcs : ∀ c ∈ cs, c.Fair) (st : St) (hm : Sound st.mem) (ha : st.array = []) :
    ∃ r st1, objNew st = .ok (r, st1) ∧ Sound st1.mem ∧
      match r with
      | none => st1.mem.live.Perm st.mem.live
      | some o => ∃ rs o' st2, objCalls cs o st1 = .ok ((rs, o'), st2) ∧ ∃ st3, objDelete o' st2 = .ok ((), st3) ∧ Sound st3.mem ∧
          st3.mem.live.Perm st.mem.live := by
  obtain ⟨r, st1, e, o1, h1⟩ := objNew_triple (g := false) st.mem.live st ⟨⟨by simp, hm⟩, ha, fun h => by cases h⟩
  refine ⟨r, st1, e, o1.1.2, ?_⟩
  cases r with
  | none => simpa [opt] using o1.1.1
  | some o =>
    obtain ⟨⟨rs, o'⟩, st2, e2, o2, h2⟩ := objCalls_triple cs hcs o (h1.2 o rfl).1 _ _ o1
    obtain ⟨_, st3, e3, o3, _⟩ := h2.delete _ _ o2
    exact ⟨rs, o', st2, e2, st3, e3, o3.1.2, by simpa using o3.1.1⟩

/-- **C146.** After any such calls the report of the next call can be relied on (`ObjMeans` in `Spec/OomObj`): false and NULL mean that nothing
changed, and true that the property or the handler is there; other properties and handlers do not change. -/
theorem C146_reports_partial (cs : List ObjCall) (hcs : ∀ c ∈ cs, c.Fair) (st st1 st2 st3 : St) (hm : Sound st.mem) (ha : st.array = [])
    (o o1 o2 : OObj) (rs : List Reply) (r : Reply) (c : ObjCall) (hc : c.Fair)
    (e1 : objNew st = .ok (some o, st1)) (e2 : objCalls cs o st1 = .ok ((rs, o1), st2)) (e3 : objCall o1 c st2 = .ok ((r, o2), st3)) :
    ObjMeans o1 c r o2 := by
  obtain ⟨x, s1, e, w1, h1⟩ := objNew_triple (g := false) st.mem.live st ⟨⟨by simp, hm⟩, ha, fun h => by cases h⟩
  rw [e1] at e; cases e
  obtain ⟨y, s2, e, w2, h2⟩ := objCalls_triple cs hcs o (h1.2 o rfl).1 _ _ w1
  rw [e2] at e; cases e
  obtain ⟨z, s3, e, w3, h3⟩ := objCall_triple o1 h2 c hc _ _ w2
  rw [e3] at e; cases e
  exact h3.2.1

/-- **C146.** While there is memory, the object is made and every call succeeds. -/
theorem C146_enough_memory (cs : List ObjCall) (hcs : ∀ c ∈ cs, c.Fair) (st : St) (hm : Sound st.mem) (ha : st.array = []) (hs : st.small = [])
    (c : ObjCall) (hc : c.Fair) :
    ∃ o st1 rs o1 st2 r o2 st3, objNew st = .ok (some o, st1) ∧ objCalls cs o st1 = .ok ((rs, o1), st2) ∧ objCall o1 c st2 = .ok ((r, o2), st3) ∧
      ObjExpected c r := by
  obtain ⟨x, s1, e1, w1, h1⟩ := objNew_triple (g := true) st.mem.live st ⟨⟨by simp, hm⟩, ha, fun _ => hs⟩
  cases x with
  | none => cases h1.1 rfl
  | some o =>
    obtain ⟨⟨rs, o1⟩, s2, e2, w2, h2⟩ := objCalls_triple cs hcs o (h1.2 o rfl).1 _ _ w1
    obtain ⟨⟨r, o2⟩, s3, e3, w3, h3⟩ := objCall_triple o1 h2 c hc _ _ w2
    exact ⟨o, s1, rs, o1, s2, r, o2, s3, e1, e2, e3, h3.2.2 rfl⟩

/-- Some calls by the rules. -/
def fairCalls : List ObjCall := [.setProperty 0x80 Attr.read, .setData 0x80 [0x30], .setHandler 0x61 0x80, .setInteger 0x81 7 2, .setAttr 0x81 Attr.readRequired, .read 0x80]

example : (∀ c ∈ fairCalls, c.Fair) ∧ Sound ⟨[], 0⟩ := by
  refine ⟨?_, ⟨by decide, by decide⟩⟩
  simp [fairCalls, ObjCall.Fair]
  decide

/-! ### What is missing -/

/-- The number of blocks of the heap, and what was reported. -/
def oleft {α : Type} (x : Res (α × St)) : Option (α × Nat) := match x with | .ok (a, s) => some (a, s.mem.live.length) | .ub => none

/-- A new object, some calls, and its deletion. -/
def session (cs : List ObjCall) : O (List Reply) := do
  match ← objNew with
  | none => return []
  | some o => do
      let r ← objCalls cs o
      objDelete r.2
      return r.1

/-- With one request refused, setting the property fails, the other calls succeed, and nothing is left. -/
example : oleft (session fairCalls ⟨⟨[], 0⟩, [false, false, false, false, true], []⟩) =
    some ([.done false, .done true, .done true, .done true, .done true, .bytes [some 0x30]], 0) := by decide +kernel

/-- With another one refused there is no object, and nothing is left. -/
example : oleft (session fairCalls ⟨⟨[], 0⟩, [false, false, true], []⟩) = some ([], 0) := by decide +kernel

/-- What is missing from C146: setting any property that can be read, when there is no memory for the property map, reads through NULL. -/
theorem C146_map_violated (code : Byte) (attr : CInt) (ha : attr &&& (Attr.read ||| Attr.readRequired) ≠ 0) (t : List Bool) :
    session [.setProperty code attr] ⟨⟨[], 0⟩, [], false :: true :: t⟩ = .ub := by
  have hr : (OProp.val ⟨5, ⟨6, none⟩, code, attr, none, 0⟩).isReadable = true := by
    unfold OProp.val Property.isReadable; simpa using ha
  have po : ∀ {α : Type} (a : α) (s : St), (pure a : O α) s = .ok (a, s) := fun _ _ => rfl
  have bo : ∀ {α β : Type} (x : O α) (k : α → O β) (s : St), (x >>= k) s = x s >>= fun r => k r.1 r.2 := fun _ _ _ => rfl
  have bh : ∀ {α β : Type} (x : Heap.H α) (k : α → Heap.H β) (s : Heap.Mem), (x >>= k) s = x s >>= fun r => k r.1 r.2 := fun _ _ _ => rfl
  have ph : ∀ {α : Type} (a : α) (s : Heap.Mem), (pure a : Heap.H α) s = .ok (a, s) := fun _ _ => rfl
  have h1 : objNew ⟨⟨[], 0⟩, [], false :: true :: t⟩ =
      .ok (some ⟨0, some ⟨1, none⟩, some 2, [], some (3, some 4), [], none, none, none, 0, 0, 0⟩, ⟨⟨[4, 3, 2, 1, 0], 5⟩, [], true :: t⟩) := by
    simp [objNew, bo, po, Oom.malloc, Heap.malloc, Oom.mallocArray, Oom.strNew, mgrNew]
  have h2 : objSet ⟨0, some ⟨1, none⟩, some 2, [], some (3, some 4), [], none, none, none, 0, 0, 0⟩ code attr [] ⟨⟨[4, 3, 2, 1, 0], 5⟩, [], true :: t⟩ =
      .ok ((true, ⟨0, some ⟨1, none⟩, some 2, [⟨5, ⟨6, none⟩, code, attr, none, 0⟩], some (3, some 4), [], none, none, none, 0, 0, 0⟩),
        ⟨⟨[6, 5, 4, 3, 2, 1, 0], 7⟩, [], true :: t⟩) := by
    simp [objSet, objGetByCode, bo, po, bh, ph, Oom.use, onMem, Heap.use, Oom.touch, Heap.touch, Heap.splitBy, Oom.propNew, Oom.strNew, Oom.malloc, Heap.malloc,
      Oom.propSetData, Oom.propSetCount, Oom.propClearData, Oom.freeOpt, Heap.freeOpt]
  have h3 : objUpdateMaps ⟨0, some ⟨1, none⟩, some 2, [⟨5, ⟨6, none⟩, code, attr, none, 0⟩], some (3, some 4), [], none, none, none, 0, 0, 0⟩
      ⟨⟨[6, 5, 4, 3, 2, 1, 0], 7⟩, [], true :: t⟩ = .ub := by
    have hub : ∀ {α β : Type} {x : Res α} {k : α → Res β}, (∀ a, x = .ok a → k a = .ub) → (x >>= k) = .ub := by
      intro α β x k h
      cases x with
      | ok a => exact h a rfl
      | ub => rfl
    simp only [objUpdateMaps, objClearCaches, bo, Oom.use, onMem, Heap.use, Oom.freeOpt, Heap.freeOpt, ph, po, Res.bind_ok, List.mem_cons, true_or, or_true, if_true,
      Oom.collect, hr, cachePush, Oom.mallocArray, List.headD_cons]
    simp only [Res.bind_assoc]
    refine hub fun s hs => hub fun a ha => ?_
    simp only [Res.bind_ok, Oom.objSetMap, Option.isNone_none, Bool.true_and, bne_iff_ne, Nat.reduceAdd]
    rfl
  unfold session
  rw [bo, h1]
  simp only [Res.bind_ok, objCalls, objCall, bo, objSetProperty, h2, if_true, h3]
  rfl

/-- What is missing from C146: if there is no memory for the list of handlers, the object is made all the same, but no handler can be set, and
each attempt loses a block. -/
theorem C146_handlers_violated (hs : List (Byte × Byte)) :
    oleft (session (hs.map fun h => .setHandler h.1 h.2) ⟨⟨[], 0⟩, [], [true]⟩) = some (hs.map fun _ => .done false, hs.length) := by
  have h1 : objNew ⟨⟨[], 0⟩, [], [true]⟩ =
      .ok (some ⟨0, some ⟨1, none⟩, some 2, [], some (3, none), [], none, none, none, 0, 0, 0⟩, ⟨⟨[3, 2, 1, 0], 4⟩, [], []⟩) := rfl
  have bo : ∀ {α β : Type} (x : O α) (k : α → O β) (s : St), (x >>= k) s = x s >>= fun r => k r.1 r.2 := fun _ _ _ => rfl
  generalize ho : (⟨0, some ⟨1, none⟩, some 2, [], some (3, none), [], none, none, none, 0, 0, 0⟩ : OObj) = o at h1
  have one : ∀ (e c : Byte) (rest : List Nat) (s : St), OOwns true (oobjF o) rest s →
      ∃ a s', objCall o (.setHandler e c) s = .ok ((.done false, o), s') ∧ OOwns true (oobjF o) (a :: rest) s' := by
    intro e c rest s w
    have h0 : 0 ∈ s.mem.live := w.1.1.mem_iff.2 (by subst ho; simp [oobjF])
    have h3 : 3 ∈ s.mem.live := w.1.1.mem_iff.2 (by subst ho; simp [oobjF, mgrF])
    obtain ⟨⟨live, next⟩, small, array⟩ := s
    obtain ⟨⟨w1, w2, w3⟩, w4, w5⟩ := w
    simp only at w1 w2 w3 w4 w5 h0 h3
    have w5 := w5 trivial
    subst w4 w5
    refine ⟨next, ⟨⟨next :: live, next + 1⟩, [], []⟩, ?_, ⟨?_, ?_, ?_⟩, rfl, fun _ => rfl⟩
    · subst ho
      simp [objCall, objSetHandler, bo, Oom.use, onMem, Heap.use, h0, h3, Oom.malloc, Heap.malloc]
      rfl
    · exact (w1.cons next).trans List.perm_middle.symm
    · exact List.nodup_cons.2 ⟨fun hn => absurd (w3 next hn) (Nat.lt_irrefl _), w2⟩
    · intro a ha
      rcases List.mem_cons.1 ha with rfl | ha
      · exact Nat.lt_succ_self _
      · exact Nat.lt_succ_of_lt (w3 a ha)
  have all : ∀ (hs : List (Byte × Byte)) (rest : List Nat) (s : St), OOwns true (oobjF o) rest s →
      ∃ s' rest', objCalls (hs.map fun h => .setHandler h.1 h.2) o s = .ok ((hs.map fun _ => .done false, o), s') ∧
        OOwns true (oobjF o) rest' s' ∧ rest'.length = rest.length + hs.length := by
    intro hs
    induction hs with
    | nil => intro rest s w; exact ⟨s, rest, rfl, w, rfl⟩
    | cons h hs ih =>
      intro rest s w
      obtain ⟨a, s1, e1, w1⟩ := one h.1 h.2 rest s w
      obtain ⟨s2, rest2, e2, w2, hl⟩ := ih (a :: rest) s1 w1
      refine ⟨s2, rest2, ?_, w2, by simp at hl ⊢; omega⟩
      rw [List.map_cons, objCalls, bo, e1]
      simp only [Res.bind_ok, bo, e2]
      rfl
  obtain ⟨s2, rest2, e2, w2, hl⟩ := all hs [] ⟨⟨[3, 2, 1, 0], 4⟩, [], []⟩
    ⟨⟨by subst ho; decide, by decide, by decide⟩, rfl, fun _ => rfl⟩
  obtain ⟨_, s3, e3, w3, _⟩ := objDelete_triple (g := true) o (by subst ho; intros; rfl) (by subst ho; intros; rfl) (by subst ho; intros; rfl) rest2 s2 w2
  unfold session
  rw [bo, h1]
  simp only [Res.bind_ok, bo, e2, e3]
  show some (_, s3.mem.live.length) = _
  have := w3.1.1.length_eq
  simp only [List.nil_append, List.length_nil, Nat.zero_add] at this hl
  rw [this, hl]

/-- What is missing from C146: data are set with success, and are empty. -/
theorem C146_data_violated (code : Byte) (d : List Byte) (hd : d ≠ []) :
    oleft (session [.setData code d, .read code] ⟨⟨[], 0⟩, [false, false, false, false, false, false, true], []⟩) =
      some ([.done true, .bytes []], 0) := by
  obtain ⟨x, d, rfl⟩ := List.exists_cons_of_ne_nil hd
  have bo : ∀ {α β : Type} (x : O α) (k : α → O β) (s : St), (x >>= k) s = x s >>= fun r => k r.1 r.2 := fun _ _ _ => rfl
  have po : ∀ {α : Type} (a : α) (s : St), (pure a : O α) s = .ok (a, s) := fun _ _ => rfl
  have bh : ∀ {α β : Type} (x : Heap.H α) (k : α → Heap.H β) (s : Heap.Mem), (x >>= k) s = x s >>= fun r => k r.1 r.2 := fun _ _ _ => rfl
  have ph : ∀ {α : Type} (a : α) (s : Heap.Mem), (pure a : Heap.H α) s = .ok (a, s) := fun _ _ => rfl
  simp [session, oleft, objNew, bo, po, bh, ph, Oom.malloc, Heap.malloc, Oom.mallocArray, Oom.strNew, mgrNew, objCalls, objCall, objSetData, objGetByCode,
    Oom.use, onMem, Heap.use, Oom.touch, Heap.touch, Heap.splitBy, Oom.propNew, Oom.propSetData, Oom.propSetCount, Oom.propClearData, Oom.freeOpt,
    Heap.freeOpt, objRead, Oom.propRead, objDelete, Oom.strDelete, Heap.strDelete, Heap.strClear, Heap.free, objClearCaches, plDelete, plClear,
    Oom.propDelete, Oom.free, mgrDelete, olDelete, Heap.freeAll]

/-- What is missing from C146: a handler that cannot be replaced is gone. -/
theorem C146_replace_violated (e c : Byte) : ∃ (o o1 o2 : OObj) (s1 s2 s3 : St),
    objNew ⟨⟨[], 0⟩, [false, false, false, false, false, true], []⟩ = .ok (some o, s1) ∧
    objCall o (.setHandler e c) s1 = .ok ((.done true, o1), s2) ∧ handlersOf o1 = [(e, c)] ∧
    objCall o1 (.setHandler e c) s2 = .ok ((.done false, o2), s3) ∧ handlersOf o2 = [] := by
  have bo : ∀ {α β : Type} (x : O α) (k : α → O β) (s : St), (x >>= k) s = x s >>= fun r => k r.1 r.2 := fun _ _ _ => rfl
  have po : ∀ {α : Type} (a : α) (s : St), (pure a : O α) s = .ok (a, s) := fun _ _ => rfl
  have bh : ∀ {α β : Type} (x : Heap.H α) (k : α → Heap.H β) (s : Heap.Mem), (x >>= k) s = x s >>= fun r => k r.1 r.2 := fun _ _ _ => rfl
  have ph : ∀ {α : Type} (a : α) (s : Heap.Mem), (pure a : Heap.H α) s = .ok (a, s) := fun _ _ => rfl
  refine ⟨⟨0, some ⟨1, none⟩, some 2, [], some (3, some 4), [], none, none, none, 0, 0, 0⟩,
    ⟨0, some ⟨1, none⟩, some 2, [], some (3, some 4), [⟨5, e, c⟩], none, none, none, 0, 0, 0⟩,
    ⟨0, some ⟨1, none⟩, some 2, [], some (3, some 4), [], none, none, none, 0, 0, 0⟩,
    ⟨⟨[4, 3, 2, 1, 0], 5⟩, [false, true], []⟩, ⟨⟨[5, 4, 3, 2, 1, 0], 6⟩, [true], []⟩, ⟨⟨[4, 3, 2, 1, 0], 6⟩, [], []⟩, ?_, ?_, rfl, ?_, rfl⟩ <;>
  simp [objNew, bo, po, bh, ph, Oom.malloc, Heap.malloc, Oom.mallocArray, Oom.strNew, mgrNew, objCall, objSetHandler, dropHandler,
    Oom.use, onMem, Heap.use, Oom.touch, Heap.touch, Heap.splitBy, Oom.free, Heap.free]

/-- What is missing from C146: a node for which there is no server, or a controller for which there is no node, is made through NULL. -/
theorem C146_node_violated (prof : Option Nat → O (Option OObj)) (mem : Heap.Mem) (t : List Bool) :
    nodeNew prof ⟨mem, [false, false, false, false, true] ++ t, []⟩ = .ub ∧
    ctrlNew prof ⟨mem, [false, false, false, true] ++ t, []⟩ = .ub := by
  refine ⟨rfl, ?_⟩
  cases t with
  | nil => rfl
  | cons b t => cases b <;> rfl

/-- Those that are called when a datagram arrives at a node. -/
def heardBy (n : ONode) : Nat := ((n.server.bind (·.mgr)).map fun g => g.obs.length).getD 0

/-- What is missing from C146: a node is made although there is no memory to register it with its server, or for the list of
those registered, and hears nothing. With memory, a node is
registered, and a controller beside its node. -/
theorem C146_deaf_violated (prof : Option Nat → O (Option OObj)) (mem : Heap.Mem)
    (hp : ∀ l s, s.small = [] → ∃ r s', prof l s = .ok (r, s') ∧ s'.small = [] ∧ ∀ a ∈ s.mem.live, a ∈ s'.mem.live) :
    (∀ k, k = 8 ∨ k = 9 → ∃ n s, nodeNew prof ⟨mem, List.replicate k false ++ [true], []⟩ = .ok (some n, s) ∧ heardBy n = 0) ∧
    (∃ n s, nodeNew prof ⟨mem, [], []⟩ = .ok (some n, s) ∧ heardBy n = 1) ∧
    (∃ c n s, ctrlNew prof ⟨mem, [], []⟩ = .ok (some c, s) ∧ c.node = some n ∧ heardBy n = 2) := by
  have bo : ∀ {α β : Type} (x : O α) (k : α → O β) (s : St), (x >>= k) s = x s >>= fun r => k r.1 r.2 := fun _ _ _ => rfl
  have po : ∀ {α : Type} (a : α) (s : St), (pure a : O α) s = .ok (a, s) := fun _ _ => rfl
  have hb : ∀ {β : Type} (l : Option Nat) (S : St) (k : Option OObj × St → Res β) (Q : Res β → Prop), S.small = [] →
      (∀ r s', s'.small = [] → (∀ a ∈ S.mem.live, a ∈ s'.mem.live) → Q (k (r, s'))) → Q (prof l S >>= k) := by
    intro β l S k Q hS hk
    obtain ⟨r, s', h1, h2, h3⟩ := hp l S hS
    rw [h1]
    exact hk r s' h2 h3
  have key : ∀ mem : Heap.Mem, ∃ n s g sv, nodeNew prof ⟨mem, [], []⟩ = .ok (some n, s) ∧ n.server = some sv ∧ sv.mgr = some g ∧ g.obs.length = 1 ∧
      s.small = [] ∧ sv.self ∈ s.mem.live ∧ g.self ∈ s.mem.live ∧ ∃ l, g.list = some l ∧ l ∈ s.mem.live := by
    intro mem
    simp only [nodeNew, bo, po, Oom.malloc, Heap.malloc, Oom.strNew, serverNew, msgMgrNew, serverAddObserver, Oom.use, onMem, Heap.use,
      Res.bind_ok, List.headD_nil, List.tail_nil, Bool.false_eq_true, if_false, List.mem_cons, true_or, or_true, if_true, List.nil_append]
    refine hb _ _ _ (fun x => ∃ (n : ONode) (s : St) (g : OMgr) (sv : OServer), x = .ok (some n, s) ∧ n.server = some sv ∧ sv.mgr = some g ∧ g.obs.length = 1 ∧
      s.small = [] ∧ sv.self ∈ s.mem.live ∧ g.self ∈ s.mem.live ∧ ∃ l, g.list = some l ∧ l ∈ s.mem.live) rfl ?_
    intro r s' h2 h3
    refine ⟨_, _, _, _, rfl, rfl, rfl, rfl, h2, h3 _ ?_, h3 _ ?_, _, rfl, h3 _ ?_⟩ <;> simp
  refine ⟨?_, ?_, ?_⟩
  · rintro k (rfl | rfl) <;>
    simp only [nodeNew, bo, po, Oom.malloc, Heap.malloc, Oom.strNew, serverNew, msgMgrNew, serverAddObserver, Oom.use, onMem, Heap.use, List.replicate,
      Res.bind_ok, List.headD_nil, List.headD_cons, List.tail_cons, List.tail_nil, Bool.false_eq_true, if_false, List.mem_cons, true_or, or_true, if_true,
      List.nil_append, List.cons_append] <;>
    exact hb _ _ _ (fun x => ∃ (n : ONode) (s : St), x = .ok (some n, s) ∧ heardBy n = 0) rfl fun r s' h2 h3 => ⟨_, _, rfl, rfl⟩
  · obtain ⟨n, s, g, sv, h1, h2, h3, h4, -⟩ := key mem
    exact ⟨n, s, h1, by simp [heardBy, h2, h3, h4]⟩
  · simp only [ctrlNew, bo, Oom.malloc, Heap.malloc, Res.bind_ok, List.headD_nil, List.tail_nil, Bool.false_eq_true, if_false]
    obtain ⟨n, s, g, sv, h1, h2, h3, h4, h5, h6, h7, l, h8, h9⟩ := key ⟨(mem.next + 1 + 1) :: (mem.next + 1) :: mem.next :: mem.live, mem.next + 1 + 1 + 1⟩
    rw [h1]
    simp only [Res.bind_ok, h5, List.headD_nil, List.tail_nil, Bool.false_eq_true, if_false, Option.bind_some, h2, serverAddObserver, bo, po, Oom.use, onMem,
      Heap.use, List.mem_cons, h6, or_true, if_true, Oom.malloc, Heap.malloc, h3, h7, h8, h9]
    exact ⟨_, _, _, rfl, rfl, by simp [heardBy, h4]⟩

example : ∃ prof : Option Nat → O (Option OObj), ∀ l s, s.small = [] → ∃ r s', prof l s = .ok (r, s') ∧ s'.small = [] ∧ ∀ a ∈ s.mem.live, a ∈ s'.mem.live :=
  ⟨fun _ => pure none, fun _ s h => ⟨none, s, rfl, h, fun _ h => h⟩⟩
/-- **C146**. Registering with a server reports success just if there is memory for it and a list; then one more is registered, behind the others, otherwise none. -/
theorem C146_registered (sv : OServer) (g : OMgr) (s : St) (hg : sv.mgr = some g) (h1 : sv.self ∈ s.mem.live) (h2 : g.self ∈ s.mem.live)
    (h3 : ∀ l, g.list = some l → l ∈ s.mem.live) :
    ∃ b sv' s', serverAddObserver (some sv) s = .ok ((b, some sv'), s') ∧ (b = true ↔ s.small.headD false = false ∧ g.list ≠ none) ∧
      (b = true → ∃ a, sv' = { sv with mgr := some { g with obs := g.obs ++ [a] } } ∧ a ∈ s'.mem.live) ∧ (b = false → sv' = sv) := by
  have bo : ∀ {α β : Type} (x : O α) (k : α → O β) (s : St), (x >>= k) s = x s >>= fun r => k r.1 r.2 := fun _ _ _ => rfl
  have po : ∀ {α : Type} (a : α) (s : St), (pure a : O α) s = .ok (a, s) := fun _ _ => rfl
  cases hs : s.small.headD false with
  | true =>
    refine ⟨false, sv, { s with small := s.small.tail }, ?_, by simp, by simp, by simp⟩
    simp only [serverAddObserver, bo, po, Oom.use, onMem, Heap.use, h1, if_true, Res.bind_ok, Oom.malloc, hs]
  | false =>
    cases hl : g.list with
    | none =>
      refine ⟨false, sv, ({ mem := ⟨s.mem.next :: s.mem.live, s.mem.next + 1⟩, small := s.small.tail, array := s.array } : St), ?_, by simp, by simp, by simp⟩
      · simp only [serverAddObserver, bo, po, Oom.use, onMem, Heap.use, h1, h2, if_true, Res.bind_ok, Oom.malloc, hs, Bool.false_eq_true, if_false, Heap.malloc, hg,
          List.mem_cons, or_true, hl]
    | some l =>
      refine ⟨true, { sv with mgr := some { self := g.self, list := some l, obs := g.obs ++ [s.mem.next] } },
        ({ mem := ⟨s.mem.next :: s.mem.live, s.mem.next + 1⟩, small := s.small.tail, array := s.array } : St), ?_, by simp, fun _ => ⟨s.mem.next, rfl, ?_⟩, by simp⟩
      · simp only [serverAddObserver, bo, po, Oom.use, onMem, Heap.use, h1, h2, h3 l hl, if_true, Res.bind_ok, Oom.malloc, hs, Bool.false_eq_true, if_false, Heap.malloc, hg,
          List.mem_cons, or_true, hl]
      · simp

example : ∃ (sv : OServer) (g : OMgr) (s : St), sv.mgr = some g ∧ sv.self ∈ s.mem.live ∧ g.self ∈ s.mem.live ∧ ∀ l, g.list = some l → l ∈ s.mem.live :=
  ⟨⟨0, some 1, some 2, some ⟨3, some 4, []⟩⟩, ⟨3, some 4, []⟩, ⟨⟨[4, 3, 2, 1, 0], 5⟩, [], []⟩, rfl, by simp, by simp, by simp⟩
end Uecho.Props
