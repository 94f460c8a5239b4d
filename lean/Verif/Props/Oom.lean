import Verif.Lemmas.OomCalls
/-! # C125: when memory runs out -/
namespace Uecho.Props
open Uecho.Spec hiding propF secF msgF Call call calls Held onProp onMsg propsF
open Uecho Uecho.Spec.Short Uecho.Oom Uecho.Lemmas Uecho.Lemmas.Short

/-- **C125**: whatever calls an application makes on properties and messages, in any order, and whichever requests for structures, texts
and data are refused: nothing undefined happens, and the blocks allocated are those that were allocated before and exactly those of what
the application still holds. What is missing: requests for the arrays of messages and for the bytes to be sent are granted, and
`uecho_property_adddata` is not called. -/
theorem C125_calls_partial (cs : List Call) (hcs : ∀ c ∈ cs, c.isAppend = false) (st : St) (hm : Sound st.mem) (ha : st.array = []) :
    ∃ rs s st', calls cs .empty st = .ok ((rs, s), st') ∧ Sound st'.mem ∧ st'.mem.live.Perm (s.blocks ++ st.mem.live) := by
  obtain ⟨⟨rs, s⟩, st', e, o, -⟩ := calls_triple (g := false) cs hcs (s := .empty) ⟨fun _ h => (by cases h), fun _ h => (by cases h)⟩ st.mem.live st
    ⟨⟨by simp [Short.Held.blocks, Short.Held.empty], hm⟩, ha, fun h => by cases h⟩
  exact ⟨rs, s, st', e, o.1.2, o.1.1⟩

/-- **C125**: after any such calls, the report of the next call can be relied on (see `Means` in `Spec/Oom`): an object is there if the
function returned a pointer, and nothing changed if it returned NULL; data are as given if the function returned true, and empty if it
returned false; a message that was parsed holds the frame; the bytes of a message without missing properties are its frame. -/
theorem C125_reports_partial (cs : List Call) (hcs : ∀ c ∈ cs, c.isAppend = false) (st : St) (hm : Sound st.mem) (ha : st.array = [])
    (rs : List Reply) (s : Held) (st1 : St) (e : calls cs .empty st = .ok ((rs, s), st1))
    (c : Call) (hc : c.isAppend = false) (r : Reply) (s' : Held) (st2 : St) (e' : call s c st1 = .ok ((r, s'), st2)) :
    Means s c r s' := by
  obtain ⟨x, st', e1, o, h⟩ := calls_triple (g := false) cs hcs (s := .empty) ⟨fun _ h => (by cases h), fun _ h => (by cases h)⟩ st.mem.live st
    ⟨⟨by simp [Short.Held.blocks, Short.Held.empty], hm⟩, ha, fun h => by cases h⟩
  rw [e] at e1
  cases e1
  obtain ⟨y, st'', e2, o2, h2⟩ := call_triple h c hc _ _ o
  rw [e'] at e2
  cases e2
  exact h2.2.1

/-- **C125**: and if no request is refused, calls succeed (see `Expected`). -/
theorem C125_enough_memory (cs : List Call) (hcs : ∀ c ∈ cs, c.isAppend = false) (st : St) (hm : Sound st.mem) (ha : st.array = [])
    (hs : st.small = []) (rs : List Reply) (s : Held) (st1 : St) (e : calls cs .empty st = .ok ((rs, s), st1))
    (c : Call) (hc : c.isAppend = false) (r : Reply) (s' : Held) (st2 : St) (e' : call s c st1 = .ok ((r, s'), st2)) (hr : r ≠ .skipped) :
    Expected c r := by
  obtain ⟨x, st', e1, o, h⟩ := calls_triple (g := true) cs hcs (s := .empty) ⟨fun _ h => (by cases h), fun _ h => (by cases h)⟩ st.mem.live st
    ⟨⟨by simp [Short.Held.blocks, Short.Held.empty], hm⟩, ha, fun _ => hs⟩
  rw [e] at e1
  cases e1
  obtain ⟨y, st'', e2, o2, h2⟩ := call_triple h c hc _ _ o
  rw [e'] at e2
  cases e2
  exact h2.2.2 rfl hr

/-! ### Cases -/

/-- What a run reports, and how many blocks it leaves. -/
def told (r : Res ((List Reply × Held) × St)) : Option (List Reply × Nat) :=
  match r with
  | .ok ((rs, _), st) => some (rs, st.mem.live.length)
  | .ub => none

/-- A frame with two properties. -/
def twoProps : List Byte := [0x10, 0x81, 0, 1, 5, 0xFF, 1, 0x0E, 0xF0, 1, 0x62, 2, 0xD6, 0, 0x80, 1, 0x30]

/-- Calls with refusals here and there: creating, parsing and copying fail, and everything can be deleted. -/
def shortCalls : List Call :=
  [.propNew 0, .propNew 0, .propSetData 0 [1], .propSetData 0 [2], .propRead 0, .msgNew 0, .msgParse 0 twoProps 17, .msgParse 0 twoProps 17,
   .msgBytes 0, .msgSetProp 0 .plain 0x81 [7], .msgCopy 0 1, .propDelete 0, .msgDelete 0, .msgDelete 1]

example : ∀ c ∈ shortCalls, c.isAppend = false := by decide +kernel

example : told (calls shortCalls .empty ⟨⟨[7, 3], 10⟩, [false, true, false, false, false, true, false, false, true], []⟩) =
    some ([.null, .made, .done true, .done false, .bytes [], .made, .done false, .done true, .bytes (twoProps.map some), .done true, .made,
      .done true, .done true, .done true], 2) := by decide +kernel

example : told (calls shortCalls .empty ⟨⟨[7, 3], 10⟩, [], []⟩) =
    some ([.made, .skipped, .done true, .done true, .bytes [some 2], .made, .done true, .done true, .bytes (twoProps.map some), .done true, .made,
      .done true, .done true, .done true], 2) := by decide +kernel

/-! ### What is missing -/

/-- What is missing from C125: when the request for the array of properties is refused, the receiver of a frame with properties writes
through NULL, whatever the frame. -/
theorem C125_parse_violated (f : Frame) (hf : f.WF) (ps : List Prop8) (hb : f.body = .plain ps) (hp : ps ≠ []) (mem : Heap.Mem) (t : List Bool) :
    calls [.msgNew 0, .msgParse 0 (encode f) (encode f).length] .empty ⟨mem, [], true :: t⟩ = .ub := by
  obtain ⟨⟨t0, t1⟩, ⟨s0, s1, s2⟩, ⟨d0, d1, d2⟩, v, b⟩ := f
  cases hb
  have hv : Esv.isReadWrite v = false := by
    cases h : Esv.isReadWrite v with
    | false => rfl
    | true => exact absurd ((isReadWrite_iff v).1 h) hf.1
  have hl : ps.length ≤ 255 := hf.2.1
  have hn : BitVec.ofNat 8 ps.length ≠ 0#8 := by
    intro h
    have h := congrArg BitVec.toNat h
    rw [BitVec.toNat_ofNat, show (0#8).toNat = 0 from rfl] at h
    have : ps.length ≠ 0 := fun h => hp (List.eq_nil_of_length_eq_zero h)
    omega
  have hh : Heap.readHeader (encode ⟨(t0, t1), (s0, s1, s2), (d0, d1, d2), v, .plain ps⟩)
      (encode ⟨(t0, t1), (s0, s1, s2), (d0, d1, d2), v, .plain ps⟩).length = .ok (some ⟨t0, t1, (s0, s1, s2), (d0, d1, d2), v⟩) := by
    simp [Heap.readHeader, encode, encodeBody, encodeSection, rd]
  have h11 : rd (encode ⟨(t0, t1), (s0, s1, s2), (d0, d1, d2), v, .plain ps⟩) 11 = .ok (BitVec.ofNat 8 ps.length) := by
    simp [encode, encodeBody, encodeSection, rd]
  generalize encode ⟨(t0, t1), (s0, s1, s2), (d0, d1, d2), v, .plain ps⟩ = data at *
  have bo : ∀ {α β : Type} (x : O α) (k : α → O β) (s : St), (x >>= k) s = x s >>= fun r => k r.1 r.2 := fun _ _ _ => rfl
  have po : ∀ {α : Type} (a : α) (s : St), (pure a : O α) s = .ok (a, s) := fun _ _ => rfl
  have ph : ∀ {α : Type} (a : α) (s : Heap.Mem), (pure a : Heap.H α) s = .ok (a, s) := fun _ _ => rfl
  simp [calls, call, ph, unused, Short.Held.empty, pick, Short.onMsg, Oom.msgNew, Oom.msgParse, Oom.msgClear, Oom.malloc, Heap.malloc, bo, po, Oom.use, Oom.freeOpt,
    Oom.useOpt, onMem, Heap.use, Heap.freeOpt, Heap.useOpt, Oom.secClear, Oom.slotsOf, Oom.deleteAll, Oom.lift, Heap.lift, hh, h11, hv, msgParsePlain, secRead,
    secSetOpc, hn, mallocArray, undef]

example : Frame.WF ⟨(0, 1), (5, 0xFF, 1), (0x0E, 0xF0, 1), 0x62, .plain [(0xD6, []), (0x80, [0x30])]⟩ ∧
    encode ⟨(0, 1), (5, 0xFF, 1), (0x0E, 0xF0, 1), 0x62, .plain [(0xD6, []), (0x80, [0x30])]⟩ = twoProps := by
  refine ⟨?_, rfl⟩
  refine ⟨by decide, by decide, fun p hp => ?_⟩
  simp only [List.mem_cons, List.not_mem_nil, or_false] at hp
  rcases hp with rfl | rfl <;> decide

/-- What is missing from C125: adding a property to a message, and building the bytes of a message, write through NULL when the request
for the array or the bytes is refused. -/
theorem C125_arrays_violated :
    calls [.propNew 0, .msgNew 0, .msgAdd 0 .plain 0] .empty ⟨⟨[], 0⟩, [], [true]⟩ = .ub ∧
    calls [.msgNew 0, .msgSetProp 0 .plain 0x80 [1]] .empty ⟨⟨[], 0⟩, [], [true]⟩ = .ub ∧
    calls [.msgNew 0, .msgBytes 0] .empty ⟨⟨[], 0⟩, [], [true]⟩ = .ub := by
  refine ⟨?_, ?_, ?_⟩ <;> rfl

/-- What is missing from C125: when `uecho_property_adddata` is refused memory, whatever the data were: it returns false and forgets the
block, which stays allocated when the property is deleted; -/
theorem C125_append_leaks_violated (d e : List Byte) (hd : d ≠ []) (he : e ≠ []) :
    told (calls [.propNew 0, .propSetData 0 d, .propAddData 0 e, .propDelete 0] .empty ⟨⟨[], 0⟩, [false, false, false, true], []⟩) =
      some ([.made, .done true, .done false, .done true], 1) := by
  obtain ⟨a, d, rfl⟩ := List.exists_cons_of_ne_nil hd
  obtain ⟨b, e, rfl⟩ := List.exists_cons_of_ne_nil he
  have bo : ∀ {α β : Type} (x : O α) (k : α → O β) (s : St), (x >>= k) s = x s >>= fun r => k r.1 r.2 := fun _ _ _ => rfl
  have bh : ∀ {α β : Type} (x : Heap.H α) (k : α → Heap.H β) (s : Heap.Mem), (x >>= k) s = x s >>= fun r => k r.1 r.2 := fun _ _ _ => rfl
  have po : ∀ {α : Type} (a : α) (s : St), (pure a : O α) s = .ok (a, s) := fun _ _ => rfl
  have ph : ∀ {α : Type} (a : α) (s : Heap.Mem), (pure a : Heap.H α) s = .ok (a, s) := fun _ _ => rfl
  simp [calls, call, told, unused, Short.Held.empty, pick, Short.onProp, bo, po, bh, ph, Oom.propNew, Oom.strNew, Oom.malloc, Heap.malloc, Oom.propSetData,
    Oom.propSetCount, Oom.propClearData, Oom.use, Oom.freeOpt, Oom.free, onMem, Heap.use, Heap.freeOpt, Heap.free, Oom.propAddData, Oom.propDelete,
    Heap.strDelete, Heap.strClear, Oom.propRead, undef]

/-- and the count of the bytes stays, so that reading the data goes through NULL. -/
theorem C125_append_violated (d e : List Byte) (hd : d ≠ []) (he : e ≠ []) :
    told (calls [.propNew 0, .propSetData 0 d, .propAddData 0 e, .propRead 0] .empty ⟨⟨[], 0⟩, [false, false, false, true], []⟩) = none := by
  obtain ⟨a, d, rfl⟩ := List.exists_cons_of_ne_nil hd
  obtain ⟨b, e, rfl⟩ := List.exists_cons_of_ne_nil he
  have bo : ∀ {α β : Type} (x : O α) (k : α → O β) (s : St), (x >>= k) s = x s >>= fun r => k r.1 r.2 := fun _ _ _ => rfl
  have bh : ∀ {α β : Type} (x : Heap.H α) (k : α → Heap.H β) (s : Heap.Mem), (x >>= k) s = x s >>= fun r => k r.1 r.2 := fun _ _ _ => rfl
  have po : ∀ {α : Type} (a : α) (s : St), (pure a : O α) s = .ok (a, s) := fun _ _ => rfl
  have ph : ∀ {α : Type} (a : α) (s : Heap.Mem), (pure a : Heap.H α) s = .ok (a, s) := fun _ _ => rfl
  simp [calls, call, told, unused, Short.Held.empty, pick, Short.onProp, bo, po, bh, ph, Oom.propNew, Oom.strNew, Oom.malloc, Heap.malloc, Oom.propSetData,
    Oom.propSetCount, Oom.propClearData, Oom.use, Oom.freeOpt, Oom.free, onMem, Heap.use, Heap.freeOpt, Heap.free, Oom.propAddData, Oom.propDelete,
    Heap.strDelete, Heap.strClear, Oom.propRead, undef]

/-- What is missing from C125: `uecho_property_setintegerdata` returns true when it is refused memory and has done nothing. -/
theorem C125_integer_violated : told (calls [.propNew 0, .propSetInteger 0 7 4, .propRead 0] .empty ⟨⟨[], 0⟩, [false, false, true], []⟩) =
    some ([.made, .done true, .bytes []], 2) := by decide +kernel

/-- What is missing from C125: copies succeed without what could not be copied: a property without its data, a message without a property. -/
theorem C125_copies_violated :
    told (calls [.propNew 0, .propSetData 0 [1], .propCopy 0 1, .propRead 1] .empty ⟨⟨[], 0⟩, [false, false, false, false, false, true], []⟩) =
      some ([.made, .done true, .made, .bytes []], 5) ∧
    told (calls [.msgNew 0, .msgParse 0 twoProps 17, .msgCopy 0 1, .msgBytes 1] .empty
      ⟨⟨[], 0⟩, [false, false, false, false, false, false, false, true], []⟩) =
      some ([.made, .done true, .made, .bytes ([0x10, 0x81, 0, 1, 5, 0xFF, 1, 0x0E, 0xF0, 1, 0x62, 1, 0x80, 1, 0x30].map some)], 13) := by
  decide +kernel

/-- What is missing from C125: a message whose parsing was refused memory can be sent, with bytes that were never written. -/
theorem C125_bytes_violated :
    told (calls [.msgNew 0, .msgParse 0 (twoProps.take 15 ++ [1, 7]) 17, .msgBytes 0] .empty ⟨⟨[], 0⟩, [false, true], []⟩) =
      some ([.made, .done false, .bytes ((twoProps.take 12).map some ++ [none, none])], 5) := by decide +kernel

end Uecho.Props
