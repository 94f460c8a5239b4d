import Verif.Lemmas.SearchCmd
/-!
# C152: what `uechosearch -v` asks the nodes that were found

The command prints, for every node that was found, its manufacturer, and for every object the properties that have to be readable: it asks for
each of them.
-/
namespace Uecho.Props
open Uecho Uecho.Spec Uecho.SearchCmd Uecho.Lemmas

theorem stdDb_named : Named stdDb := by
  have hcl : ∀ g k, ∀ q ∈ classProps stdDb g k, q.name ≠ none := by
    intro g k q hq
    unfold classProps at hq
    split at hq
    · cases hq
    · rename_i d hd; exact (stdDb_codes.2 d (List.mem_of_find?_eq_some hd)).2 q hq
  intro g c q hq
  unfold standardProps at hq
  rcases List.mem_append.1 hq with hq | hq
  · exact hcl _ _ q hq
  · exact hcl _ _ q (List.mem_filter.1 hq).1

/-- **C152** (partial: of the property maps, whose attributes a controller changes, only that nothing else is asked; the printed values
are in `C152_values`). If the command ends, whatever arrived meanwhile, it sent Get requests, one property each: to each node, in their order, one for its
manufacturer, and one for each property that the standard requires to be readable of each of its objects, in their order. The nodes and objects
are those known at the start, at the same places, and none that is not known at the end. A line was printed for every request, with the code and
the name of the property in the standard, and one for every object, with its code. -/
theorem C152_asks_partial {e : Endian} {c : Ctrl} (hc : CtrlReach e stdDb c) (hh : HandlersSet c.node) (hp : (destObj c.node profileEoj).isSome)
    (ms : List Std.Manufacture) (w : Nat → List Arrival) (rounds : Nat) {s : St} (h : run e stdDb ms w rounds c = .ok (some s)) :
    ∃ asks vs, Between c s.c vs ∧ Pairs IsAsk s.sent asks ∧
      asks.Sublist (vs.flatMap (questions stdDb)) ∧
      asks.filter (fun a => !decide (IsMap a.epc)) = (vs.flatMap (questions stdDb)).filter (fun a => !decide (IsMap a.epc)) ∧
      Pairs (IsTold stdDb) (s.out.filter fun l => (objectLine l).isNone) asks ∧
      s.out.filterMap objectLine = (vs.flatMap (·.2)).map fun x => BitVec.ofNat 32 (eojNat x) := by
  obtain ⟨_, vs, asks, ⟨_, sent, out, h1, h2, h3, h4, h5⟩, ⟨m1, m2⟩, v1, v2, v3⟩ :=
    (askNodes_spec (q := False) stdDb_codes.1 stdDb_named ms (w := w) (fun h => h.elim) rounds rounds 0 ⟨c, 0, [], []⟩ ⟨hc, hh, hp⟩).2 s h
  simp only [List.nil_append] at h1 h2
  simp only [Nat.zero_add] at v2 v3
  rw [h1, h2]
  exact ⟨asks, vs, ⟨by simpa using v1, v2, v3⟩, h3, m1, m2, h4, h5⟩

/-- **C152** (partial: values of at most three bytes). The command does nothing undefined, as long as no frame with one property that arrives has
a value of more than three bytes. -/
theorem C152_defined_partial {e : Endian} {c : Ctrl} (hc : CtrlReach e stdDb c) (hh : HandlersSet c.node) (hp : (destObj c.node profileEoj).isSome)
    (ms : List Std.Manufacture) (w : Nat → List Arrival) (hw : ∀ k, ∀ a ∈ w k, ShortOne a.data) (rounds : Nat) :
    ∃ r, run e stdDb ms w rounds c = .ok r :=
  (askNodes_spec (q := True) stdDb_codes.1 stdDb_named ms (w := w) (fun _ => hw) rounds rounds 0 ⟨c, 0, [], []⟩ ⟨hc, hh, hp⟩).1 trivial

/-- **C152** (one node). Once the manufacturer was asked, listing the objects of a node does nothing undefined, whatever arrives: in particular no
property without a name is printed. -/
theorem C152_objects_defined {e : Endian} {s : St} (hc : CtrlReach e stdDb s.c) (hh : HandlersSet s.c.node) (hp : (destObj s.c.node profileEoj).isSome)
    (w : Nat → List Arrival) (i : Nat) (hi : i < s.c.nodes.length) (rounds fuel j : Nat) : ∃ r, askObjs e stdDb w rounds fuel i j s = .ok r := by
  obtain ⟨a, ha⟩ := Option.ne_none_iff_exists'.1 ((reach_cinv hc).addr s.c.nodes[i] (List.getElem_mem hi))
  obtain ⟨r, h, _⟩ := askObjs_spec stdDb_codes.1 stdDb_named w rounds i a fuel j s ⟨hc, hh, hp⟩ ⟨_, List.getElem?_eq_getElem hi, ha⟩
  exact ⟨r, h⟩

/-! ## the controller that found an illuminance sensor -/

/-- an answer to the first request: a manufacturer code of `v` -/
def sAnswer (v : List Byte) : Arrival :=
  ⟨kOrc, none, "10.0.0.2", encode ⟨(1, 0), (0x0E, 0xF0, 0x01), (0x0E, 0xF0, 0x01), 0x72, .plain [(0x8A, v)]⟩⟩
def sArrive (v : List Byte) (k : Nat) : List Arrival := if k = 0 then [sAnswer v] else []
/-- the properties asked for, of the sensor and of the node; the printed manufacturer -/
def sSeen (v : List Byte) : Option (Option (List Byte × List (Option String × Option String) × List (Nat × CInt))) :=
  match fStart with
  | .ub => none
  | .ok (n, _) => match fRecv n with
    | .ub => none
    | .ok (c, _) =>
      if c.node.objs.all (fun o => o.observers.all (·.handler.isSome)) && (destObj c.node profileEoj).isSome then
        match run .little stdDb Std.manufacturers (sArrive v) 40 c with
        | .ok (some s) => some (some (s.out.filterMap fun l => match l with | .property 1 _ k _ _ => some k | _ => none,
            s.out.filterMap (fun l => match l with | .node a m => some (a, m) | _ => none),
            s.out.filterMap (fun l => match l with | .object j k _ => some (j, k) | _ => none)))
        | .ok none => none
        | .ub => some none
      else none

set_option synthInstance.maxSize 4096 in
theorem sSeen_long : sSeen [0, 0, 11, 0, 0] = some none := by decide +kernel
set_option synthInstance.maxSize 4096 in
theorem sSeen_short : sSeen [0, 0, 11] = some (some ([0x80, 0x81, 0x82, 0x88, 0x8A, 0x9D, 0x9F],
    [(some "10.0.0.2", some "Panasonic Holdings Corporation")], [(0, 0x0EF001), (1, 0x00D001), (2, 0x050101)])) := by decide +kernel

/-- the controller meets the hypotheses -/
theorem sSeen_ctrl {v : List Byte} {r} (h : sSeen v = some r) : ∃ c, CtrlReach .little stdDb c ∧ HandlersSet c.node ∧ (destObj c.node profileEoj).isSome ∧
    (r = none → run .little stdDb Std.manufacturers (sArrive v) 40 c = .ub) ∧
    (r ≠ none → ∃ s, run .little stdDb Std.manufacturers (sArrive v) 40 c = .ok (some s) ∧
      r = some (s.out.filterMap fun l => match l with | .property 1 _ k _ _ => some k | _ => none,
        s.out.filterMap (fun l => match l with | .node a m => some (a, m) | _ => none),
            s.out.filterMap (fun l => match l with | .object j k _ => some (j, k) | _ => none))) := by
  unfold sSeen at h
  cases h1 : fStart with
  | ub => rw [h1] at h; cases h
  | ok x =>
    obtain ⟨n, eff⟩ := x
    rw [h1] at h
    simp only at h
    cases h2 : fRecv n with
    | ub => rw [h2] at h; cases h
    | ok x =>
      obtain ⟨c, h', ev⟩ := x
      rw [h2] at h
      simp only at h
      by_cases hb : (c.node.objs.all (fun o => o.observers.all (·.handler.isSome)) && (destObj c.node profileEoj).isSome) = true
      · rw [if_pos hb] at h
        rw [Bool.and_eq_true, List.all_eq_true] at hb
        refine ⟨c, .receive kOrc none "10.0.0.2" _ (.new none (.new _ _ _ h1)) h2, ?_, hb.2, ?_⟩
        · intro o ho x hx
          have := hb.1 o ho
          rw [List.all_eq_true] at this
          intro hn
          have := this x hx
          rw [hn] at this
          cases this
        · cases h3 : run .little stdDb Std.manufacturers (sArrive v) 40 c with
          | ub =>
            rw [h3] at h
            simp only [Option.some.injEq] at h
            exact ⟨fun _ => rfl, fun hr => absurd h.symm hr⟩
          | ok y =>
            rw [h3] at h
            cases y with
            | none => cases h
            | some s =>
              simp only [Option.some.injEq] at h
              exact ⟨fun hr => (by rw [hr] at h; cases h), fun _ => ⟨s, rfl, h.symm⟩⟩
      · rw [if_neg hb] at h; cases h

/-- **C152 violated: long manufacturer codes.** A device that answers the question for its manufacturer with five bytes makes the command do
something undefined: it shifts by 32 bits. -/
theorem C152_maker_violated : ∃ c w, CtrlReach .little stdDb c ∧ HandlersSet c.node ∧ (destObj c.node profileEoj).isSome ∧
    (∀ k, (w k).length ≤ 1) ∧ run .little stdDb Std.manufacturers w 40 c = .ub := by
  obtain ⟨c, h1, h2, h3, h4, _⟩ := sSeen_ctrl sSeen_long
  exact ⟨c, _, h1, h2, h3, fun k => by unfold sArrive; split <;> simp, h4 rfl⟩

/-- **C152 violated: the maps.** The command lists an illuminance sensor without the map of the properties that can be written, which every object
has to have. -/
theorem C152_maps_violated : ∃ c w s, CtrlReach .little stdDb c ∧ HandlersSet c.node ∧ (destObj c.node profileEoj).isSome ∧
    run .little stdDb Std.manufacturers w 40 c = .ok (some s) ∧ (0x9E : Byte) ∈ requiredOf stdDb (0x00, 0xD0, 0x01) ∧
    (∃ nm, Line.object 1 (BitVec.ofNat 32 (eojNat (0x00, 0xD0, 0x01))) nm ∈ s.out) ∧ ∀ l d nm, Line.property 1 l 0x9E d nm ∉ s.out := by
  obtain ⟨c, h1, h2, h3, _, h5⟩ := sSeen_ctrl sSeen_short
  obtain ⟨s, k1, k2⟩ := h5 (by simp)
  simp only [Option.some.injEq, Prod.mk.injEq] at k2
  obtain ⟨e1, _, e3⟩ := k2
  refine ⟨c, _, s, h1, h2, h3, k1, by decide +kernel, ?_, fun l d nm hl => ?_⟩
  · have : (1, 0x00D001#32) ∈ [((0 : Nat), 0x0EF001#32), (1, 0x00D001#32), (2, 0x050101#32)] := by simp
    rw [show [((0 : Nat), 0x0EF001#32), (1, 0x00D001#32), (2, 0x050101#32)] = _ from e3, List.mem_filterMap] at this
    obtain ⟨l, hl, hx⟩ := this
    split at hx
    · simp only [Option.some.injEq, Prod.mk.injEq] at hx
      obtain ⟨rfl, rfl⟩ := hx
      exact ⟨_, hl⟩
    · cases hx
  · have : (0x9E : Byte) ∈ ([0x80, 0x81, 0x82, 0x88, 0x8A, 0x9D, 0x9F] : List Byte) := by
      rw [e1]; exact List.mem_filterMap.2 ⟨_, hl, rfl⟩
    revert this
    decide

/-- non-vacuity of the theorems above: the controller just shown, a manufacturer code of three bytes; seven properties of the sensor -/
example : ∃ c s, CtrlReach .little stdDb c ∧ HandlersSet c.node ∧ (destObj c.node profileEoj).isSome ∧
    (∀ k, ∀ a ∈ sArrive [0, 0, 11] k, ShortOne a.data) ∧ run .little stdDb Std.manufacturers (sArrive [0, 0, 11]) 40 c = .ok (some s) ∧
    (s.out.filterMap fun l => match l with | .property 1 _ k _ _ => some k | _ => none) = [0x80, 0x81, 0x82, 0x88, 0x8A, 0x9D, 0x9F] := by
  obtain ⟨c, h1, h2, h3, _, h5⟩ := sSeen_ctrl sSeen_short
  obtain ⟨s, k1, k2⟩ := h5 (by simp)
  simp only [Option.some.injEq, Prod.mk.injEq] at k2
  refine ⟨c, s, h1, h2, h3, fun k a ha => ?_, k1, k2.1.symm⟩
  unfold sArrive at ha
  split at ha
  · rw [List.mem_singleton] at ha
    subst ha
    intro f rest k v hf hd hb
    have h0 : (decode (sAnswer [0, 0, 11]).data).map (fun x => x.1.body) = some (.plain [(0x8A, [0, 0, 11])]) := by decide +kernel
    rw [hd, decode_complete hf, Option.map_some, hb] at h0
    simp only [Option.some.injEq, Body.plain.injEq, List.cons.injEq, Prod.mk.injEq, and_true] at h0
    rw [h0.2]; decide
  · cases ha

end Uecho.Props
