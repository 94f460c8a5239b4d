import Verif.Lemmas.BenchCmd
import Verif.Props.SearchCmd
/-!
# C155: what `uechobench -v` asks the nodes that were found; C152: when `uechosearch -v` ends

The benchmark walks over everything that was found as often as it is told, and asks for the properties that have to be readable.
-/
namespace Uecho.Props
open Uecho Uecho.Spec Uecho.SearchCmd Uecho.BenchCmd Uecho.Lemmas

/-- **C152** (partial: values of at most three bytes, and an end to what arrives). The listing ends, if from some request on nothing arrives. -/
theorem C152_ends_partial {e : Endian} {c : Ctrl} (hc : CtrlReach e stdDb c) (hh : HandlersSet c.node) (hp : (destObj c.node profileEoj).isSome)
    (ms : List Std.Manufacture) {w : Nat → List Arrival} (hw : ∀ k, ∀ a ∈ w k, ShortOne a.data) (hq : Quiet w) :
    ∃ s N, ∀ rounds, N ≤ rounds → SearchCmd.run e stdDb ms w rounds c = .ok (some s) := by
  obtain ⟨K, hK⟩ := hq
  obtain ⟨s, N, h⟩ := askNodes_ends stdDb_codes.1 stdDb_named ms hK hw K c.nodes.length 0 ⟨c, 0, [], []⟩ (by simp) (by simp) ⟨hc, hh, hp⟩
  exact ⟨s, N, fun rounds hr => h rounds rounds hr hr⟩

/-- **C155** (the same for the benchmark, whatever the values). It ends, if from some request on nothing arrives. -/
theorem C155_ends {e : Endian} {c : Ctrl} (hc : CtrlReach e stdDb c) (hh : HandlersSet c.node) (hp : (destObj c.node profileEoj).isSome)
    {w : Nat → List Arrival} (hq : Quiet w) (v : CInt) : ∃ b N, ∀ rounds, N ≤ rounds → BenchCmd.run e stdDb w rounds v c = .ok (some b) := by
  obtain ⟨K, hK⟩ := hq
  unfold BenchCmd.run
  by_cases hn : 0 < c.nodes.length
  · simp only [if_pos hn]
    exact passes_end stdDb_codes.1 stdDb_named hK (repeats v) ⟨⟨c, 0, [], []⟩, []⟩ ⟨hc, hh, hp⟩
  · simp only [if_neg hn]
    exact ⟨_, 0, fun _ _ => rfl⟩

/-- **C155.** The benchmark does nothing undefined, whatever arrives, and however often it is to ask. -/
theorem C155_defined {e : Endian} {c : Ctrl} (hc : CtrlReach e stdDb c) (hh : HandlersSet c.node) (hp : (destObj c.node profileEoj).isSome)
    (w : Nat → List Arrival) (rounds : Nat) (v : CInt) : ∃ r, BenchCmd.run e stdDb w rounds v c = .ok r := by
  unfold BenchCmd.run
  split
  · obtain ⟨r, h, _⟩ := passes_spec stdDb_codes.1 stdDb_named w rounds (repeats v) ⟨⟨c, 0, [], []⟩, []⟩ ⟨hc, hh, hp⟩
    exact ⟨r, h⟩
  · exact ⟨_, rfl⟩

theorem bench_asks {e : Endian} {c : Ctrl} (hc : CtrlReach e stdDb c) (hh : HandlersSet c.node) (hp : (destObj c.node profileEoj).isSome)
    (hn : c.nodes ≠ []) (w : Nat → List Arrival) (rounds : Nat) (v : CInt) {b : BSt} (h : BenchCmd.run e stdDb w rounds v c = .ok (some b)) :
    ∃ (vss : List (List (Option String × List (Byte × Byte × Byte)))) (asks : List Ask), vss.length = repeats v ∧ (∀ vs ∈ vss, Covers c b.s.c vs) ∧
      Pairs IsAsk b.s.sent asks ∧
      asks.Sublist (vss.flatMap fun vs => vs.flatMap (benchQuestions stdDb)) ∧
      asks.filter (fun a => !decide (IsMap a.epc)) =
        (vss.flatMap fun vs => vs.flatMap (benchQuestions stdDb)).filter (fun a => !decide (IsMap a.epc)) ∧
      Pairs (IsTold stdDb) (b.s.out.filter fun l => (objectLine l).isNone) asks ∧
      b.s.out.filterMap objectLine = (vss.flatMap fun vs => vs.flatMap (·.2)).map (fun x => BitVec.ofNat 32 (eojNat x)) ∧
      b.heads = vss.flatMap fun vs => vs.map (·.1) := by
  unfold BenchCmd.run at h
  rw [if_pos (List.length_pos_iff.2 hn)] at h
  obtain ⟨r, k1, k2⟩ := passes_spec stdDb_codes.1 stdDb_named w rounds (repeats v) ⟨⟨c, 0, [], []⟩, []⟩ ⟨hc, hh, hp⟩
  rw [k1, Res.ok.injEq] at h
  obtain ⟨vss, asks, h1, h2, ⟨_, sent, out, h3, h4, h5, h6, h7⟩, ⟨m1, m2⟩, h8⟩ := k2 b h
  simp only [List.nil_append] at h3 h4 h8
  rw [h3, h4]
  exact ⟨vss, asks, h1, h2, h5, m1, m2, h6, h7, h8⟩

/-- **C155** (partial: of the property maps, whose attributes a controller changes, only that nothing else is asked; counts that are not
negative; the printed values are in `C155_values`). If the benchmark with count `v` ends, whatever arrived meanwhile, it walked `v` times over all that
was found: each time it sent to each node, in their order, Get requests of one property each, one for each property that the standard requires to
be readable of each of its objects, in their order. The nodes and objects are at least those known at the start, at the same places, and none that
is not known at the end. The address of every node was printed, the code of every object, and a line for every request, with the code and the name
of the property in the standard. -/
theorem C155_asks_partial {e : Endian} {c : Ctrl} (hc : CtrlReach e stdDb c) (hh : HandlersSet c.node) (hp : (destObj c.node profileEoj).isSome)
    (hn : c.nodes ≠ []) (w : Nat → List Arrival) (rounds : Nat) {v : CInt} (hv : 0 ≤ v.toInt) {b : BSt}
    (h : BenchCmd.run e stdDb w rounds v c = .ok (some b)) :
    ∃ (vss : List (List (Option String × List (Byte × Byte × Byte)))) (asks : List Ask), vss.length = v.toInt ∧ (∀ vs ∈ vss, Covers c b.s.c vs) ∧
      Pairs IsAsk b.s.sent asks ∧
      asks.Sublist (vss.flatMap fun vs => vs.flatMap (benchQuestions stdDb)) ∧
      asks.filter (fun a => !decide (IsMap a.epc)) =
        (vss.flatMap fun vs => vs.flatMap (benchQuestions stdDb)).filter (fun a => !decide (IsMap a.epc)) ∧
      Pairs (IsTold stdDb) (b.s.out.filter fun l => (objectLine l).isNone) asks ∧
      b.s.out.filterMap objectLine = (vss.flatMap fun vs => vs.flatMap (·.2)).map (fun x => BitVec.ofNat 32 (eojNat x)) ∧
      b.heads = vss.flatMap fun vs => vs.map (·.1) := by
  obtain ⟨vss, asks, h1, h2⟩ := bench_asks hc hh hp hn w rounds v h
  exact ⟨vss, asks, by rw [h1, repeats_of_nonneg hv]; omega, h2⟩

/-- **C155** (nobody there). If nothing was found, nothing is sent. -/
theorem C155_nobody (e : Endian) (c : Ctrl) (hn : c.nodes = []) (w : Nat → List Arrival) (rounds : Nat) (v : CInt) :
    ∃ b, BenchCmd.run e stdDb w rounds v c = .ok (some b) ∧ b.s.sent = [] ∧ b.s.out = [] ∧ b.heads = [] := by
  unfold BenchCmd.run
  rw [hn]
  exact ⟨_, rfl, rfl, rfl, rfl⟩

/-! ## the controller that found an illuminance sensor -/

/-- the properties asked for, and the addresses printed, when it walks `v` times and nothing arrives -/
def bSeen (v : CInt) : Option (List (CInt × List Byte) × List (Option String)) :=
  match fStart with
  | .ub => none
  | .ok (n, _) => match fRecv n with
    | .ub => none
    | .ok (c, _) =>
      if c.node.objs.all (fun o => o.observers.all (·.handler.isSome)) && (destObj c.node profileEoj).isSome &&
          c.nodes.any (fun n => (eojs n).contains (0x00, 0xD0, 0x01)) then
        match BenchCmd.run .little stdDb (fun _ => []) 40 v c with
        | .ok (some b) => some (b.s.out.filterMap (fun l => match l with
            | .object 1 k _ => some (k, [])
            | .property 1 _ k _ _ => some (0, [k])
            | _ => none), b.heads)
        | _ => none
      else none

set_option synthInstance.maxSize 4096 in
theorem bSeen_two : bSeen 2#32 = some (
    [(0x00D001, []), (0, [0x80]), (0, [0x81]), (0, [0x82]), (0, [0x88]), (0, [0x8A]), (0, [0x9D]), (0, [0x9F]),
      (0x00D001, []), (0, [0x80]), (0, [0x81]), (0, [0x82]), (0, [0x88]), (0, [0x8A]), (0, [0x9D]), (0, [0x9F])],
    [some "10.0.0.2", some "10.0.0.2"]) := by decide +kernel

/-- the controller meets the hypotheses -/
theorem bSeen_ctrl {v : CInt} {r} (h : bSeen v = some r) : ∃ c b, CtrlReach .little stdDb c ∧ HandlersSet c.node ∧ (destObj c.node profileEoj).isSome ∧
    (∃ n ∈ c.nodes, (0x00, 0xD0, 0x01) ∈ eojs n) ∧ BenchCmd.run .little stdDb (fun _ => []) 40 v c = .ok (some b) ∧
    r = (b.s.out.filterMap (fun l => match l with
            | .object 1 k _ => some (k, [])
            | .property 1 _ k _ _ => some (0, [k])
            | _ => none), b.heads) := by
  unfold bSeen at h
  cases h1 : fStart with
  | ub => rw [h1] at h; cases h
  | ok x =>
    obtain ⟨n, eff⟩ := x
    rw [h1] at h
    simp only at h
    cases h2 : fRecv n with
    | ub => rw [h2] at h; cases h
    | ok x =>
      obtain ⟨c, h', ev⟩ := x
      rw [h2] at h
      simp only at h
      by_cases hb : (c.node.objs.all (fun o => o.observers.all (·.handler.isSome)) && (destObj c.node profileEoj).isSome &&
          c.nodes.any (fun n => (eojs n).contains (0x00, 0xD0, 0x01))) = true
      · rw [if_pos hb] at h
        rw [Bool.and_eq_true, Bool.and_eq_true, List.all_eq_true, List.any_eq_true] at hb
        cases h3 : BenchCmd.run .little stdDb (fun _ => []) 40 v c with
        | ub => rw [h3] at h; cases h
        | ok y =>
          rw [h3] at h
          cases y with
          | none => cases h
          | some b =>
            refine ⟨c, b, .receive kOrc none "10.0.0.2" _ (.new none (.new _ _ _ h1)) h2, ?_, hb.1.2, ?_, h3, (Option.some.inj h).symm⟩
            · intro o ho x hx
              have := hb.1.1 o ho
              rw [List.all_eq_true] at this
              intro hn
              have := this x hx
              rw [hn] at this
              cases this
            · obtain ⟨n, k1, k2⟩ := hb.2
              exact ⟨n, k1, by simpa using k2⟩
      · rw [if_neg hb] at h; cases h

/-- **C155 violated: the maps.** The benchmark does not ask an illuminance sensor for the map of the properties that can be written, which every
object has to have. -/
theorem C155_maps_violated : ∃ c b, CtrlReach .little stdDb c ∧ HandlersSet c.node ∧ (destObj c.node profileEoj).isSome ∧
    BenchCmd.run .little stdDb (fun _ => []) 40 2#32 c = .ok (some b) ∧ (0x9E : Byte) ∈ requiredOf stdDb (0x00, 0xD0, 0x01) ∧
    (∃ nm, Line.object 1 (BitVec.ofNat 32 (eojNat (0x00, 0xD0, 0x01))) nm ∈ b.s.out) ∧ ∀ l d nm, Line.property 1 l 0x9E d nm ∉ b.s.out := by
  obtain ⟨c, b, h1, h2, h3, _, h4, h5⟩ := bSeen_ctrl bSeen_two
  simp only [Prod.mk.injEq] at h5
  obtain ⟨e1, _⟩ := h5
  refine ⟨c, b, h1, h2, h3, h4, by decide +kernel, ?_, fun l d nm hl => ?_⟩
  · have : ((0x00D001 : CInt), ([] : List Byte)) ∈ b.s.out.filterMap (fun l => match l with
            | .object 1 k _ => some (k, [])
            | .property 1 _ k _ _ => some (0, [k])
            | _ => none) := by rw [← e1]; simp
    obtain ⟨l, hl, hx⟩ := List.mem_filterMap.1 this
    split at hx
    · simp only [Option.some.injEq, Prod.mk.injEq] at hx
      obtain ⟨rfl, _⟩ := hx
      exact ⟨_, hl⟩
    · simp at hx
    · cases hx
  · have : ((0 : CInt), ([0x9E] : List Byte)) ∈ b.s.out.filterMap (fun l => match l with
            | .object 1 k _ => some (k, [])
            | .property 1 _ k _ _ => some (0, [k])
            | _ => none) := List.mem_filterMap.2 ⟨_, hl, rfl⟩
    rw [← e1] at this
    revert this
    decide

theorem pairs_length {α β : Type} {r : α → β → Prop} {xs : List α} {as : List β} (h : Pairs r xs as) : xs.length = as.length := by
  induction h with
  | nil => rfl
  | cons _ _ ih => simp [ih]

/-- **C155 violated: negative counts.** A negative count is not rejected and not taken for zero. When a sensor was found, the benchmark ends, if at
all, after more than 2^63 requests. -/
theorem C155_negative_violated : ∃ c, CtrlReach .little stdDb c ∧ HandlersSet c.node ∧ (destObj c.node profileEoj).isSome ∧
    ∀ (v : CInt), v.toInt < 0 → ∀ w rounds b, BenchCmd.run .little stdDb w rounds v c = .ok (some b) → 2 ^ 63 < b.s.sent.length := by
  obtain ⟨c, _, h1, h2, h3, ⟨n, hn, hx⟩, _⟩ := bSeen_ctrl bSeen_two
  refine ⟨c, h1, h2, h3, fun v hv w rounds b h => ?_⟩
  obtain ⟨vss, asks, k1, k2, k3, _, k4, _⟩ := bench_asks h1 h2 h3 (List.ne_nil_of_mem hn) w rounds v h
  rw [pairs_length k3]
  obtain ⟨i, hi⟩ := List.getElem?_of_mem hn
  have hflat : ∀ vss : List (List (Option String × List (Byte × Byte × Byte))), (∀ vs ∈ vss, Covers c b.s.c vs) →
      vss.length ≤ ((vss.flatMap fun vs => vs.flatMap (benchQuestions stdDb)).filter (fun a => !decide (IsMap a.epc))).length := by
    intro vss
    induction vss with
    | nil => simp
    | cons vs vss ih =>
      intro hc
      rw [flat_one, List.filter_append, List.length_append, List.length_cons]
      have h0 := ih fun v hv => hc v (List.mem_cons_of_mem _ hv)
      obtain ⟨os, g1, g2⟩ := (hc vs (by simp)).1 i n hi
      have : (⟨n.address, (0x00, 0xD0, 0x01), 0x80⟩ : Ask) ∈ (vs.flatMap (benchQuestions stdDb)).filter (fun a => !decide (IsMap a.epc)) := by
        refine List.mem_filter.2 ⟨List.mem_flatMap.2 ⟨_, List.mem_of_getElem? g1, ?_⟩, (by decide : (!decide (IsMap (0x80 : Byte))) = true)⟩
        unfold benchQuestions
        exact List.mem_flatMap.2 ⟨_, g2.subset hx, List.mem_map.2 ⟨0x80, by decide +kernel, rfl⟩⟩
      have := List.length_pos_of_mem this
      omega
  have h5 := hflat vss k2
  rw [← k4] at h5
  have h6 := List.length_filter_le (fun a : Ask => !decide (IsMap a.epc)) asks
  have h7 := repeats_of_neg hv
  have h8 : - 2 ^ 31 ≤ v.toInt := BitVec.le_toInt v
  omega

/-- non-vacuity of the theorems above: the controller just shown, told to walk twice; nothing arrives -/
example : ∃ c b, CtrlReach .little stdDb c ∧ HandlersSet c.node ∧ (destObj c.node profileEoj).isSome ∧ c.nodes ≠ [] ∧
    Quiet (fun _ => []) ∧ (0 : Int) ≤ (2#32 : CInt).toInt ∧ BenchCmd.run .little stdDb (fun _ => []) 40 2#32 c = .ok (some b) ∧
    b.heads = [some "10.0.0.2", some "10.0.0.2"] := by
  obtain ⟨c, b, h1, h2, h3, ⟨n, hn, _⟩, h4, h5⟩ := bSeen_ctrl bSeen_two
  simp only [Prod.mk.injEq] at h5
  exact ⟨c, b, h1, h2, h3, List.ne_nil_of_mem hn, ⟨0, fun _ _ => rfl⟩, by decide, h4, h5.2.symm⟩

/-- non-vacuity of `C152_ends_partial`: the answers of the sensor above, which end with the first request -/
example : Quiet (sArrive [0, 0, 11]) := ⟨1, fun k hk => by unfold sArrive; rw [if_neg (by omega)]⟩

end Uecho.Props
