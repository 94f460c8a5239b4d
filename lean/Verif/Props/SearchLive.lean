import Verif.Lemmas.SearchLive
import Verif.Props.SearchVals
/-!
# C152, C155: `uechosearch -v` and `uechobench -v` show the values of the devices that answer
-/
namespace Uecho.Props
open Uecho Uecho.Spec Uecho.SearchCmd Uecho.BenchCmd Uecho.Lemmas

/-- **C152** (devices that answer). If the command ends, and its `k`-th request, for a property of an object, is handed to a node that has this property
with the value `d` and does not refuse to tell it, then the node answers and stays as it is; the `k`-th line is about this property; and if the answer is
the last one that arrives in time, whatever else arrives, the line shows the value `d`. -/
theorem C152_live {e e2 : Endian} {c : Ctrl} (hc : CtrlReach e stdDb c) (hh : HandlersSet c.node) (hp : (destObj c.node profileEoj).isSome)
    (ms : List Std.Manufacture) (w : Nat → List Arrival) (rounds : Nat) {s : St} (h : SearchCmd.run e stdDb ms w rounds c = .ok (some s))
    {k : Nat} {a : Option String} {t : Byte × Byte} {x : Byte × Byte × Byte} {epc : Byte} (hy : s.sent[k]? = some (.node (sends a (getRequest t x epc))))
    {n : Node} {hs : List Observer} {d : List Byte} (hn : HandlersSet n) (hold : Holds n x hs epc d)
    (hacc : ∀ p, accepts hs 0x62 epc p [] = true) (hd : d.length ≤ 255) (loc : Option String) (b : String) :
    ∃ eff ln, n.receive e2 loc (some b) (encode (getRequest t x epc)) = .ok (n, eff) ∧
      (s.out.filter fun l => (objectLine l).isNone)[k]? = some ln ∧ IsTold stdDb ln ⟨a, x, epc⟩ ∧
      ∀ xs z ys, w k = xs ++ z :: ys → .send (some b) (z.data.map some) ∈ eff → (∀ y ∈ ys, ∀ g, ¬ AnswersGet t y g) → ShowsValue ms d ln := by
  obtain ⟨eff, he, hsent⟩ := get_answer (e := e2) t hn hold hacc loc b
  obtain ⟨asks, vs, _, hp1, _, _, hp2, _⟩ := C152_asks_partial hc hh hp ms w rounds h
  obtain ⟨hlen, hval⟩ := C152_values hc hh hp ms w rounds h
  have hk : k < (s.out.filter fun l => (objectLine l).isNone).length := by
    rw [hlen]; exact (List.getElem?_eq_some_iff.1 hy).1
  have hln := List.getElem?_eq_getElem hk
  refine ⟨eff, _, he, hln, told_get hp1 hp2 hy hln, fun xs z ys h1 h2 h3 => ?_⟩
  exact shows_live (hval k _ _ hy hln) hd hsent h1 h2 h3

/-- **C155** (devices that answer). The same for the benchmark. -/
theorem C155_live {e e2 : Endian} {c : Ctrl} (hc : CtrlReach e stdDb c) (hh : HandlersSet c.node) (hp : (destObj c.node profileEoj).isSome)
    (w : Nat → List Arrival) (rounds : Nat) (v : CInt) {bs : BSt} (h : BenchCmd.run e stdDb w rounds v c = .ok (some bs))
    {k : Nat} {a : Option String} {t : Byte × Byte} {x : Byte × Byte × Byte} {epc : Byte} (hy : bs.s.sent[k]? = some (.node (sends a (getRequest t x epc))))
    {n : Node} {hs : List Observer} {d : List Byte} (hn : HandlersSet n) (hold : Holds n x hs epc d)
    (hacc : ∀ p, accepts hs 0x62 epc p [] = true) (hd : d.length ≤ 255) (loc : Option String) (b : String) :
    ∃ eff ln, n.receive e2 loc (some b) (encode (getRequest t x epc)) = .ok (n, eff) ∧
      (bs.s.out.filter fun l => (objectLine l).isNone)[k]? = some ln ∧ IsTold stdDb ln ⟨a, x, epc⟩ ∧
      ∀ xs z ys, w k = xs ++ z :: ys → .send (some b) (z.data.map some) ∈ eff → (∀ y ∈ ys, ∀ g, ¬ AnswersGet t y g) → ShowsValue [] d ln := by
  obtain ⟨eff, he, hsent⟩ := get_answer (e := e2) t hn hold hacc loc b
  by_cases hne : c.nodes = []
  · obtain ⟨b', k1, k2, _⟩ := C155_nobody e c hne w rounds v
    rw [h] at k1; cases k1
    rw [k2] at hy; cases hy
  obtain ⟨vss, asks, _, _, hp1, _, _, hp2, _⟩ := bench_asks hc hh hp hne w rounds v h
  obtain ⟨hlen, hval⟩ := C155_values hc hh hp w rounds v h
  have hk : k < (bs.s.out.filter fun l => (objectLine l).isNone).length := by
    rw [hlen]; exact (List.getElem?_eq_some_iff.1 hy).1
  have hln := List.getElem?_eq_getElem hk
  refine ⟨eff, _, he, hln, told_get hp1 hp2 hy hln, fun xs z ys h1 h2 h3 => ?_⟩
  exact shows_live (hval k _ _ hy hln) hd hsent h1 h2 h3

/-- a node whose profile names its manufacturer -/
def lNode : Node :=
  { objs := [{ Obj.new with grp := 0x0E, cls := 0xF0, ins := 0x01, props := [{ Property.new with code := 0x8A, data := [0, 0, 11] }], hasNode := true }],
    classes := [], lastTid := 0, address := none, bound := [], hasListener := false }

/-- non-vacuity: the first request of the command in `sSeen_ctrl`, to which this node answers as in `sAnswer` -/
example : (match fStart with
    | .ub => false
    | .ok (n, _) => match fRecv n with
      | .ub => false
      | .ok (c, _) => match SearchCmd.run .little stdDb Std.manufacturers (sArrive [0, 0, 11]) 40 c with
        | .ok (some s) => decide (s.sent[0]? = some (.node (sends (some "10.0.0.2") (getRequest (1, 0) profileEoj 0x8A))))
        | _ => false) = true := by decide +kernel
example : HandlersSet lNode ∧ Holds lNode profileEoj [] 0x8A [0, 0, 11] ∧ (∀ p, accepts [] 0x62 0x8A p [] = true) ∧
    sArrive [0, 0, 11] 0 = [] ++ sAnswer [0, 0, 11] :: [] ∧
    ∃ eff, lNode.receive .big none (some "10.0.0.9") (encode (getRequest (1, 0) profileEoj 0x8A)) = .ok (lNode, eff) ∧
      .send (some "10.0.0.9") ((sAnswer [0, 0, 11]).data.map some) ∈ eff := by
  have hn : HandlersSet lNode := by intro o ho x hx; simp only [lNode, List.mem_singleton] at ho; subst ho; cases hx
  have hh : Holds lNode profileEoj [] 0x8A [0, 0, 11] := ⟨_, _, rfl, rfl, rfl, rfl, rfl⟩
  obtain ⟨eff, h1, h2⟩ := get_answer (e := .big) (1, 0) hn hh (fun _ => rfl) none "10.0.0.9"
  refine ⟨hn, hh, fun _ => rfl, rfl, eff, h1, ?_⟩
  have : sends (some "10.0.0.9") ⟨(1, 0), profileEoj, profileEoj, 0x72, .plain [(0x8A, [0, 0, 11])]⟩ ∈ sentTo "10.0.0.9" eff := by rw [h2]; simp
  exact (List.mem_filter.1 this).1

end Uecho.Props
