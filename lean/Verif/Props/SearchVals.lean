import Verif.Lemmas.SearchVals
import Verif.Props.BenchCmd
/-!
# C152, C155: the values that `uechosearch -v` and `uechobench -v` print
-/
namespace Uecho.Props
open Uecho Uecho.Spec Uecho.SearchCmd Uecho.BenchCmd Uecho.Lemmas

/-- **C152** (the values). If the command ends, the lines about requests are as many as the requests, and each says what the last answer to its
request says that arrived in time, an answer being a frame with the same TID and another ESV: the values of the properties of the answer, or, for a
manufacturer, the name in the list; and nothing if there was no answer. -/
theorem C152_values {e : Endian} {c : Ctrl} (hc : CtrlReach e stdDb c) (hh : HandlersSet c.node) (hp : (destObj c.node profileEoj).isSome)
    (ms : List Std.Manufacture) (w : Nat → List Arrival) (rounds : Nat) {s : St} (h : SearchCmd.run e stdDb ms w rounds c = .ok (some s)) :
    (s.out.filter fun l => (objectLine l).isNone).length = s.sent.length ∧
    ∀ (k : Nat) y ln, s.sent[k]? = some y → (s.out.filter fun l => (objectLine l).isNone)[k]? = some ln → ValueOf ms (w k) y ln := by
  obtain ⟨h1, h2, h3⟩ := askNodes_honest stdDb_codes.1 stdDb_named ms w rounds rounds 0 ⟨c, 0, [], []⟩ s ⟨hc, hh, hp⟩ ⟨rfl, rfl, by simp⟩ h
  exact ⟨h2.trans h1.symm, h3⟩

/-- **C155** (the values). The same for the benchmark. -/
theorem C155_values {e : Endian} {c : Ctrl} (hc : CtrlReach e stdDb c) (hh : HandlersSet c.node) (hp : (destObj c.node profileEoj).isSome)
    (w : Nat → List Arrival) (rounds : Nat) (v : CInt) {b : BSt} (h : BenchCmd.run e stdDb w rounds v c = .ok (some b)) :
    (b.s.out.filter fun l => (objectLine l).isNone).length = b.s.sent.length ∧
    ∀ (k : Nat) y ln, b.s.sent[k]? = some y → (b.s.out.filter fun l => (objectLine l).isNone)[k]? = some ln → ValueOf [] (w k) y ln := by
  have hi : Honest [] w (⟨c, 0, [], []⟩ : St) := ⟨rfl, rfl, by simp⟩
  suffices hs : Honest [] w b.s from ⟨hs.2.1.trans hs.1.symm, hs.2.2⟩
  unfold BenchCmd.run at h
  split at h
  · exact passes_honest stdDb_codes.1 stdDb_named [] w rounds (repeats v) ⟨⟨c, 0, [], []⟩, []⟩ b ⟨hc, hh, hp⟩ hi h
  · cases h; exact hi

/-- non-vacuity: the sensor of C152 answers the first request, for its manufacturer, whose name is printed -/
example : ∃ c s, CtrlReach .little stdDb c ∧ HandlersSet c.node ∧ (destObj c.node profileEoj).isSome ∧
    SearchCmd.run .little stdDb Std.manufacturers (sArrive [0, 0, 11]) 40 c = .ok (some s) ∧
    Line.node (some "10.0.0.2") (some "Panasonic Holdings Corporation") ∈ s.out := by
  obtain ⟨c, h1, h2, h3, _, h5⟩ := sSeen_ctrl sSeen_short
  obtain ⟨s, k1, k2⟩ := h5 (by simp)
  simp only [Option.some.injEq, Prod.mk.injEq] at k2
  refine ⟨c, s, h1, h2, h3, k1, ?_⟩
  have : (some "10.0.0.2", some "Panasonic Holdings Corporation") ∈ [(some "10.0.0.2", some "Panasonic Holdings Corporation")] := by simp
  rw [show [(some "10.0.0.2", some "Panasonic Holdings Corporation")] = _ from k2.2.1] at this
  obtain ⟨l, hl, hx⟩ := List.mem_filterMap.1 this
  split at hx
  · simp only [Option.some.injEq, Prod.mk.injEq] at hx
    obtain ⟨rfl, rfl⟩ := hx
    exact hl
  · cases hx

end Uecho.Props
