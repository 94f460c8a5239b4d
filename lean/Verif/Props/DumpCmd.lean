import Verif.Lemmas.DumpCmd
/-!
# C157: what `uechodump` prints

Specification: `Spec.DumpCmd`: how a line is read, and which keys ask for what.
-/
namespace Uecho.Props
open Uecho Uecho.Spec Uecho.DumpCmd Uecho.Lemmas

/-- **C157** (partial: the properties of SetGet services are not shown, see `C157_setget_violated`; only `q` ends the command, see
`C157_eof_violated`). Whatever keys and datagrams come, the command does nothing undefined; up to the first `q`, where it ends, it prints one line
for every datagram that starts with a frame, and a reader finds in it the sender, the header and the property codes; it prints nothing for other
datagrams; and it sends one search for every `s` or `S`, and nothing else. -/
theorem C157_prints_partial {e : Endian} {db : Db} {c : Ctrl} (hc : CtrlReach e db c) (hh : HandlersSet c.node)
    (hp : (destObj c.node profileEoj).isSome) (hl : c.hasMsgListener = true) (hn : c.postRes = none) (h : Heap) (is : List In)
    (ha : ∀ a, In.datagram a ∈ is → ' ' ∉ a.sender.toList) :
    ∃ (s : St) (ts : List (Byte × Byte)), run e db is ⟨c, h, [], []⟩ = .ok (s, is.any asksQuit) ∧ Prints e (untilQuit is) s.out ∧
      s.sent = ts.map (fun t => CEvent.node (sends none ⟨t, profileEoj, profileEoj, 0x62, .plain [(0xD6, [])]⟩)) ∧
      ts.length = searchesOf (untilQuit is) := by
  obtain ⟨s, o, ts, h1, h2, h3, h4, h5⟩ := run_dumps (e := e) (db := db) is (s := ⟨c, h, [], []⟩) ⟨⟨hc, hh, hp⟩, hl, hn⟩ ha
  simp only [List.nil_append] at h2 h4
  exact ⟨s, ts, h1, h2 ▸ h3, h4, h5⟩

/-- the controller of the examples, with the listener of the command -/
def dCtrl : Ctrl := kCtrl.setMessageListener true

def dNotice : Frame := ⟨(1, 0), (0x02, 0x90, 0x01), (0x0E, 0xF0, 0x01), 0x73, .plain [(0x80, [0x30]), (0xB0, [1, 2])]⟩

def dIn (f : Frame) : In := .datagram ⟨kOrc, none, "10.0.0.2", encode f⟩

def dLine : List Char := "10.0.0.2 10 81 01 29001 EF001 73 2 80B0".toList

/-- non-vacuity: a controller that has found a node; a search, a notification, a datagram that is no frame, a key, and `q` -/
example : CtrlReach .little [] dCtrl ∧ HandlersSet dCtrl.node ∧ (destObj dCtrl.node profileEoj).isSome ∧ dCtrl.hasMsgListener = true ∧
    dCtrl.postRes = none ∧
    (∃ s, run .little [] [.key (some 0x53#8), dIn dNotice, .datagram ⟨kOrc, none, "10.0.0.2", [1, 2]⟩, .key (some 0x51#8), .key none,
        .key (some 0x71#8), dIn dNotice] ⟨dCtrl, kHeap, [], []⟩ = .ok (s, true) ∧
      s.out = [.message dLine, .usage, .usage] ∧ s.sent.length = 1) ∧
    ' ' ∉ "10.0.0.2".toList ∧ Reads .little "10.0.0.2" dNotice dLine := by
  refine ⟨.setMessageListener _ kCtrl_reach, ?_, by decide +kernel, by decide +kernel, by decide +kernel, ⟨_, rfl, by decide +kernel, by decide +kernel⟩,
    by decide +kernel, ?_⟩
  · intro o ho x hx
    have : ∀ o ∈ dCtrl.node.objs, ∀ x ∈ o.observers, x.handler.isSome = true := by decide +kernel
    have h := this o ho x hx
    intro h2; rw [h2] at h; cases h
  · refine ⟨"10".toList, "81".toList, "01".toList, "29001".toList, "EF001".toList, "73".toList, "2".toList, "80B0".toList, by decide +kernel, by decide +kernel,
      by decide +kernel, by decide +kernel, by decide +kernel, by decide +kernel, by decide +kernel, by decide +kernel, ?_⟩
    exact .cons (.inl (by decide)) (.inl (by decide)) (.cons (.inr (by decide)) (.inl (by decide)) .nil)

def dWrite (v : Byte) : Frame := ⟨(1, 0), (0x02, 0x90, 0x01), (0x0E, 0xF0, 0x01), 0x6E, .setGet [(v, [0x30])] [(0x80, [])]⟩

/-- **C157 violated.** The properties of a SetGet message are not shown: two that write different properties give the same line. -/
theorem C157_setget_violated : (dWrite 0x80).WF ∧ (dWrite 0xB0).WF ∧ (dWrite 0x80).body ≠ (dWrite 0xB0).body ∧ ∃ t s1 s2,
    run .little [] [dIn (dWrite 0x80)] ⟨dCtrl, kHeap, [], []⟩ = .ok (s1, false) ∧ s1.out = [.message t] ∧
    run .little [] [dIn (dWrite 0xB0)] ⟨dCtrl, kHeap, [], []⟩ = .ok (s2, false) ∧ s2.out = [.message t] := by
  refine ⟨by decide, by decide, by decide, "10.0.0.2 10 81 01 29001 EF001 6E 0 ".toList, _, _, rfl, by decide +kernel, rfl, by decide +kernel⟩

/-- **C157 violated.** At the end of the input the command does not end, however often it looks, and `Q` does not end it either, although `S`
searches like `s`. -/
theorem C157_eof_violated (e : Endian) (db : Db) (s : St) (n : Nat) : run e db (List.replicate n (.key none)) s = .ok (s, false) ∧
    ∃ s', run e db (.key (some 0x51#8) :: List.replicate n (.key none)) s = .ok (s', false) := by
  have h : ∀ s, run e db (List.replicate n (.key none)) s = .ok (s, false) := by
    intro s
    induction n with
    | zero => rfl
    | succ n ih =>
      rw [List.replicate_succ]
      simp only [run, key, Res.bind_ok, Bool.false_eq_true, if_false, ih]
  refine ⟨h s, { s with out := s.out ++ [.usage] }, ?_⟩
  have hk : key e s (some 0x51#8) = .ok ({ s with out := s.out ++ [.usage] }, false) := rfl
  simp only [run, hk, Res.bind_ok, Bool.false_eq_true, if_false, h]

end Uecho.Props
