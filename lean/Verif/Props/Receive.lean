import Verif.Spec.Receive
import Verif.Props.Log
import Verif.Props.Node
import Verif.Lemmas.Controller
/-!
# C66, C71, C88–C91: from the socket to the listener, with the trace
-/
namespace Uecho.Props
open Uecho Uecho.Spec Uecho.Lemmas Uecho.Recv

theorem cstr_noZero (s : String) : NoZero (cstr s) := by
  intro c hc
  unfold cstr at hc
  have := List.all_eq_true.1 (List.all_takeWhile (l := s.toList.map fun c => BitVec.ofNat 8 c.toNat) (p := (· ≠ 0#8))) c hc
  simpa using this

theorem cstr_length {s : String} (h : Ipv4Text s) : (cstr s).length ≤ 15 := by
  unfold cstr
  refine Nat.le_trans (List.takeWhile_prefix _).length_le ?_
  rw [List.length_map, String.length_toList]; exact h

theorem trace_ok (p : Byte) (hp : p ≠ 0#8) {a b : String} (ha : Ipv4Text a) (hb : Ipv4Text b) {d : List Byte} (hd : d.length ≤ 110) :
    ∃ t, Log.socketLog [p] (cstr a) (cstr b) d = .ok t :=
  (C58_threshold_violated p _ _ d hp (cstr_noZero a) (cstr_noZero b) (cstr_length ha) (cstr_length hb)).2 hd

/-- A short datagram is passed to the observers unchanged. -/
theorem action_short {σ ε : Type} (handle : σ → Message → Res (σ × List ε)) (s : σ) {d : List Byte} {r l : String}
    (hd : d.length ≤ 110) (hr : Ipv4Text r) (hl : Ipv4Text l) :
    action handle s d (some r) (some l) =
      (Message.new.parsePacket d (some l) (some r) >>= fun x => if x.1 then handle s x.2 else pure (s, [])) := by
  obtain ⟨t, ht⟩ := trace_ok 82#8 (by decide) hr hl hd
  unfold action recv
  rw [List.take_of_length_le (by omega)]
  by_cases he : d = []
  · subst he
    rfl
  · simp only [if_neg he, ht, Res.bind_ok, Res.pure_eq]
    cases Message.new.parsePacket d (some l) (some r) with
    | ub => rfl
    | ok x =>
      obtain ⟨ok, m⟩ := x
      simp only [Res.bind_ok]
      cases ok
      · simp [packetError, ht]
      · simp

/-- **C88, partial** (datagrams of at most 110 bytes, IPv4). The receive loop passes the datagram to the listener as the theorems about
received datagrams assume: for a node. -/
theorem C88_node_partial (e : Endian) (n : Node) (d : List Byte) (r l : String) (hd : d.length ≤ 110) (hr : Ipv4Text r)
    (hl : Ipv4Text l) : action (nodeHandle e) n d (some r) (some l) = n.receive e (some l) (some r) d := by
  rw [action_short _ _ hd hr hl]; rfl

/-- **C88, partial.** The same for a controller. -/
theorem C88_controller_partial (e : Endian) (db : Db) (orc : Oracle) (c : Ctrl) (h : Heap) (d : List Byte) (r l : String)
    (hd : d.length ≤ 110) (hr : Ipv4Text r) (hl : Ipv4Text l) :
    action (ctrlHandle e db orc) (c, h) d (some r) (some l) =
      (c.receive e db orc h (some l) (some r) d >>= fun x => .ok ((x.1, x.2.1), x.2.2)) := by
  rw [action_short _ _ hd hr hl]
  unfold Ctrl.receive
  cases Message.new.parsePacket d (some l) (some r) with
  | ub => rfl
  | ok x =>
    obtain ⟨ok, m⟩ := x
    cases ok with
    | false => rfl
    | true =>
      simp only [Res.bind_ok, if_true, ctrlHandle]
      cases c.node.messageListener e m with
      | ub => rfl
      | ok y =>
        simp only [Res.bind_ok]
        cases Ctrl.listener e db orc { c with node := y.1 } h m <;> rfl

example : Ipv4Text "192.168.100.200" ∧ Ipv4Text "10.0.0.1" := by unfold Ipv4Text; decide

theorem recv_long {d : List Byte} {r l : Option String} (hd : 112 ≤ d.length) : recv d r l = .ub := by
  unfold recv
  have hlen : 112 ≤ (d.take 512).length := by rw [List.length_take]; omega
  simp only [if_neg (show ¬ d.take 512 = [] by intro h; rw [h] at hlen; simp at hlen)]
  cases r with
  | none => rfl
  | some r => cases l with
    | none => rfl
    | some l => simp only; rw [C58_overflow_violated _ _ _ _ (by intro c hc; rw [List.mem_singleton.1 hc]; decide) (cstr_noZero r) (cstr_noZero l) hlen]; rfl

/-- **C66, violated.** Every datagram of 112 bytes or more, whatever it contains and whatever the node, is undefined behaviour (the
trace overruns its buffer). -/
theorem C66_long_datagram_violated (e : Endian) (n : Node) (d : List Byte) (r l : Option String) (hd : 112 ≤ d.length) :
    action (nodeHandle e) n d r l = .ub := by
  unfold action; rw [recv_long hd]; rfl

/-- **C71, violated.** The same for every controller. -/
theorem C71_long_datagram_violated (e : Endian) (db : Db) (orc : Oracle) (c : Ctrl) (h : Heap) (d : List Byte) (r l : Option String)
    (hd : 112 ≤ d.length) : action (ctrlHandle e db orc) (c, h) d r l = .ub := by
  unfold action; rw [recv_long hd]; rfl

example : 112 ≤ (List.replicate 112 (0 : Byte)).length := by decide

/-- **C88, violated.** If the sender's address has no text in 31 characters (`getnameinfo` fails), any datagram with at least one byte
is undefined behaviour: the trace reads an array that was never written. -/
theorem C88_unnamed_sender_violated {σ ε : Type} (handle : σ → Message → Res (σ × List ε)) (s : σ) (d : List Byte) (l : Option String)
    (hd : d ≠ []) : action handle s d none l = .ub := by
  unfold action recv
  have : d.take 512 ≠ [] := by
    intro h
    rcases List.take_eq_nil_iff.1 h with h | h
    · omega
    · exact hd h
  simp only [if_neg this]; rfl

/-! ## C89: sending -/

/-- **C89, partial.** Sending between IPv4 addresses is defined exactly up to 110 bytes. -/
theorem C89_send_partial (sock addr : String) (d : List Byte) (hs : Ipv4Text sock) (ha : Ipv4Text addr) :
    (sendTrace sock addr d).Defined ↔ d.length ≤ 110 := by
  rw [← C58_threshold_violated 83#8 (cstr sock) (cstr addr) d (by decide) (cstr_noZero _) (cstr_noZero _) (cstr_length hs) (cstr_length ha)]
  unfold sendTrace
  cases Log.socketLog [83#8] (cstr sock) (cstr addr) d <;> simp [Res.Defined]

theorem send_long (sock addr : String) {d : List Byte} (hd : 112 ≤ d.length) : sendTrace sock addr d = .ub := by
  unfold sendTrace
  rw [C58_overflow_violated _ _ _ _ (by intro c hc; rw [List.mem_singleton.1 hc]; decide) (cstr_noZero sock) (cstr_noZero addr) hd]
  rfl

/-- **C89, violated.** A node with 33 or more instances (up to 84, so that the list is a legal property) cannot be started: the frame
that announces them is sent, and sending it is undefined behaviour, whatever the addresses. -/
theorem C89_start_violated {e : Endian} {db : Db} {n n1 : Node} {o : Obj} {eff : List Effect}
    (h : NodeReach e db n) (ha : n.addObject e o = .ok (n1, eff, true)) (hic : 33 ≤ (instances n1).length ∧ (instances n1).length ≤ 84)
    (hcc : (nodeClasses n1).length < 65536) (bound : List String) :
    ∃ n' f, n1.start e bound = .ok (n', [sends none f]) ∧ ∀ sock addr, sendTrace sock addr (encode f) = .ub := by
  obtain ⟨n', t, h1, _⟩ := C64_start_announces_instances h ha (by omega) hcc bound
  refine ⟨n', _, h1, fun sock addr => send_long sock addr ?_⟩
  have := instanceListData_length (instances n1)
  simp [encode, encodeBody, encodeSection, encodeProp]
  omega

/-- 32 devices are added to a new node. -/
def crowd : Nat → Option Node
  | 0 => some yNode0
  | k + 1 => (crowd k).bind fun n => match n.addObject .little { yDevice with ins := BitVec.ofNat 8 (k + 1) } with
    | .ok (n, _, true) => some n
    | _ => none

theorem crowd_reach (k : Nat) (n : Node) (h : crowd k = some n) : NodeReach .little [] n := by
  induction k generalizing n with
  | zero => cases h; exact yNode0_reach
  | succ k ih =>
    simp only [crowd, Option.bind_eq_some_iff] at h
    obtain ⟨n0, h0, h⟩ := h
    split at h
    · rename_i n1 eff heq
      cases h
      exact .addObject _ (ih n0 h0) heq
    · cases h

/-- 33 devices can be added to a node. -/
example : ∃ n n1 o eff, NodeReach .little [] n ∧ n.addObject .little o = .ok (n1, eff, true) ∧
    (instances n1).length = 33 ∧ (nodeClasses n1).length < 65536 := by
  have h : ∃ n, crowd 33 = some n ∧ (instances n).length = 33 ∧ (nodeClasses n).length < 65536 := by
    have : ((crowd 33).map fun n => ((instances n).length, decide ((nodeClasses n).length < 65536))) = some (33, true) := by
      decide +kernel
    obtain ⟨n, h1, h2⟩ := Option.map_eq_some_iff.1 this
    simp only [Prod.mk.injEq, decide_eq_true_eq] at h2
    exact ⟨n, h1, h2⟩
  obtain ⟨n1, h1, h2, h3⟩ := h
  simp only [crowd, Option.bind_eq_some_iff] at h1
  obtain ⟨n0, h0, h⟩ := h1
  split at h
  · rename_i n2 eff heq
    cases h
    refine ⟨n0, n1, _, eff, ?_, heq, h2, h3⟩
    exact crowd_reach 32 n0 (by simp only [crowd, Option.bind_eq_some_iff]; exact h0)
  · cases h

/-! ## C90: long frames -/

/-- Nothing but a whole frame is accepted: a frame cut short is refused. -/
theorem decode_cut {f : Frame} (hf : f.WF) {k : Nat} (hk : k < (encode f).length) : decode ((encode f).take k) = none := by
  cases hd : decode ((encode f).take k) with
  | none => rfl
  | some x =>
    obtain ⟨g, r⟩ := x
    obtain ⟨h1, h2⟩ := decode_sound hd
    have h3 : decode (encode f) = some (g, r ++ (encode f).drop k) := by
      have : encode f = encode g ++ (r ++ (encode f).drop k) := by
        rw [← List.append_assoc, ← h1, List.take_append_drop]
      have h4 := decode_complete (r := r ++ (encode f).drop k) h2
      rw [← this] at h4
      exact h4
    have h5 := decode_complete (r := []) hf
    rw [List.append_nil, h3] at h5
    simp only [Option.some.injEq, Prod.mk.injEq] at h5
    have := congrArg List.length h1
    rw [List.length_take, List.length_append, h5.1] at this
    omega

/-- **C90, partial** (up to 512 bytes). The bytes kept by the buffer of the receiver are the whole datagram. -/
theorem C90_buffer_partial (d : List Byte) (hd : d.length ≤ 512) (r l : Option String) (p : Packet) (h : recv d r l = .ok p) :
    p.data = d := by
  unfold recv at h
  rw [List.take_of_length_le hd] at h
  simp only at h
  split at h
  · rename_i he
    cases h; exact he.symm
  · split at h
    · simp only [Res.bind_eq_ok] at h
      obtain ⟨_, _, h⟩ := h
      cases h; rfl
    · cases h

/-- **C90, violated.** A frame longer than 512 bytes is never received, even without the trace: what fits into the buffer is not a frame, so
no handler is called, nothing is written and nothing is answered. -/
theorem C90_long_frame_violated (e : Endian) (n : Node) (f : Frame) (l : Option String) (r : String) (hf : f.WF)
    (hl : 512 < (encode f).length) : n.receive e l (some r) ((encode f).take 512) = .ok (n, []) := by
  have hd := decode_cut hf hl
  have h := parse_spec (m := Message.new) inv_new.toMsgWF ((encode f).take 512) _ (Nat.le_refl _)
  rw [List.take_length, hd] at h
  obtain ⟨m', h', _⟩ := h
  unfold Node.receive Message.parsePacket
  rw [h']; rfl

/-- A write request with three properties of 200 bytes. -/
example : let f : Frame := ⟨(0, 1), (0x05, 0xFF, 0x01), (0x01, 0x30, 0x01), 0x61,
    .plain [(0xE0, List.replicate 200 1), (0xE1, List.replicate 200 2), (0xE2, List.replicate 200 3)]⟩
    f.WF ∧ 512 < (encode f).length := by
  refine ⟨⟨by decide, by decide +kernel⟩, by decide +kernel⟩

/-! ## C91: the loop -/

/-- **C91, partial** (short datagrams, no error). The receiver handles every datagram, in the order of arrival, and goes on. -/
theorem C91_loop_partial (e : Endian) (n : Node) (gs : List Datagram) (hg : ∀ g ∈ gs, Short g) :
    loop (nodeHandle e) n (gs.map asInput) = (handled e n gs >>= fun x => .ok (x.1, x.2, true)) := by
  induction gs generalizing n with
  | nil => rfl
  | cons g gs ih =>
    obtain ⟨h1, h2, l, h3, h4⟩ := hg g (List.mem_cons_self ..)
    have h5 := C88_node_partial e n g.bytes g.sender l h1 h2 h4
    simp only [List.map_cons, asInput, loop, handled, h3, h5]
    cases n.receive e (some l) (some g.sender) g.bytes with
    | ub => rfl
    | ok x =>
      obtain ⟨n1, e1⟩ := x
      have := ih n1 fun g' hg' => hg g' (List.mem_cons_of_mem _ hg')
      rw [show (List.map asInput gs) = gs.map asInput from rfl] at this
      simp only [Res.bind_ok, this]
      cases handled e n1 gs <;> rfl

example : Short ⟨some "192.168.1.2", "192.168.1.3", [0x10, 0x81]⟩ :=
  ⟨by decide, by unfold Ipv4Text; decide, "192.168.1.2", rfl, by unfold Ipv4Text; decide⟩

/-- **C91, violated.** The first error of `recvfrom` ends the receiver: whatever arrives later is never looked at, and the server goes on
reporting that it runs. -/
theorem C91_error_ends_receiver_violated (e : Endian) (n : Node) (gs : List Datagram) (hg : ∀ g ∈ gs, Short g) (later : List Input) :
    loop (nodeHandle e) n (gs.map asInput ++ .error :: later) = (handled e n gs >>= fun x => .ok (x.1, x.2, false)) := by
  induction gs generalizing n with
  | nil => rfl
  | cons g gs ih =>
    obtain ⟨h1, h2, l, h3, h4⟩ := hg g (List.mem_cons_self ..)
    have h5 := C88_node_partial e n g.bytes g.sender l h1 h2 h4
    simp only [List.map_cons, List.cons_append, asInput, loop, handled, h3, h5]
    cases n.receive e (some l) (some g.sender) g.bytes with
    | ub => rfl
    | ok x =>
      obtain ⟨n1, e1⟩ := x
      have := ih n1 fun g' hg' => hg g' (List.mem_cons_of_mem _ hg')
      simp only [Res.bind_ok]
      rw [show loop (nodeHandle e) n1 (List.map asInput gs ++ Input.error :: later) = _ from this]
      cases handled e n1 gs <;> rfl

end Uecho.Props
