import Verif.Spec.LightMain
import Verif.Props.Server
/-! # Lemmas about the light as a process -/
namespace Uecho.Lemmas
open Uecho Uecho.Spec Uecho.Server Uecho.LightMain

theorem hostGrants_iff (os : Os) : HostGrants os ↔ Props.Granted os .mcast ∧ Props.Granted os .udp := by
  unfold HostGrants Props.Granted
  constructor
  · exact fun h => ⟨⟨h.1, h.2 .mcast⟩, h.1, h.2 .udp⟩
  · rintro ⟨h1, h2⟩
    refine ⟨h1.1, fun k a ha => ?_⟩
    cases k with
    | mcast => exact h1.2 a ha
    | udp => exact h2.2 a ha

theorem hears_receivers (os : Os) (obs : List Observer) : Hears os (Props.receivers os obs) := by
  unfold Hears Props.receivers
  rw [List.map_map]
  rfl

/-- The server is one of a node. -/
def NodeServer (s : Server) : Prop := s.observers = nodeServer.observers ∧ s.udpEnabled = true

theorem start_node {s : Server} (h : NodeServer s) (os : Os) :
    NodeServer (Server.start os s).1 ∧ ((Server.start os s).2 = true ↔ HostGrants os) ∧
    (HostGrants os → Listens os (Server.start os s).1 ∧ isRunning (Server.start os s).1 = true) ∧
    (¬ HostGrants os → Silent (Server.start os s).1 ∧ isRunning (Server.start os s).1 = false) := by
  obtain ⟨ho, hu⟩ := h
  obtain ⟨c1, c2, c3, c4, c5, -⟩ := Props.C78_start os s
  have hobs : ∀ o ∈ s.observers, o.handler.isSome ∧ o.obj.isSome := by
    rw [ho]; decide
  have hiff : (Server.start os s).2 = true ↔ HostGrants os := by
    rw [c1, hostGrants_iff]
    exact ⟨fun h => ⟨h.2.1, h.2.2 hu⟩, fun h => ⟨hobs, h.1, fun _ => h.2⟩⟩
  refine ⟨⟨c4.trans ho, c5.trans hu⟩, hiff, fun hg => ?_, fun hg => ?_⟩
  · have := c2 (hiff.2 hg)
    refine ⟨⟨?_, ?_⟩, this.2.2.1⟩
    · rw [this.1]; exact hears_receivers _ _
    · rw [this.2.1, if_pos hu]; exact hears_receivers _ _
  · have hf : (Server.start os s).2 = false := by
      cases hb : (Server.start os s).2 with
      | false => rfl
      | true => exact absurd (hiff.1 hb) hg
    exact ⟨⟨(c3 hf).1, (c3 hf).2.1⟩, (c3 hf).2.2.1⟩

theorem stop_node {s : Server} (h : NodeServer s) :
    NodeServer (Server.stop s).1 ∧ Silent (Server.stop s).1 ∧ isRunning (Server.stop s).1 = false :=
  ⟨h, ⟨rfl, rfl⟩, by show (listRunning [] && _) = false; rfl⟩

theorem nodeServer_node : NodeServer nodeServer := ⟨rfl, rfl⟩

theorem nodeStart_server (w : World) (p : Proc) : (nodeStart w p).1.server = (Server.start (w.os p.starts) p.server).1 := rfl
theorem nodeStart_starts (w : World) (p : Proc) : (nodeStart w p).1.starts = p.starts + 1 := rfl
theorem nodeStart_sent (w : World) (p : Proc) : (nodeStart w p).1.sent =
    p.sent ++ (postAnnounce (w.net p.starts) (Server.start (w.os p.starts) p.server).1 (w.msg p.starts)).2 := rfl
theorem nodeStart_pending (w : World) (p : Proc) : (nodeStart w p).1.pending = p.pending := rfl
theorem nodeStart_ended (w : World) (p : Proc) : (nodeStart w p).1.ended = p.ended := rfl

/-- What holds of the process at all times: while it runs it listens as it was granted at the last start. -/
structure LightGood (fate : Sig → Fate) (w : World) (p : Proc) : Prop where
  node : NodeServer p.server
  starts : 0 < p.starts
  runs : p.ended = none → HostGrants (w.os (p.starts - 1)) ∧ Listens (w.os (p.starts - 1)) p.server ∧ isRunning p.server = true
  pending : ∀ s ∈ p.pending, fateOf fate s = .blocked

theorem good_launch (fate : Sig → Fate) (w : World) : LightGood fate w (launch w) := by
  have hs := start_node nodeServer_node (w.os 0)
  unfold launch
  show LightGood fate w (if (nodeStart w ⟨nodeServer, 0, [], [], none⟩).2 = true then loop (nodeStart w ⟨nodeServer, 0, [], [], none⟩).1
    else { (nodeStart w ⟨nodeServer, 0, [], [], none⟩).1 with ended := some .failure })
  by_cases hok : (nodeStart w ⟨nodeServer, 0, [], [], none⟩).2 = true
  · rw [if_pos hok]
    have h1 : (Server.start (w.os 0) nodeServer).2 = true := by
      have : ((Server.start (w.os 0) nodeServer).2 && _) = true := hok
      exact (Bool.and_eq_true _ _ ▸ this).1
    have hg := hs.2.1.1 h1
    have hr := hs.2.2.1 hg
    have : loop (nodeStart w ⟨nodeServer, 0, [], [], none⟩).1 = (nodeStart w ⟨nodeServer, 0, [], [], none⟩).1 := by
      unfold loop; rw [nodeStart_server, if_pos hr.2]
    rw [this]
    exact ⟨hs.1, Nat.one_pos, fun _ => ⟨hg, hr⟩, by intro s hs; cases hs⟩
  · rw [if_neg hok]
    exact ⟨hs.1, Nat.one_pos, fun h => (by cases h), by intro s hs; cases hs⟩

theorem loop_server (p : Proc) : (loop p).server = p.server := by unfold loop; split <;> rfl
theorem loop_starts (p : Proc) : (loop p).starts = p.starts := by unfold loop; split <;> rfl
theorem loop_sent (p : Proc) : (loop p).sent = p.sent := by unfold loop; split <;> rfl
theorem loop_pending (p : Proc) : (loop p).pending = p.pending := by unfold loop; split <;> rfl
theorem loop_ended (p : Proc) : (loop p).ended = if isRunning p.server then p.ended else some .success := by
  unfold loop; split <;> rfl

/-- What `sigwait` and the `switch` do with a pending signal. -/
theorem take_eq {fate : Sig → Fate} {w : World} {p : Proc} (hn : p.ended = none) {s : Sig} (hs : s ∈ p.pending) :
    step fate w p (.take s) = loop (act w s { p with pending := p.pending.erase s }) := by
  unfold step
  simp only [hn, Option.isSome_none, if_pos hs]
  rfl

theorem act_pending (w : World) (s : Sig) (p : Proc) : (act w s p).pending = p.pending := by cases s <;> rfl
theorem act_ended (w : World) (s : Sig) (p : Proc) : (act w s p).ended = p.ended := by cases s <;> rfl

theorem good_step {fate : Sig → Fate} {w : World} {p : Proc} (h : LightGood fate w p) (e : Ev) : LightGood fate w (step fate w p e) := by
  cases hn : p.ended with
  | some x =>
    have : step fate w p e = p := by cases e <;> simp [step, hn]
    rw [this]; exact h
  | none =>
    cases e with
    | arrive s =>
      unfold step
      simp only [hn, Option.isSome_none, Bool.false_eq_true, if_false]
      cases hf : fateOf fate s with
      | blocked =>
        simp only
        split
        · exact h
        · exact ⟨h.node, h.starts, fun _ => h.runs hn, fun t ht => by
            rcases List.mem_append.1 ht with ht | ht
            · exact h.pending t ht
            · rw [List.mem_singleton.1 ht]; exact hf⟩
      | ends => exact ⟨h.node, h.starts, fun hc => (by cases hc), h.pending⟩
      | dropped => exact h
    | take s =>
      by_cases hs : s ∈ p.pending
      · rw [take_eq hn hs]
        have hp : ∀ t ∈ (loop (act w s { p with pending := p.pending.erase s })).pending, fateOf fate t = .blocked := by
          intro t ht
          rw [loop_pending, act_pending] at ht
          exact h.pending t (List.mem_of_mem_erase ht)
        have hstop := stop_node h.node
        have hend : NodeServer (Server.stop p.server).1 → (q : Proc) → q.server = (Server.stop p.server).1 → 0 < q.starts →
            (∀ t ∈ (loop q).pending, fateOf fate t = .blocked) → LightGood fate w (loop q) := by
          intro _ q hq h0 hpq
          refine ⟨by rw [loop_server, hq]; exact hstop.1, by rw [loop_starts]; exact h0, fun hc => ?_, hpq⟩
          rw [loop_ended, hq, hstop.2.2] at hc
          cases hc
        cases s with
        | term => exact hend hstop.1 _ rfl h.starts hp
        | int => exact hend hstop.1 _ rfl h.starts hp
        | kill => exact hend hstop.1 _ rfl h.starts hp
        | other n =>
          refine ⟨by rw [loop_server]; exact h.node, by rw [loop_starts]; exact h.starts, fun _ => ?_, hp⟩
          rw [loop_starts, loop_server]
          exact h.runs hn
        | hup =>
          have hst := start_node hstop.1 (w.os p.starts)
          refine ⟨by rw [loop_server]; exact hst.1, by rw [loop_starts]; exact Nat.succ_pos _, fun hc => ?_, hp⟩
          rw [loop_starts, loop_server]
          show HostGrants (w.os p.starts) ∧ Listens (w.os p.starts) (Server.start (w.os p.starts) (Server.stop p.server).1).1 ∧ _
          by_cases hg : HostGrants (w.os p.starts)
          · exact ⟨hg, hst.2.2.1 hg⟩
          · rw [loop_ended] at hc
            have : isRunning (act w .hup { p with pending := p.pending.erase .hup }).server = false := (hst.2.2.2 hg).2
            rw [this] at hc
            cases hc
      · have : step fate w p (.take s) = p := by simp [step, hn, hs]
        rw [this]; exact h

theorem run_snoc (fate : Sig → Fate) (w : World) (es : List Ev) (e : Ev) : run fate w (es ++ [e]) = step fate w (run fate w es) e := by
  unfold run; rw [List.foldl_append]; rfl

theorem run_append (fate : Sig → Fate) (w : World) (es fs : List Ev) : run fate w (es ++ fs) = fs.foldl (step fate w) (run fate w es) := by
  unfold run; rw [List.foldl_append]

/-- Induction over a history from its end. -/
theorem hist_ind {P : List Ev → Prop} (h0 : P []) (h1 : ∀ es e, P es → P (es ++ [e])) : ∀ es, P es := by
  intro es
  have : ∀ l : List Ev, P l.reverse := by
    intro l
    induction l with
    | nil => exact h0
    | cons e l ih => rw [List.reverse_cons]; exact h1 _ _ ih
  have h := this es.reverse
  rwa [List.reverse_reverse] at h

theorem good_run (fate : Sig → Fate) (w : World) (es : List Ev) : LightGood fate w (run fate w es) := by
  induction es using hist_ind with
  | h0 => exact good_launch fate w
  | h1 es e ih => rw [run_snoc]; exact good_step ih e

theorem arrive_blocked {fate : Sig → Fate} {w : World} {p : Proc} (hn : p.ended = none) {s : Sig} (hf : fateOf fate s = .blocked) :
    ∃ l, step fate w p (.arrive s) = { p with pending := l } ∧ s ∈ l ∧ (∀ t ∈ l, t ∈ p.pending ∨ t = s) := by
  unfold step
  simp only [hn, Option.isSome_none, Bool.false_eq_true, if_false, hf]
  by_cases hs : s ∈ p.pending
  · exact ⟨p.pending, by rw [if_pos hs, ← hn], hs, fun t ht => .inl ht⟩
  · exact ⟨p.pending ++ [s], by rw [if_neg hs], by simp, fun t ht => by
      rcases List.mem_append.1 ht with h | h
      · exact .inl h
      · exact .inr (List.mem_singleton.1 h)⟩

/-- A blocked signal is sent and taken. -/
theorem deliver_eq {fate : Sig → Fate} {w : World} {es : List Ev} (hn : (run fate w es).ended = none) {s : Sig}
    (hf : fateOf fate s = .blocked) :
    ∃ l, run fate w (es ++ sendTake s) = loop (act w s { run fate w es with pending := l }) := by
  obtain ⟨l, h1, h2, -⟩ := arrive_blocked (w := w) hn hf
  refine ⟨l.erase s, ?_⟩
  rw [run_append]
  show step fate w (step fate w (run fate w es) (.arrive s)) (.take s) = _
  rw [h1]
  have hn' : ({ run fate w es with pending := l } : Proc).ended = none := hn
  rw [take_eq hn' h2]

end Uecho.Lemmas
