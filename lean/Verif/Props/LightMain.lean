import Verif.Lemmas.LightMain
/-! # C160: the light as a process -/
namespace Uecho.Props
open Uecho Uecho.Spec Uecho.Lemmas Uecho.Server Uecho.LightMain

/-- A host with one interface that grants all, takes each announcement of two bytes, and loses the interface at the start number `k`. -/
def lightWorld (k : Nat) : World :=
  ⟨fun i => ⟨if i = k then [] else ["192.0.2.1"], fun _ _ => true, fun _ _ => true⟩, fun _ _ => some 2, fun _ => [1#8, 2#8]⟩

/-- Signals as a shell leaves them, and all blocked. -/
def shellFate : Sig → Fate := fun s => match s with
  | .other _ => .dropped
  | _ => .ends
def blockFate : Sig → Fate := fun _ => .blocked

/-- **C160**. The program gets to its loop just if the host grants it all sockets and threads and the network takes the announcement; it then
listens on each interface. Otherwise it ends with failure. -/
theorem C160_launch (w : World) :
    ((launch w).ended = none ↔ HostGrants (w.os 0) ∧ (postAnnounce (w.net 0) (launch w).server (w.msg 0)).1 = true) ∧
    ((launch w).ended = none → Listens (w.os 0) (launch w).server) ∧
    ((launch w).ended ≠ none → (launch w).ended = some .failure) := by
  have hs := start_node nodeServer_node (w.os 0)
  have hg := good_launch (fun _ => .ends) w
  have hl : launch w = if (nodeStart w ⟨nodeServer, 0, [], [], none⟩).2 = true then loop (nodeStart w ⟨nodeServer, 0, [], [], none⟩).1
    else { (nodeStart w ⟨nodeServer, 0, [], [], none⟩).1 with ended := some .failure } := rfl
  have hok : (nodeStart w ⟨nodeServer, 0, [], [], none⟩).2 =
    ((Server.start (w.os 0) nodeServer).2 && (postAnnounce (w.net 0) (Server.start (w.os 0) nodeServer).1 (w.msg 0)).1) := rfl
  have hsrv : (launch w).server = (Server.start (w.os 0) nodeServer).1 := by
    rw [hl]; split
    · rw [loop_server]; rfl
    · rfl
  have hst : (launch w).starts = 1 := by
    rw [hl]; split
    · rw [loop_starts]; rfl
    · rfl
  rw [hsrv]
  by_cases h : (nodeStart w ⟨nodeServer, 0, [], [], none⟩).2 = true
  · have h' := h
    rw [hok, Bool.and_eq_true] at h'
    have hgr := hs.2.1.1 h'.1
    have hr := hs.2.2.1 hgr
    have he : (launch w).ended = none := by
      rw [hl, if_pos h, loop_ended]
      have : isRunning (nodeStart w ⟨nodeServer, 0, [], [], none⟩).1.server = true := hr.2
      rw [this]; rfl
    exact ⟨⟨fun _ => ⟨hgr, h'.2⟩, fun _ => he⟩, fun _ => hr.1, fun hc => absurd he hc⟩
  · have he : (launch w).ended = some .failure := by rw [hl, if_neg h]
    refine ⟨⟨fun hc => (by rw [he] at hc; cases hc), fun hc => absurd ?_ h⟩, fun hc => (by rw [he] at hc; cases hc), fun _ => he⟩
    rw [hok, hs.2.1.2 hc.1, hc.2]; rfl

example : (launch (lightWorld 5)).ended = none := by decide
example : (launch (lightWorld 0)).ended = some .failure := by decide

/-- **C160**. As long as the program runs it listens on every interface that the host had at its last start. -/
theorem C160_runs (fate : Sig → Fate) (w : World) (es : List Ev) (h : (run fate w es).ended = none) :
    0 < (run fate w es).starts ∧ Listens (w.os ((run fate w es).starts - 1)) (run fate w es).server :=
  ⟨(good_run fate w es).starts, ((good_run fate w es).runs h).2.1⟩

example : (run blockFate (lightWorld 5) (sendTake .hup ++ sendTake (.other 10))).ended = none := by decide

/-- **C160** (partial: the signal must be blocked in the process that starts the program). SIGTERM and SIGINT end the program with success; no socket
and no thread is left, and nothing is sent. -/
theorem C160_told_partial (fate : Sig → Fate) (w : World) (es : List Ev) (h : (run fate w es).ended = none) (s : Sig) (hs : ToldToEnd s)
    (hb : fate s = .blocked) :
    (run fate w (es ++ sendTake s)).ended = some .success ∧ Silent (run fate w (es ++ sendTake s)).server ∧
    (run fate w (es ++ sendTake s)).sent = (run fate w es).sent := by
  have hf : fateOf fate s = .blocked := by rcases hs with rfl | rfl <;> exact hb
  obtain ⟨l, hl⟩ := deliver_eq h hf
  have hst := stop_node (good_run fate w es).node
  rw [hl]
  rcases hs with rfl | rfl <;>
  · refine ⟨?_, ?_, ?_⟩
    · rw [loop_ended]
      show (if isRunning (Server.stop (run fate w es).server).1 = true then _ else _) = _
      rw [hst.2.2]; rfl
    · rw [loop_server]; exact hst.2.1
    · rw [loop_sent]; rfl

example : ToldToEnd .term ∧ blockFate .term = .blocked ∧ (run blockFate (lightWorld 5) (sendTake .hup)).ended = none := ⟨.inl rfl, rfl, by decide⟩

/-- **C160** (partial: the signal must be blocked in the process that starts the program, and the host must grant the start). SIGHUP starts the light
again, once: it listens on the interfaces that the host has now, and announces itself. -/
theorem C160_restart_partial (fate : Sig → Fate) (w : World) (es : List Ev) (h : (run fate w es).ended = none) (hb : fate .hup = .blocked)
    (hg : HostGrants (w.os (run fate w es).starts)) :
    (run fate w (es ++ sendTake .hup)).ended = none ∧
    (run fate w (es ++ sendTake .hup)).starts = (run fate w es).starts + 1 ∧
    Listens (w.os (run fate w es).starts) (run fate w (es ++ sendTake .hup)).server ∧
    (run fate w (es ++ sendTake .hup)).sent = (run fate w es).sent ++
      (postAnnounce (w.net (run fate w es).starts) (run fate w (es ++ sendTake .hup)).server (w.msg (run fate w es).starts)).2 := by
  obtain ⟨l, hl⟩ := deliver_eq (s := .hup) h hb
  have hst := start_node (stop_node (good_run fate w es).node).1 (w.os (run fate w es).starts)
  have hr := hst.2.2.1 hg
  rw [hl]
  refine ⟨?_, ?_, ?_, ?_⟩
  · rw [loop_ended]
    show (if isRunning (Server.start (w.os (run fate w es).starts) (Server.stop (run fate w es).server).1).1 = true then _ else _) = _
    rw [hr.2]; exact h
  · rw [loop_starts]; rfl
  · rw [loop_server]; exact hr.1
  · rw [loop_sent, loop_server]; rfl

example : (run blockFate (lightWorld 5) (sendTake .hup)).sent = [⟨some "192.0.2.1", none, [1#8, 2#8]⟩, ⟨some "192.0.2.1", none, [1#8, 2#8]⟩] := by decide

/-- **C160**. A SIGHUP restarts the light at most once, whatever else happens: there were no more starts than the first one and one for each SIGHUP. -/
theorem C160_once (fate : Sig → Fate) (w : World) (es : List Ev) :
    (run fate w es).starts ≤ 1 + es.countP fun e => match e with
      | .arrive .hup => true
      | _ => false := by
  have key : (run fate w es).starts + (run fate w es).pending.count .hup ≤ 1 + es.countP fun e => match e with
      | .arrive .hup => true
      | _ => false := by
    induction es using hist_ind with
    | h0 =>
      show (launch w).starts + (launch w).pending.count .hup ≤ 1
      have : (launch w).starts = 1 ∧ (launch w).pending = [] := by
        show (if (nodeStart w ⟨nodeServer, 0, [], [], none⟩).2 = true then loop (nodeStart w ⟨nodeServer, 0, [], [], none⟩).1
          else { (nodeStart w ⟨nodeServer, 0, [], [], none⟩).1 with ended := some .failure }).starts = 1 ∧
          (if (nodeStart w ⟨nodeServer, 0, [], [], none⟩).2 = true then loop (nodeStart w ⟨nodeServer, 0, [], [], none⟩).1
          else { (nodeStart w ⟨nodeServer, 0, [], [], none⟩).1 with ended := some .failure }).pending = []
        split
        · rw [loop_starts, loop_pending]; exact ⟨rfl, rfl⟩
        · exact ⟨rfl, rfl⟩
      rw [this.1, this.2]; simp
    | h1 es e ih =>
      rw [run_snoc, List.countP_append]
      cases hn : (run fate w es).ended with
      | some y =>
        have hst : step fate w (run fate w es) e = run fate w es := by cases e <;> simp [step, hn]
        rw [hst]; omega
      | none =>
        cases e with
        | arrive s =>
          cases hf : fateOf fate s with
          | dropped =>
            have hst : step fate w (run fate w es) (.arrive s) = run fate w es := by simp [step, hn, hf]
            rw [hst]; omega
          | ends =>
            have hst : step fate w (run fate w es) (.arrive s) = { run fate w es with ended := some (.killed s) } := by
              simp [step, hn, hf]
            rw [hst]
            show (run fate w es).starts + (run fate w es).pending.count .hup ≤ _
            omega
          | blocked =>
            by_cases hs : s ∈ (run fate w es).pending
            · have hst : step fate w (run fate w es) (.arrive s) = run fate w es := by simp [step, hn, hf, hs]
              rw [hst]; omega
            · have hst : step fate w (run fate w es) (.arrive s) =
                  { run fate w es with pending := (run fate w es).pending ++ [s] } := by simp [step, hn, hf, hs]
              rw [hst]
              show (run fate w es).starts + ((run fate w es).pending ++ [s]).count .hup ≤ _
              rw [List.count_append]
              cases s <;> simp at ih ⊢ <;> omega
        | take s =>
          by_cases hs : s ∈ (run fate w es).pending
          · rw [take_eq hn hs, loop_starts, loop_pending, act_pending]
            show _ + ((run fate w es).pending.erase s).count .hup ≤ _
            cases s with
            | hup =>
              have h1 : 0 < (run fate w es).pending.count .hup := List.count_pos_iff.2 hs
              have h2 : ((run fate w es).pending.erase .hup).count .hup = (run fate w es).pending.count .hup - 1 := List.count_erase_self
              show (run fate w es).starts + 1 + _ ≤ _
              rw [h2]; omega
            | _ =>
              show (run fate w es).starts + _ ≤ _
              rw [List.count_erase_of_ne (by simp)]; omega
          · have hst : step fate w (run fate w es) (.take s) = run fate w es := by simp [step, hn, hs]
            rw [hst]; omega
  omega

example : (run blockFate (lightWorld 5) [.arrive .hup, .arrive .hup, .take .hup, .take .hup, .arrive .hup, .take .hup]).starts = 3 := by decide

/-- **C160** violated: if the host does not grant the start, SIGHUP ends the program, and with success. -/
theorem C160_restart_violated (fate : Sig → Fate) (w : World) (es : List Ev) (h : (run fate w es).ended = none) (hb : fate .hup = .blocked)
    (hg : ¬ HostGrants (w.os (run fate w es).starts)) :
    (run fate w (es ++ sendTake .hup)).ended = some .success ∧ Silent (run fate w (es ++ sendTake .hup)).server ∧
    (run fate w (es ++ sendTake .hup)).sent = (run fate w es).sent := by
  obtain ⟨l, hl⟩ := deliver_eq (s := .hup) h hb
  have hst := start_node (stop_node (good_run fate w es).node).1 (w.os (run fate w es).starts)
  have hr := hst.2.2.2 hg
  have hf : (Server.start (w.os (run fate w es).starts) (Server.stop (run fate w es).server).1).2 = false := by
    cases hb : (Server.start (w.os (run fate w es).starts) (Server.stop (run fate w es).server).1).2 with
    | false => rfl
    | true => exact absurd (hst.2.1.1 hb) hg
  rw [hl]
  refine ⟨?_, ?_, ?_⟩
  · rw [loop_ended]
    show (if isRunning (Server.start (w.os (run fate w es).starts) (Server.stop (run fate w es).server).1).1 = true then _ else _) = _
    rw [hr.2]; rfl
  · rw [loop_server]; exact hr.1
  · rw [loop_sent]
    show (run fate w es).sent ++ (postAnnounce _ (Server.start (w.os (run fate w es).starts) (Server.stop (run fate w es).server).1).1 _).2 = _
    rw [(C62_stopped_violated _ _ _ _).2.2 hf, List.append_nil]

example : (run blockFate (lightWorld 1) (sendTake .hup)).ended = some .success := by decide

/-- **C160**. Any other signal that does not end the process by itself changes nothing of the light. -/
theorem C160_others (fate : Sig → Fate) (w : World) (es : List Ev) (n : Nat) (hf : fate (.other n) ≠ .ends) :
    (run fate w (es ++ sendTake (.other n))).server = (run fate w es).server ∧
    (run fate w (es ++ sendTake (.other n))).starts = (run fate w es).starts ∧
    (run fate w (es ++ sendTake (.other n))).sent = (run fate w es).sent ∧
    (run fate w (es ++ sendTake (.other n))).ended = (run fate w es).ended := by
  cases h : (run fate w es).ended with
  | some x =>
    have : run fate w (es ++ sendTake (.other n)) = run fate w es := by
      rw [run_append]; simp [sendTake, step, h]
    rw [this]; exact ⟨rfl, rfl, rfl, h⟩
  | none =>
    cases hb : fate (.other n) with
    | ends => exact absurd hb hf
    | blocked =>
      obtain ⟨l, hl⟩ := deliver_eq (s := .other n) h hb
      have hr := ((good_run fate w es).runs h).2.2
      rw [hl]
      refine ⟨by rw [loop_server]; rfl, by rw [loop_starts]; rfl, by rw [loop_sent]; rfl, ?_⟩
      rw [loop_ended]
      show (if isRunning (run fate w es).server = true then _ else _) = _
      rw [hr]; exact h
    | dropped =>
      have h1 : step fate w (run fate w es) (.arrive (.other n)) = run fate w es := by
        have : fateOf fate (.other n) = .dropped := hb
        simp [step, h, this]
      have hn : Sig.other n ∉ (run fate w es).pending := fun hc => by
        have := (good_run fate w es).pending _ hc
        have hd : fateOf fate (.other n) = .dropped := hb
        rw [hd] at this; cases this
      have : run fate w (es ++ sendTake (.other n)) = run fate w es := by
        rw [run_append]
        show step fate w (step fate w (run fate w es) (.arrive (.other n))) (.take (.other n)) = _
        rw [h1]; simp [step, h, hn]
      rw [this]; exact ⟨rfl, rfl, rfl, h⟩

/-- **C160**. The program does not end by itself: it failed to start, or it was sent a signal that ends a process, or it was sent SIGTERM or SIGINT,
or it was sent SIGHUP and the host did not grant the start. -/
theorem C160_why (fate : Sig → Fate) (w : World) (es : List Ev) (x : End) (h : (run fate w es).ended = some x) :
    (x = .failure ∧ (launch w).ended = some .failure) ∨
    (∃ s, x = .killed s ∧ Ev.arrive s ∈ es ∧ (s = .kill ∨ fate s = .ends)) ∨
    (x = .success ∧ ((∃ s, ToldToEnd s ∧ Ev.arrive s ∈ es ∧ fate s = .blocked) ∨
      (Ev.arrive .hup ∈ es ∧ fate .hup = .blocked ∧ ¬ HostGrants (w.os ((run fate w es).starts - 1))))) := by
  have key : ∀ es : List Ev, (∀ s ∈ (run fate w es).pending, Ev.arrive s ∈ es) ∧
      (∀ x, (run fate w es).ended = some x → (x = .failure ∧ (launch w).ended = some .failure) ∨
        (∃ s, x = .killed s ∧ Ev.arrive s ∈ es ∧ (s = .kill ∨ fate s = .ends)) ∨
        (x = .success ∧ ((∃ s, ToldToEnd s ∧ Ev.arrive s ∈ es ∧ fate s = .blocked) ∨
          (Ev.arrive .hup ∈ es ∧ fate .hup = .blocked ∧ ¬ HostGrants (w.os ((run fate w es).starts - 1)))))) := by
    intro es
    induction es using hist_ind with
    | h0 =>
      refine ⟨fun s hs => ?_, fun x hx => .inl ?_⟩
      · have : (launch w).pending = [] := by
          show (if (nodeStart w ⟨nodeServer, 0, [], [], none⟩).2 = true then loop (nodeStart w ⟨nodeServer, 0, [], [], none⟩).1
            else { (nodeStart w ⟨nodeServer, 0, [], [], none⟩).1 with ended := some .failure }).pending = []
          split
          · rw [loop_pending]; rfl
          · rfl
        have hs : s ∈ (launch w).pending := hs
        rw [this] at hs; cases hs
      · have hx : (launch w).ended = some x := hx
        have := (C160_launch w).2.2 (by rw [hx]; exact Option.some_ne_none _)
        rw [this] at hx
        cases hx
        exact ⟨rfl, this⟩
    | h1 es e ih =>
      obtain ⟨ihp, ihe⟩ := ih
      have hgood := good_run fate w es
      rw [run_snoc]
      have hmono : ∀ s, Ev.arrive s ∈ es → Ev.arrive s ∈ es ++ [e] := fun s hs => List.mem_append_left _ hs
      cases hn : (run fate w es).ended with
      | some y =>
        have hst : step fate w (run fate w es) e = run fate w es := by cases e <;> simp [step, hn]
        rw [hst]
        refine ⟨fun s hs => hmono s (ihp s hs), fun x hx => ?_⟩
        rcases ihe x hx with h | ⟨s, h1, h2, h3⟩ | ⟨h1, ⟨s, h2, h3, h4⟩ | ⟨h2, h3⟩⟩
        · exact .inl h
        · exact .inr (.inl ⟨s, h1, hmono s h2, h3⟩)
        · exact .inr (.inr ⟨h1, .inl ⟨s, h2, hmono s h3, h4⟩⟩)
        · exact .inr (.inr ⟨h1, .inr ⟨hmono _ h2, h3⟩⟩)
      | none =>
        cases e with
        | arrive s =>
          cases hf : fateOf fate s with
          | blocked =>
            obtain ⟨l, hl, -, hm⟩ := arrive_blocked (w := w) hn hf
            rw [hl]
            refine ⟨fun t ht => ?_, fun x hx => ?_⟩
            · rcases hm t ht with h | rfl
              · exact hmono t (ihp t h)
              · simp
            · have hx : (run fate w es).ended = some x := hx
              rw [hn] at hx; cases hx
          | dropped =>
            have hst : step fate w (run fate w es) (.arrive s) = run fate w es := by simp [step, hn, hf]
            rw [hst]
            exact ⟨fun s hs => hmono s (ihp s hs), fun x hx => by rw [hn] at hx; cases hx⟩
          | ends =>
            have hst : step fate w (run fate w es) (.arrive s) = { run fate w es with ended := some (.killed s) } := by
              simp [step, hn, hf]
            rw [hst]
            refine ⟨fun s hs => hmono s (ihp s hs), fun x hx => .inr (.inl ⟨s, ?_, by simp, ?_⟩)⟩
            · have hx : some (End.killed s) = some x := hx
              cases hx; rfl
            · cases s with
              | kill => exact .inl rfl
              | hup => exact .inr hf
              | int => exact .inr hf
              | term => exact .inr hf
              | other n => exact .inr hf
        | take s =>
          by_cases hs : s ∈ (run fate w es).pending
          · rw [take_eq hn hs]
            have hb := hgood.pending s hs
            have harr := ihp s hs
            refine ⟨fun t ht => ?_, fun x hx => ?_⟩
            · rw [loop_pending, act_pending] at ht
              exact hmono t (ihp t (List.mem_of_mem_erase ht))
            · rw [loop_ended, act_ended] at hx
              have hxs : x = .success ∧ isRunning (act w s { run fate w es with pending := (run fate w es).pending.erase s }).server = false := by
                by_cases hr : isRunning (act w s { run fate w es with pending := (run fate w es).pending.erase s }).server = true
                · rw [if_pos hr] at hx
                  have hx : (run fate w es).ended = some x := hx
                  rw [hn] at hx; cases hx
                · rw [if_neg hr] at hx
                  cases hx
                  exact ⟨rfl, by simpa using hr⟩
              obtain ⟨rfl, hr⟩ := hxs
              refine .inr (.inr ⟨rfl, ?_⟩)
              cases s with
              | kill => cases hb
              | term => exact .inl ⟨.term, .inl rfl, hmono _ harr, hb⟩
              | int => exact .inl ⟨.int, .inr rfl, hmono _ harr, hb⟩
              | other n =>
                have hr : isRunning (run fate w es).server = false := hr
                rw [(hgood.runs hn).2.2] at hr; cases hr
              | hup =>
                refine .inr ⟨hmono _ harr, hb, fun hg => ?_⟩
                rw [loop_starts] at hg
                have hg : HostGrants (w.os (run fate w es).starts) := hg
                have := (start_node (stop_node hgood.node).1 (w.os (run fate w es).starts)).2.2.1 hg
                have hr : isRunning (Server.start (w.os (run fate w es).starts) (Server.stop (run fate w es).server).1).1 = false := hr
                rw [this.2] at hr; cases hr
          · have hst : step fate w (run fate w es) (.take s) = run fate w es := by simp [step, hn, hs]
            rw [hst]
            exact ⟨fun s hs => hmono s (ihp s hs), fun x hx => by rw [hn] at hx; cases hx⟩
  exact (key es).2 x h

example : (run blockFate (lightWorld 5) (sendTake .term)).ended = some .success ∧
    (run shellFate (lightWorld 5) (sendTake .term)).ended = some (.killed .term) ∧
    (run blockFate (lightWorld 5) (sendTake .kill)).ended = some (.killed .kill) := by decide

/-- **C160** violated: `main` blocks no signal. Started by a process that does not block them either, the program handles none: it never restarts, whatever
arrives, and never ends with success; SIGTERM, SIGINT and SIGHUP end it at once, with the receivers as they are. -/
theorem C160_unblocked_violated (fate : Sig → Fate) (w : World) (es : List Ev)
    (hf : fate .hup ≠ .blocked ∧ fate .int ≠ .blocked ∧ fate .term ≠ .blocked) :
    (run fate w es).starts = 1 ∧ (run fate w es).ended ≠ some .success ∧
    (∀ s, fate s = .ends → (run fate w es).ended = none → (run fate w (es ++ sendTake s)).ended = some (.killed s) ∧
      (run fate w (es ++ sendTake s)).server = (run fate w es).server) := by
  have hno : (run fate w es).ended ≠ some .success := by
    intro hc
    rcases C160_why fate w es _ hc with ⟨h, -⟩ | ⟨s, h, -⟩ | ⟨-, ⟨s, h1, -, h2⟩ | ⟨-, h2, -⟩⟩
    · cases h
    · cases h
    · rcases h1 with rfl | rfl
      · exact hf.2.2 h2
      · exact hf.2.1 h2
    · exact hf.1 h2
  refine ⟨?_, hno, fun s hs hn => ?_⟩
  · clear hno
    induction es using hist_ind with
    | h0 =>
      show (if (nodeStart w ⟨nodeServer, 0, [], [], none⟩).2 = true then loop (nodeStart w ⟨nodeServer, 0, [], [], none⟩).1
        else { (nodeStart w ⟨nodeServer, 0, [], [], none⟩).1 with ended := some .failure }).starts = 1
      split
      · rw [loop_starts]; rfl
      · rfl
    | h1 es e ih =>
      rw [run_snoc]
      cases hn : (run fate w es).ended with
      | some y =>
        have hst : step fate w (run fate w es) e = run fate w es := by cases e <;> simp [step, hn]
        rw [hst]; exact ih
      | none =>
        cases e with
        | arrive s =>
          have : (step fate w (run fate w es) (.arrive s)).starts = (run fate w es).starts := by
            cases he : fateOf fate s with
            | blocked =>
              obtain ⟨l, hl, -⟩ := arrive_blocked (w := w) hn he
              rw [hl]
            | ends => simp [step, hn, he]
            | dropped => simp [step, hn, he]
          rw [this]; exact ih
        | take s =>
          by_cases hs : s ∈ (run fate w es).pending
          · rw [take_eq hn hs, loop_starts]
            have hb := (good_run fate w es).pending s hs
            cases s with
            | hup => exact absurd hb hf.1
            | int => exact ih
            | term => exact ih
            | kill => exact ih
            | other n => exact ih
          · have hst : step fate w (run fate w es) (.take s) = run fate w es := by simp [step, hn, hs]
            rw [hst]; exact ih
  · have he : fateOf fate s = .ends := by cases s <;> first | rfl | exact hs
    rw [run_append]
    simp [sendTake, step, hn, he]

example : shellFate .hup ≠ .blocked ∧ shellFate .int ≠ .blocked ∧ shellFate .term ≠ .blocked ∧
    (run shellFate (lightWorld 5) (sendTake .hup)).ended = some (.killed .hup) := by decide

end Uecho.Props
