import Verif.Spec.ControllerFields
import Verif.Props.Server
/-! # C140, C141: what a controller holds, and the switch of the unicast receivers -/
namespace Uecho.Lemmas
open Uecho Uecho.Spec Uecho.CtrlSet

theorem and_one_eq (x : BitVec 32) : (x &&& 1#32 = 0#32) ↔ x.getLsbD 0 = false := by
  constructor
  · intro h
    have := congrArg (·.getLsbD 0) h
    simpa using this
  · intro h
    apply BitVec.eq_of_getLsbD_eq
    intro i hi
    rw [BitVec.getLsbD_and]
    by_cases h0 : i = 0
    · subst h0; rw [h]; rfl
    · simp [h0]

theorem ctrl_inv (cs : List CtrlCall) : ∀ c : Ctrl, c.server.udpEnabled = !c.option.getLsbD 0 →
    (cs.foldl ctrlCall c).server.udpEnabled = !(cs.foldl ctrlCall c).option.getLsbD 0 := by
  have hset : ∀ (s : Server.Server) (v : BitVec 32), (serverSetOption s v).udpEnabled = !v.getLsbD 0 := by
    intro s v
    unfold serverSetOption
    cases h : v.getLsbD 0 with
    | false => simpa using (and_one_eq v).2 h
    | true =>
      have : ¬ v &&& 1#32 = 0#32 := fun h' => by rw [(and_one_eq v).1 h'] at h; cases h
      simpa using this
  induction cs with
  | nil => intro c h; exact h
  | cons x cs ih =>
    intro c h
    rw [List.foldl_cons]
    apply ih
    cases x with
    | messageListener l => exact h
    | nodeListener l => exact h
    | userData d => exact h
    | postWait t => exact h
    | enable p => exact hset _ _
    | disable p => exact hset _ _
    | disableUdp => exact hset _ _
    | enableUdp => exact hset _ _
    | start os a =>
      show (Server.start os c.server).1.udpEnabled = _
      rw [(Props.C78_start os c.server).2.2.2.2.1]; exact h
    | stop => exact h

end Uecho.Lemmas

namespace Uecho.Props
open Uecho Uecho.Spec Uecho.Lemmas Uecho.CtrlSet

/-- **C140.** After any calls, a controller's message listener, node listener, user data and waiting time are those given last; in a new
controller there are none, and the waiting time is 5000000. -/
theorem C140_fields (opt0 : BitVec 32) (node ctrl hn hc : Nat) (cs : List CtrlCall) :
    let c := cs.foldl ctrlCall (CtrlSet.new opt0 node ctrl hn hc)
    getMessageListener c = lastGiven givenMessageListener none cs ∧
    hasMessageListener c = (lastGiven givenMessageListener none cs).isSome ∧
    c.nodeListener = lastGiven givenNodeListener none cs ∧
    getUserData c = lastGiven givenUserData none cs ∧
    getPostWait c = lastGiven givenWait 5000000 cs := by
  have key : ∀ (cs : List CtrlCall) (c : Ctrl),
      (cs.foldl ctrlCall c).msgListener = lastGiven givenMessageListener c.msgListener cs ∧
      (cs.foldl ctrlCall c).nodeListener = lastGiven givenNodeListener c.nodeListener cs ∧
      (cs.foldl ctrlCall c).userData = lastGiven givenUserData c.userData cs ∧
      (cs.foldl ctrlCall c).postWait = lastGiven givenWait c.postWait cs := by
    intro cs
    induction cs with
    | nil => intro c; exact ⟨rfl, rfl, rfl, rfl⟩
    | cons x cs ih =>
      intro c
      have := ih (ctrlCall c x)
      cases x <;> exact this
  intro c
  obtain ⟨h1, h2, h3, h4⟩ := key cs (CtrlSet.new opt0 node ctrl hn hc)
  refine ⟨h1, ?_, h2, h3, h4⟩
  unfold hasMessageListener
  have h1' : c.msgListener = lastGiven givenMessageListener none cs := h1
  rw [h1']
  cases (lastGiven givenMessageListener none cs) <;> rfl

/-- **C141, partial** (the unicast receivers are enabled only while they are disabled). After any calls on a new controller, the unicast
receivers are enabled exactly if they were not disabled last, and a start that succeeds makes one unicast receiver for each
interface if they are enabled and none otherwise; the multicast receivers are always made. -/
theorem C141_switch_partial (opt0 : BitVec 32) (node ctrl hn hc : Nat) (cs : List CtrlCall) (ha : Alternating true cs) :
    let c := cs.foldl ctrlCall (CtrlSet.new opt0 node ctrl hn hc)
    isUdpServerEnabled c = udpWanted true cs ∧
    ∀ os announced, (CtrlSet.start os announced c).2 = true →
      (CtrlSet.start os announced c).1.server.udp.map (·.socket) = (if udpWanted true cs then os.ifaces.map some else []) ∧
      (CtrlSet.start os announced c).1.server.mcast.map (·.socket) = os.ifaces.map some ∧
      CtrlSet.isRunning (CtrlSet.start os announced c).1 = true := by
  have hen : ∀ c : Ctrl, isUdpServerEnabled c = !c.option.getLsbD 0 := by
    intro c
    unfold isUdpServerEnabled isOptionEnabled
    cases h : c.option.getLsbD 0 with
    | false => rw [if_pos ((and_one_eq _).2 h)]
    | true => rw [if_neg fun h' => by rw [(and_one_eq _).1 h'] at h; cases h]
  have key : ∀ (cs : List CtrlCall) (c : Ctrl) (b : Bool), (!c.option.getLsbD 0) = b → Alternating b cs →
      (!(cs.foldl ctrlCall c).option.getLsbD 0) = udpWanted b cs := by
    intro cs
    induction cs with
    | nil => intro c b h _; exact h
    | cons x cs ih =>
      intro c b h ha
      rw [List.foldl_cons]
      cases x with
      | messageListener l => exact ih _ b h ha
      | nodeListener l => exact ih _ b h ha
      | userData d => exact ih _ b h ha
      | postWait t => exact ih _ b h ha
      | start os a => exact ih _ b h ha
      | stop => exact ih _ b h ha
      | enable p =>
        refine ih _ _ ?_ ha
        show (!(c.option ||| p).getLsbD 0) = _
        rw [BitVec.getLsbD_or, ← h]
        cases c.option.getLsbD 0 <;> cases p.getLsbD 0 <;> rfl
      | disable p =>
        refine ih _ _ ?_ ha.2
        show (!(c.option ^^^ p).getLsbD 0) = _
        have h1 := ha.1
        rw [BitVec.getLsbD_xor]
        rw [← h] at h1 ⊢
        revert h1
        cases c.option.getLsbD 0 <;> cases p.getLsbD 0 <;> simp
      | disableUdp =>
        refine ih _ _ ?_ ha
        show (!(c.option ||| 1#32).getLsbD 0) = _
        rw [BitVec.getLsbD_or]; simp
      | enableUdp =>
        refine ih _ _ ?_ ha.2
        show (!(c.option ^^^ 1#32).getLsbD 0) = _
        have h1 := ha.1
        rw [BitVec.getLsbD_xor]
        rw [← h] at h1
        revert h1
        cases c.option.getLsbD 0 <;> simp
  intro c
  have h1 : isUdpServerEnabled c = udpWanted true cs := by
    rw [hen]
    exact key cs (CtrlSet.new opt0 node ctrl hn hc) true (by simp [CtrlSet.new]) ha
  refine ⟨h1, ?_⟩
  intro os announced hok
  have hinv := ctrl_inv cs (CtrlSet.new opt0 node ctrl hn hc) (by simp [CtrlSet.new, serverSetOption])
  have hudp : c.server.udpEnabled = udpWanted true cs := by
    rw [← h1, hen]; exact hinv
  have hs : (Server.start os c.server).2 = true := by
    simp only [CtrlSet.start, Bool.and_eq_true] at hok
    exact hok.1
  obtain ⟨e1, e2, e3, -, -⟩ := (C78_start os c.server).2.1 hs
  have hr : ∀ obs, (receivers os obs).map (·.socket) = os.ifaces.map some := by
    intro obs
    unfold receivers
    rw [List.map_map]; rfl
  refine ⟨?_, ?_, e3⟩
  · show (Server.start os c.server).1.udp.map _ = _
    rw [e2, hudp]
    cases udpWanted true cs
    · rfl
    · exact hr _
  · show (Server.start os c.server).1.mcast.map _ = _
    rw [e1]; exact hr _

/-- **C141, violated.** Enabling the unicast receivers of a new controller, where they are enabled, disables them: no start makes any. -/
theorem C141_enable_violated (opt0 : BitVec 32) (node ctrl hn hc : Nat) (os : Server.Os) (announced : Bool) :
    let c := enableUdpServer (CtrlSet.new opt0 node ctrl hn hc)
    isUdpServerEnabled (CtrlSet.new opt0 node ctrl hn hc) = true ∧ isUdpServerEnabled c = false ∧
    (CtrlSet.start os announced c).1.server.udp = [] := by
  intro c
  refine ⟨by simp [isUdpServerEnabled, isOptionEnabled, CtrlSet.new], by simp [c, isUdpServerEnabled, isOptionEnabled, enableUdpServer, disableOption, nodeSetOption, CtrlSet.new], ?_⟩
  show (Server.start os c.server).1.udp = []
  cases h : (Server.start os c.server).2 with
  | true => 
    rw [((C78_start os c.server).2.1 h).2.1, if_neg]
    simp [c, enableUdpServer, disableOption, nodeSetOption, serverSetOption, CtrlSet.new]
  | false => exact ((C78_start os c.server).2.2.1 h).2.1

/-- **C141, violated.** Disabling the unicast receivers of a running controller leaves them running until the next stop or start. -/
theorem C141_late_violated (c : Ctrl) : (disableUdpServer c).server.udp = c.server.udp ∧ isUdpServerEnabled (disableUdpServer c) = false := by
  refine ⟨rfl, ?_⟩
  unfold isUdpServerEnabled isOptionEnabled
  rw [if_neg]
  · rfl
  · intro h
    have := (and_one_eq _).1 h
    revert this
    show (c.option ||| 1#32).getLsbD 0 = false → False
    rw [BitVec.getLsbD_or]; simp

/-- **C141.** Stopping a controller, whatever it did before, leaves it without receivers and not running, and what it was given is kept. -/
theorem C141_stop (opt0 : BitVec 32) (node ctrl hn hc : Nat) (cs : List CtrlCall) :
    let c := cs.foldl ctrlCall (CtrlSet.new opt0 node ctrl hn hc)
    (CtrlSet.stop c).2 = true ∧ (CtrlSet.stop c).1.server.udp = [] ∧ (CtrlSet.stop c).1.server.mcast = [] ∧ CtrlSet.isRunning (CtrlSet.stop c).1 = false ∧
    isUdpServerEnabled (CtrlSet.stop c).1 = isUdpServerEnabled c ∧ getMessageListener (CtrlSet.stop c).1 = getMessageListener c ∧
    (CtrlSet.stop c).1.server.observers = c.server.observers := by
  intro c
  exact ⟨rfl, rfl, rfl, rfl, rfl, rfl, rfl⟩

/-- A history that disables, starts, enables and starts again. -/
example : ∃ os : Server.Os, Alternating true [.disableUdp, .start os true, .userData (some 7), .enableUdp, .start os true, .postWait 10] ∧
    (CtrlSet.start os true ([.disableUdp, .start os true, .userData (some 7), .enableUdp].foldl ctrlCall (CtrlSet.new 0#32 1 2 3 4))).2 = true ∧
    os.ifaces.length = 2 :=
  ⟨⟨["192.0.2.1", "192.0.2.2"], fun _ _ => true, fun _ _ => true⟩, by simp [Alternating], by decide, rfl⟩

end Uecho.Props
