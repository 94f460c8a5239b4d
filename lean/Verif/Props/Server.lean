import Verif.Lemmas.Server
/-!
# C60, C62, C78, C79: the server layer
-/
namespace Uecho.Props
open Uecho Uecho.Server Uecho.Lemmas

/-- A list of observers made by registering the given pairs of object and handler one after the other. -/
def registered (regs : List (Option Nat × Option Nat)) : List Observer :=
  regs.foldl (fun os r => addObserver os r.1 r.2) []

/-- C60: a message is passed to every registered observer once, in the order of registration; registrations without object or
handler are not observers. -/
theorem C60_once_in_order (regs : List (Option Nat × Option Nat)) :
    perform (registered regs) = regs.filterMap fun r => match r with
      | (some x, some h) => some (h, x)
      | _ => none := by
  have gen : ∀ (os : List Observer), perform (regs.foldl (fun os r => addObserver os r.1 r.2) os) =
      perform os ++ regs.filterMap fun r => match r with
        | (some x, some h) => some (h, x)
        | _ => none := by
    induction regs with
    | nil => simp
    | cons r regs ih =>
      intro os
      obtain ⟨x, h⟩ := r
      rw [List.foldl_cons, ih]
      cases x <;> cases h <;> simp [addObserver, perform_append, perform]
  simpa [perform, registered] using gen []

example : perform (registered [(some 1, some 7), (none, some 8), (some 2, some 7), (some 1, some 7)]) =
    [(7, 1), (7, 2), (7, 1)] := rfl

/-- What the operating system must grant for a start of one kind of receivers. -/
def Granted (os : Os) (k : Kind) : Prop :=
  os.ifaces ≠ [] ∧ ∀ a ∈ os.ifaces, os.openOk k a = true ∧ os.threadOk k a = true

/-- The started receivers: one per interface, bound to its address, running, with the given observers. -/
def receivers (os : Os) (obs : List Observer) : List Sub := os.ifaces.map fun a => ⟨some a, true, obs⟩

theorem start_result (os : Os) (s : Server) (hobs : ∀ o ∈ s.observers, o.handler.isSome ∧ o.obj.isSome)
    (hm : Granted os .mcast) (hu : s.udpEnabled = true → Granted os .udp) :
    start os s = (⟨if s.udpEnabled then receivers os s.observers else [], receivers os s.observers, s.observers, s.udpEnabled⟩,
      true) := by
  have hfil : (s.observers.filter fun o => o.handler.isSome && o.obj.isSome) = s.observers := by
    rw [List.filter_eq_self]
    intro o ho
    simp [hobs o ho]
  have hall : (s.observers.all fun o => !(o.handler.isNone || o.obj.isNone)) = true := by
    rw [List.all_eq_true]
    intro o ho
    have := hobs o ho
    cases hh : o.handler <;> cases hx : o.obj <;> simp_all
  have op : ∀ k, Granted os k → openList os k [] = (os.ifaces.map fun a => ⟨some a, false, []⟩, true) := by
    intro k hk
    have h1 := openList_nil os k
    have h2 : (openList os k []).2 = true := by
      rw [h1.1]
      simp only [Bool.and_eq_true, Bool.not_eq_true', List.isEmpty_eq_false_iff, List.all_eq_true]
      exact ⟨hk.1, fun a ha => (hk.2 a ha).1⟩
    exact Prod.ext (h1.2 h2) h2
  have stt : ∀ k, Granted os k → startList os k (os.ifaces.map fun a => ⟨some a, false, s.observers⟩) =
      (receivers os s.observers, true) := by
    intro k hk
    have h1 := startList_opened os k s.observers os.ifaces
    have h2 : (startList os k (os.ifaces.map fun a => ⟨some a, false, s.observers⟩)).2 = true := by
      rw [h1.1, List.all_eq_true]
      exact fun a ha => (hk.2 a ha).2
    exact Prod.ext (h1.2 h2) h2
  have reg : register (os.ifaces.map fun a => ⟨some a, false, []⟩) s.observers =
      os.ifaces.map fun a => ⟨some a, false, s.observers⟩ := by
    rw [register_eq, hfil, List.map_map]
    rfl
  have reg0 : register [] s.observers = [] := by rw [register_eq]; rfl
  unfold start
  simp only [stop, op .mcast hm, hall, reg, stt .mcast hm]
  by_cases hue : s.udpEnabled = true
  · simp [hue, op .udp (hu hue), reg, stt .udp (hu hue)]
  · simp [hue, reg0]

/-- C78: starting a server succeeds exactly if the host has an interface, every interface yields a socket and a thread of each kind in
use, and every observer is complete. Then there is one running receiver per interface and kind, bound to its address, each with
exactly the registered observers; otherwise nothing is left behind. The result does not depend on what was running before. -/
theorem C78_start (os : Os) (s : Server) :
    ((start os s).2 = true ↔ (∀ o ∈ s.observers, o.handler.isSome ∧ o.obj.isSome) ∧ Granted os .mcast ∧
      (s.udpEnabled = true → Granted os .udp)) ∧
    ((start os s).2 = true →
      (start os s).1.mcast = receivers os s.observers ∧
      (start os s).1.udp = (if s.udpEnabled then receivers os s.observers else []) ∧
      isRunning (start os s).1 = true ∧
      (∀ a, isBoundAddress (start os s).1 a = true ↔ a ∈ os.ifaces) ∧ getAddress (start os s).1 ∈ os.ifaces) ∧
    ((start os s).2 = false → (start os s).1.mcast = [] ∧ (start os s).1.udp = [] ∧ isRunning (start os s).1 = false ∧
      (∀ a, isBoundAddress (start os s).1 a = false) ∧ getAddress (start os s).1 = "") ∧
    (start os s).1.observers = s.observers ∧ (start os s).1.udpEnabled = s.udpEnabled ∧
    start os s = start os (stop s).1 := by
  have hconv : (start os s).2 = true → (∀ o ∈ s.observers, o.handler.isSome ∧ o.obj.isSome) ∧ Granted os .mcast ∧
      (s.udpEnabled = true → Granted os .udp) := by
    intro h
    unfold start at h
    simp only [stop] at h
    have hok : ((openList os .mcast []).2 && (if s.udpEnabled = true then openList os .udp [] else ([], true)).2 &&
        (s.observers.all fun o => !(o.handler.isNone || o.obj.isNone)) &&
        (startList os .mcast (register (openList os .mcast []).1 s.observers)).2 &&
        (if s.udpEnabled = true then startList os .udp (register (if s.udpEnabled = true then openList os .udp []
          else ([], true)).1 s.observers) else (register (if s.udpEnabled = true then openList os .udp []
          else ([], true)).1 s.observers, true)).2) = true := ite_snd_true h
    simp only [Bool.and_eq_true] at hok
    obtain ⟨⟨⟨⟨h1, h2⟩, h3⟩, h4⟩, h5⟩ := hok
    have hobs : ∀ o ∈ s.observers, o.handler.isSome ∧ o.obj.isSome := by
      intro o ho
      have := List.all_eq_true.mp h3 o ho
      cases hh : o.handler <;> cases hx : o.obj <;> simp_all
    have hfil : (s.observers.filter fun o => o.handler.isSome && o.obj.isSome) = s.observers := by
      rw [List.filter_eq_self]
      intro o ho
      simp [hobs o ho]
    have gr : ∀ k, (openList os k []).2 = true → (startList os k (register (openList os k []).1 s.observers)).2 = true →
        Granted os k := by
      intro k ho hs
      have o1 := openList_nil os k
      rw [o1.2 ho, register_eq, hfil, List.map_map] at hs
      have hs' := (startList_opened os k s.observers os.ifaces).1
      rw [o1.1] at ho
      simp only [Bool.and_eq_true, Bool.not_eq_true', List.isEmpty_eq_false_iff, List.all_eq_true] at ho
      refine ⟨ho.1, fun a ha => ⟨ho.2 a ha, ?_⟩⟩
      have : os.ifaces.all (os.threadOk k) = true := by
        rw [← hs']; exact hs
      exact List.all_eq_true.mp this a ha
    refine ⟨hobs, gr .mcast h1 h4, fun hu => ?_⟩
    simp only [hu, if_true] at h2 h5
    exact gr .udp h2 h5
  have hfalse : (start os s).2 = false → (start os s).1 = ⟨[], [], s.observers, s.udpEnabled⟩ := by
    intro h
    unfold start at h ⊢
    exact ite_snd_false h
  refine ⟨⟨hconv, fun ⟨h1, h2, h3⟩ => by rw [start_result os s h1 h2 h3]⟩, ?_, ?_, ?_, ?_, rfl⟩
  · intro h
    obtain ⟨h1, h2, h3⟩ := hconv h
    rw [start_result os s h1 h2 h3]
    have hne : receivers os s.observers ≠ [] := by
      simp only [receivers, ne_eq, List.map_eq_nil_iff]
      exact h2.1
    refine ⟨rfl, rfl, ?_, ?_, ?_⟩
    · unfold isRunning listRunning
      by_cases hu : s.udpEnabled = true <;> simp [hu, List.length_pos_iff, hne]
    · intro a
      unfold isBoundAddress listBound
      by_cases hu : s.udpEnabled = true <;> simp [hu, receivers]
    · obtain ⟨a, as, e⟩ : ∃ a as, os.ifaces = a :: as := by
        cases h : os.ifaces with
        | nil => exact absurd h h2.1
        | cons a as => exact ⟨a, as, rfl⟩
      simp [getAddress, receivers, e]
  · intro h
    rw [hfalse h]
    refine ⟨rfl, rfl, ?_, fun a => ?_, ?_⟩ <;> simp [isRunning, listRunning, isBoundAddress, listBound, getAddress]
  · cases h : (start os s).2 with
    | true => obtain ⟨h1, h2, h3⟩ := hconv h; rw [start_result os s h1 h2 h3]
    | false => rw [hfalse h]
  · cases h : (start os s).2 with
    | true => obtain ⟨h1, h2, h3⟩ := hconv h; rw [start_result os s h1 h2 h3]
    | false => rw [hfalse h]

example : Granted ⟨["192.0.2.1", "192.0.2.2"], fun _ _ => true, fun _ _ => true⟩ .mcast := by
  refine ⟨by simp, fun a _ => ⟨rfl, rfl⟩⟩

/-- C60: in a started server each receiver passes a message to exactly the observers of the server. -/
theorem C60_receivers (os : Os) (s : Server) (h : (start os s).2 = true) :
    ∀ r ∈ (start os s).1.mcast ++ (start os s).1.udp, perform r.observers = perform s.observers := by
  obtain ⟨_, h2, _⟩ := C78_start os s
  obtain ⟨e1, e2, _⟩ := h2 h
  intro r hr
  rw [e1, e2] at hr
  have : r ∈ receivers os s.observers := by
    rcases List.mem_append.mp hr with h | h
    · exact h
    · split at h
      · exact h
      · simp at h
  obtain ⟨a, _, rfl⟩ := List.mem_map.mp this
  rfl

/-- `uecho_server_addobserver` — src/uecho/frame/server.c:234-237. -/
def serverAddObserver (s : Server) (obj handler : Option Nat) : Server :=
  { s with observers := addObserver s.observers obj handler }

/-- C60 violated: an observer that is registered with a running server gets nothing until the next start. -/
theorem C60_late_observer_violated (os : Os) (s : Server) (h : (start os s).2 = true) (x f : Nat) :
    ∀ r ∈ (serverAddObserver (start os s).1 (some x) (some f)).mcast, perform r.observers = perform s.observers :=
  fun r hr => C60_receivers os s h r (List.mem_append.mpr (.inl hr))

/-- C62 (partial: there is at least one multicast receiver, i.e. the server runs): announcing reports success only if the datagram
was taken by the operating system for every multicast socket, or, after a failure there, by a socket made for it. -/
theorem C62_announce_partial (net : SendTo) (s : Server) (hrun : s.mcast ≠ []) (msg : List Byte)
    (h : (postAnnounce net s msg).1 = true) :
    (∃ o ∈ (postAnnounce net s msg).2, o.msg = msg ∧ o.dest = none) ∧
    (⟨none, none, msg⟩ ∉ (postAnnounce net s msg).2 →
      (postAnnounce net s msg).2 = s.mcast.map fun r => ⟨r.socket, none, msg⟩) := by
  have key : ∀ (l : List Sub) (i : Nat), (postList net msg l i).1 = true →
      (postList net msg l i).2.2 = l.map fun r => (⟨r.socket, none, msg⟩ : Out) := by
    intro l
    induction l with
    | nil => intro i _; rfl
    | cons r l ih =>
      intro i hi
      obtain ⟨sock, th, ob⟩ := r
      cases sock with
      | none => simp [postList] at hi
      | some a =>
        simp only [postList, Bool.and_eq_true] at hi ⊢
        rw [ih (i + 1) hi.2, sendOne_out, hi.1]
        rfl
  unfold postAnnounce at h ⊢
  cases hp : (postList net msg s.mcast 0).1 with
  | true =>
    have hk := key s.mcast 0 hp
    simp only [hp, if_true] at h ⊢
    rw [hk]
    refine ⟨?_, fun _ => rfl⟩
    obtain ⟨r, l, e⟩ : ∃ r l, s.mcast = r :: l := by
      cases hm : s.mcast with
      | nil => exact absurd hm hrun
      | cons r l => exact ⟨r, l, rfl⟩
    exact ⟨⟨r.socket, none, msg⟩, by simp [e], rfl, rfl⟩
  | false =>
    simp only [hp, Bool.false_eq_true, if_false] at h ⊢
    rw [sendOne_out, h]
    exact ⟨⟨⟨none, none, msg⟩, by simp, rfl, rfl⟩, fun hn => absurd (by simp) hn⟩

/-- C62: an announcement goes out at most once over each multicast socket, in their order, and then at most once over the socket made as a last
resort. -/
theorem C62_order (net : SendTo) (s : Server) (msg : List Byte) :
    (postAnnounce net s msg).2.Sublist ((s.mcast.map fun r => ⟨r.socket, none, msg⟩) ++ [⟨none, none, msg⟩]) := by
  have one : ∀ i o, (sendOne net i o).2.Sublist [o] := by
    intro i o
    unfold sendOne
    split <;> (first | exact .refl _ | exact List.nil_sublist _)
  have key : ∀ (l : List Sub) (i : Nat), (postList net msg l i).2.2.Sublist (l.map fun r => (⟨r.socket, none, msg⟩ : Out)) := by
    intro l
    induction l with
    | nil => intro i; exact .refl _
    | cons r l ih =>
      intro i
      unfold postList
      cases hs : r.socket with
      | none => simp only [List.map_cons]; exact (ih i).cons _
      | some a =>
        simp only [List.map_cons, hs]
        exact (one i ⟨some a, none, msg⟩).append (ih (i + 1))
  unfold postAnnounce
  simp only
  split
  · exact (key _ _).trans (List.sublist_append_left _ _)
  · exact (key _ _).append (one _ _)

/-- C62: a failure is never reported when every multicast socket, or the socket made as a last resort, took the datagram. -/
theorem C62_failure (net : SendTo) (s : Server) (msg : List Byte) (h : (postAnnounce net s msg).1 = false) :
    ⟨none, none, msg⟩ ∉ (postAnnounce net s msg).2 ∨ ∃ r ∈ s.mcast, r.socket = none := by
  by_cases hs : ∃ r ∈ s.mcast, r.socket = none
  · exact .inr hs
  · left
    have hno : ∀ (l : List Sub) (i : Nat), (∀ r ∈ l, r.socket ≠ none) → ⟨none, none, msg⟩ ∉ (postList net msg l i).2.2 := by
      intro l
      induction l with
      | nil => intro i _; simp [postList]
      | cons r l ih =>
        intro i hl
        obtain ⟨sock, th, ob⟩ := r
        cases sock with
        | none => exact absurd rfl (hl ⟨none, th, ob⟩ (by simp))
        | some a =>
          simp only [postList, List.mem_append, not_or]
          refine ⟨?_, ih (i + 1) (fun r hr => hl r (by simp [hr]))⟩
          rw [sendOne_out]
          split <;> simp
    unfold postAnnounce at h ⊢
    cases hp : (postList net msg s.mcast 0).1 with
    | true => simp [hp] at h
    | false =>
      simp only [hp, Bool.false_eq_true, if_false] at h ⊢
      rw [sendOne_out, h]
      simp only [Bool.false_eq_true, if_false, List.append_nil]
      exact hno _ _ (fun r hr e => hs ⟨r, hr, e⟩)

/-- C78: a new server has no observers, and receives by multicast and unicast once it is started. -/
theorem C78_new (os : Os) (h : (start os new).2 = true) : (start os new).1.mcast = receivers os [] ∧ (start os new).1.udp = receivers os [] :=
  ⟨((C78_start os new).2.1 h).1, ((C78_start os new).2.1 h).2.1⟩

example : (start ⟨["192.0.2.1"], fun _ _ => true, fun _ _ => true⟩ new).2 = true := by decide

/-- C62 violated: a server that does not run (never started, stopped, or failed to start) reports every announcement as
successful and hands nothing to the operating system. -/
theorem C62_stopped_violated (net : SendTo) (os : Os) (s : Server) (msg : List Byte) :
    postAnnounce net new msg = (true, []) ∧ postAnnounce net (stop s).1 msg = (true, []) ∧
    ((start os s).2 = false → postAnnounce net (start os s).1 msg = (true, [])) := by
  refine ⟨rfl, rfl, fun h => ?_⟩
  obtain ⟨_, _, h3, _⟩ := C78_start os s
  unfold postAnnounce
  rw [(h3 h).1]
  rfl

example : ∃ net : SendTo, (postAnnounce net ⟨[], [⟨some "192.0.2.1", true, []⟩, ⟨some "192.0.2.2", true, []⟩], [], true⟩
    [1#8, 2#8]).1 = true := ⟨fun _ => some 2, rfl⟩

/-- C79: sending to an address reports success exactly if the operating system took the datagram, and then exactly once. -/
theorem C79_response (net : SendTo) (s : Server) (addr : String) (msg : List Byte) :
    ((postResponse net s addr msg).1 = true → ∃ sock, (postResponse net s addr msg).2 = [⟨sock, some addr, msg⟩]) ∧
    ((postResponse net s addr msg).1 = false → (postResponse net s addr msg).2 = []) := by
  have key : ∀ l : List Sub, ((udpSendTo net addr msg l).1 = true → ∃ sock, (udpSendTo net addr msg l).2.2 =
      [⟨sock, some addr, msg⟩]) ∧ ((udpSendTo net addr msg l).1 = false → (udpSendTo net addr msg l).2.2 = []) := by
    intro l
    induction l with
    | nil => simp [udpSendTo]
    | cons r l ih =>
      obtain ⟨sock, th, ob⟩ := r
      cases sock with
      | none => exact ih
      | some a =>
        simp only [udpSendTo]
        constructor
        · intro h; rw [sendOne_out, h]; exact ⟨some a, rfl⟩
        · intro h; rw [sendOne_out, h]; rfl
  obtain ⟨k1, k2⟩ := key s.udp
  unfold postResponse
  cases hp : (udpSendTo net addr msg s.udp).1 with
  | true => simp only [hp, if_true]; exact ⟨fun _ => k1 hp, fun h => by simp at h⟩
  | false =>
    simp only [hp, Bool.false_eq_true, if_false, k2 hp, List.nil_append]
    constructor
    · intro h; rw [sendOne_out, h]; exact ⟨none, rfl⟩
    · intro h; rw [sendOne_out, h]; rfl

/-- C79: the attempts. The datagram is handed to the first opened unicast socket; if there is none, or if the operating system does not
take the whole datagram there, it is handed to a socket made for it, once. -/
theorem C79_attempts (net : SendTo) (s : Server) (addr : String) (msg : List Byte) :
    postResponse net s addr msg =
      match (s.udp.filterMap (·.socket)).head? with
      | some a =>
        if net 0 = some msg.length then (true, [⟨some a, some addr, msg⟩])
        else if net 1 = some msg.length then (true, [⟨none, some addr, msg⟩]) else (false, [])
      | none => if net 0 = some msg.length then (true, [⟨none, some addr, msg⟩]) else (false, []) := by
  have key : ∀ l : List Sub, udpSendTo net addr msg l = match (l.filterMap (·.socket)).head? with
      | some a => ((sendOne net 0 ⟨some a, some addr, msg⟩).1, 1, (sendOne net 0 ⟨some a, some addr, msg⟩).2)
      | none => (false, 0, []) := by
    intro l
    induction l with
    | nil => rfl
    | cons r l ih =>
      obtain ⟨sock, th, ob⟩ := r
      cases sock with
      | none => simpa [udpSendTo] using ih
      | some a => simp [udpSendTo]
  unfold postResponse
  rw [key]
  cases (s.udp.filterMap (·.socket)).head? with
  | none => by_cases h : net 0 = some msg.length <;> simp [sendOne, h]
  | some a =>
    by_cases h : net 0 = some msg.length
    · simp [sendOne, h]
    · by_cases h1 : net 1 = some msg.length <;> simp [sendOne, h, h1]

/-- The unicast socket fails, the socket made for the datagram does not. -/
example : ∃ net : SendTo, postResponse net ⟨[⟨none, true, []⟩, ⟨some "192.0.2.1", true, []⟩], [], [], true⟩ "192.0.2.9" [1#8, 2#8] =
    (true, [⟨none, some "192.0.2.9", [1#8, 2#8]⟩]) := ⟨fun i => if i = 0 then none else some 2, rfl⟩

end Uecho.Props
