import Verif.Lemmas.CString
import Verif.Spec.Records
/-! # Lemmas for C134 and C135: records hold what was set last -/
namespace Uecho.Lemmas
open Uecho Uecho.Spec Uecho.CString Uecho.Records

/-- The text that a field holds, without a zero. -/
def Text (s : Str) (t : Option (List Byte)) : Prop := Holds s t ∧ IsText t

theorem text_new : Text CString.new none := ⟨by simp [Holds, CString.new], by intro cs h; cases h⟩

theorem text_set {s : Str} {t : Option (List Byte)} (h : Text s t) (v : Option (List Byte)) (hv : IsText v) :
    ∃ s', CString.set s v = .ok s' ∧ Text s' (v.or t) := by
  cases v with
  | none => exact ⟨s, rfl, by simpa using h⟩
  | some cs =>
    obtain ⟨s', h1, h2⟩ := holds_setN h.1 (some cs) cs.length (by simp [TextOp.Ok])
    refine ⟨s', h1, ?_, by simpa using hv⟩
    simpa [TextOp.apply] using h2

theorem takeWhile_zfree (cs : List Byte) (h : 0#8 ∉ cs) : cs.takeWhile (· ≠ 0#8) = cs := by
  induction cs with
  | nil => rfl
  | cons c cs ih =>
    simp only [List.mem_cons, not_or] at h
    rw [List.takeWhile_cons, if_pos (by simpa using fun e => h.1 e.symm), ih h.2]

theorem text_get {s : Str} {t : Option (List Byte)} (h : Text s t) : CString.getValue s = .ok t := by
  obtain ⟨h1, h2⟩ := h
  unfold Holds at h1
  unfold CString.getValue
  cases hv : s.value with
  | none =>
    rw [hv] at h1
    cases t with
    | none => rfl
    | some v => exact absurd h1 (by simp)
  | some m =>
    rw [hv] at h1
    cases t with
    | none => exact absurd h1 (by simp)
    | some v =>
      obtain ⟨-, -, -, rest, e⟩ := h1
      subst e
      simp only [readZ_holds, Res.bind_ok, takeWhile_zfree v (h2 v rfl)]
      rfl

theorem lastText_snoc (vs : List (Option (List Byte))) (v : Option (List Byte)) :
    lastText (vs ++ [v]) = v.or (lastText vs) := by
  cases v <;> simp [lastText, List.filterMap_append]

theorem lastElse_snoc {α : Type} (d : α) (vs : List α) (v : α) : lastElse d (vs ++ [v]) = v := by
  simp [lastElse]

theorem runSetters_inv {α β : Type} {f : α → β → Res α} {Ok : β → Prop} {I : α → List β → Prop}
    (step : ∀ a cs c, I a cs → Ok c → ∃ a', f a c = .ok a' ∧ I a' (cs ++ [c])) :
    ∀ cs pre a, I a pre → (∀ c ∈ cs, Ok c) → ∃ a', runSetters f a cs = .ok a' ∧ I a' (pre ++ cs) := by
  intro cs
  induction cs with
  | nil => intro pre a h _; exact ⟨a, rfl, by simpa using h⟩
  | cons c cs ih =>
    intro pre a h hc
    obtain ⟨a', h1, h2⟩ := step a pre c h (hc c (by simp))
    obtain ⟨a'', h3, h4⟩ := ih (pre ++ [c]) a' h2 (fun x hx => hc x (by simp [hx]))
    exact ⟨a'', by simp only [runSetters, h1, Res.bind_ok, h3], by simpa using h4⟩

/-! ## Interfaces -/

def IfInv (i : NetIf) (cs : List IfCall) : Prop :=
  Text i.name (lastText (cs.filterMap IfCall.name?)) ∧ Text i.ipaddr (lastText (cs.filterMap IfCall.address?)) ∧
    Text i.netmask (lastText (cs.filterMap IfCall.netmask?)) ∧
    i.macaddr = lastElse (List.replicate 6 0#8) (cs.filterMap IfCall.mac?) ∧ i.macaddr.length = 6 ∧
    i.index = lastElse 0 (cs.filterMap IfCall.index?)

theorem if_step (i : NetIf) (cs : List IfCall) (c : IfCall) (h : IfInv i cs) (hc : c.Ok) :
    ∃ i', ifCall i c = .ok i' ∧ IfInv i' (cs ++ [c]) := by
  obtain ⟨h1, h2, h3, h4, h5, h6⟩ := h
  cases c with
  | name v =>
    obtain ⟨s, e, ht⟩ := text_set h1 v hc
    refine ⟨{ i with name := s }, by simp only [ifCall, NetIf.setName, e, Res.bind_ok]; rfl, ?_⟩
    simp only [IfInv, List.filterMap_append, List.filterMap_cons, List.filterMap_nil, IfCall.name?, IfCall.address?,
      IfCall.netmask?, IfCall.mac?, IfCall.index?, List.append_nil, lastText_snoc]
    exact ⟨ht, h2, h3, h4, h5, h6⟩
  | address v =>
    obtain ⟨s, e, ht⟩ := text_set h2 v hc
    refine ⟨{ i with ipaddr := s }, by simp only [ifCall, NetIf.setAddress, e, Res.bind_ok]; rfl, ?_⟩
    simp only [IfInv, List.filterMap_append, List.filterMap_cons, List.filterMap_nil, IfCall.name?, IfCall.address?,
      IfCall.netmask?, IfCall.mac?, IfCall.index?, List.append_nil, lastText_snoc]
    exact ⟨h1, ht, h3, h4, h5, h6⟩
  | netmask v =>
    obtain ⟨s, e, ht⟩ := text_set h3 v hc
    refine ⟨{ i with netmask := s }, by simp only [ifCall, NetIf.setNetmask, e, Res.bind_ok]; rfl, ?_⟩
    simp only [IfInv, List.filterMap_append, List.filterMap_cons, List.filterMap_nil, IfCall.name?, IfCall.address?,
      IfCall.netmask?, IfCall.mac?, IfCall.index?, List.append_nil, lastText_snoc]
    exact ⟨h1, h2, ht, h4, h5, h6⟩
  | mac v =>
    have hl : 6 ≤ v.length := hc
    have w : wrN i.macaddr 0 (v.take 6) = .ok (v.take 6) := by
      unfold wrN
      rw [if_pos (by simp; omega)]
      simp [h5, hl]
    refine ⟨{ i with macaddr := v.take 6 }, by simp only [ifCall, NetIf.setMac, rdN_zero hl, Res.bind_ok, w]; rfl, ?_⟩
    simp only [IfInv, List.filterMap_append, List.filterMap_cons, List.filterMap_nil, IfCall.name?, IfCall.address?,
      IfCall.netmask?, IfCall.mac?, IfCall.index?, List.append_nil, lastElse_snoc]
    exact ⟨h1, h2, h3, trivial, by simp; omega, h6⟩
  | index v =>
    refine ⟨{ i with index := v }, rfl, ?_⟩
    simp only [IfInv, List.filterMap_append, List.filterMap_cons, List.filterMap_nil, IfCall.name?, IfCall.address?,
      IfCall.netmask?, IfCall.mac?, IfCall.index?, List.append_nil, lastElse_snoc]
    exact ⟨h1, h2, h3, h4, h5, trivial⟩

theorem if_new : IfInv NetIf.new [] := by
  refine ⟨text_new, text_new, text_new, rfl, rfl, rfl⟩

/-! ## Datagrams -/

/-- What a datagram holds. -/
def PktHolds (p : Packet) (d : List Byte) (la ra : Option (List Byte)) (lp rp : Int) : Prop :=
  p.dataLen = d.length ∧ (p.data = none ∧ d = [] ∨ p.data = some d ∧ d ≠ []) ∧
    Text p.localAddr la ∧ Text p.remoteAddr ra ∧ p.localPort = lp ∧ p.remotePort = rp

theorem pkt_shows {p : Packet} {d : List Byte} {la ra : Option (List Byte)} {lp rp : Int} (h : PktHolds p d la ra lp rp) :
    PktShows p d la ra lp rp := by
  obtain ⟨h1, h2, h3, h4, h5, h6⟩ := h
  refine ⟨?_, h1, text_get h3, h5, text_get h4, h6⟩
  unfold Packet.getData
  rcases h2 with ⟨h2, rfl⟩ | ⟨h2, -⟩
  · rw [h2]; simp [h1]
  · rw [h2, h1]
    simp only [rdN_zero (Nat.le_refl _), List.take_length]

theorem pkt_new : PktHolds Packet.new [] none none 0 0 := ⟨rfl, .inl ⟨rfl, rfl⟩, text_new, text_new, rfl, rfl⟩

theorem pkt_setData {p : Packet} {d : List Byte} {la ra : Option (List Byte)} {lp rp : Int} (h : PktHolds p d la ra lp rp)
    (v : Option (List Byte)) (len : Nat) (hv : ∀ x, v = some x → len ≤ x.length) :
    ∃ p', p.setData v len = .ok p' ∧ PktHolds p' ((v.getD []).take len) la ra lp rp := by
  obtain ⟨-, -, h3⟩ := h
  cases v with
  | none => exact ⟨p.clear, rfl, by simp [Packet.clear], .inl ⟨rfl, by simp⟩, h3⟩
  | some x =>
    have hl := hv x rfl
    by_cases hz : len = 0
    · subst hz
      exact ⟨p.clear, rfl, rfl, .inl ⟨rfl, by simp⟩, h3⟩
    · refine ⟨{ p with data := some (x.take len), dataLen := len }, ?_, ?_, .inr ⟨rfl, ?_⟩, h3⟩
      · unfold Packet.setData
        simp only [Nat.le_zero, hz, if_false, rdN_zero hl, Res.bind_ok]
        rfl
      · simp; omega
      · simp only [Option.getD_some, ne_eq, List.take_eq_nil_iff, hz, false_or]
        rintro rfl
        simp at hl
        exact hz hl

def pktData (cs : List PktCall) : List Byte := lastElse [] (cs.filterMap PktCall.bytes)

def PktInv (p : Packet) (cs : List PktCall) : Prop :=
  PktHolds p (pktData cs) (lastText (cs.filterMap PktCall.localAddress?)) (lastText (cs.filterMap PktCall.remoteAddress?))
    (lastElse 0 (cs.filterMap PktCall.localPort?)) (lastElse 0 (cs.filterMap PktCall.remotePort?))

theorem pkt_step (p : Packet) (cs : List PktCall) (c : PktCall) (h : PktInv p cs) (hc : c.Ok) :
    ∃ p', pktCall p c = .ok p' ∧ PktInv p' (cs ++ [c]) := by
  cases c with
  | data v len =>
    obtain ⟨p', e, hp⟩ := pkt_setData h v len hc
    refine ⟨p', e, ?_⟩
    cases v <;>
    · simp only [PktInv, pktData, List.filterMap_append, List.filterMap_cons, List.filterMap_nil, PktCall.localAddress?,
        PktCall.remoteAddress?, PktCall.localPort?, PktCall.remotePort?, PktCall.bytes, List.append_nil, lastElse_snoc]
      simpa using hp
  | clear =>
    obtain ⟨-, -, h3⟩ := h
    refine ⟨p.clear, rfl, ?_⟩
    simp only [PktInv, pktData, List.filterMap_append, List.filterMap_cons, List.filterMap_nil, PktCall.localAddress?,
      PktCall.remoteAddress?, PktCall.localPort?, PktCall.remotePort?, PktCall.bytes, List.append_nil, lastElse_snoc]
    exact ⟨rfl, .inl ⟨rfl, rfl⟩, h3⟩
  | localAddress v =>
    obtain ⟨h1, h2, h3, h4, h5⟩ := h
    obtain ⟨s, e, ht⟩ := text_set h3 v hc
    refine ⟨{ p with localAddr := s }, by simp only [pktCall, Packet.setLocalAddress, e, Res.bind_ok]; rfl, ?_⟩
    simp only [PktInv, pktData, List.filterMap_append, List.filterMap_cons, List.filterMap_nil, PktCall.localAddress?,
      PktCall.remoteAddress?, PktCall.localPort?, PktCall.remotePort?, PktCall.bytes, List.append_nil, lastText_snoc]
    exact ⟨h1, h2, ht, h4, h5⟩
  | localPort v =>
    obtain ⟨h1, h2, h3, h4, -, h6⟩ := h
    refine ⟨{ p with localPort := v }, rfl, ?_⟩
    simp only [PktInv, pktData, List.filterMap_append, List.filterMap_cons, List.filterMap_nil, PktCall.localAddress?,
      PktCall.remoteAddress?, PktCall.localPort?, PktCall.remotePort?, PktCall.bytes, List.append_nil, lastElse_snoc]
    exact ⟨h1, h2, h3, h4, rfl, h6⟩
  | remoteAddress v =>
    obtain ⟨h1, h2, h3, h4, h5⟩ := h
    obtain ⟨s, e, ht⟩ := text_set h4 v hc
    refine ⟨{ p with remoteAddr := s }, by simp only [pktCall, Packet.setRemoteAddress, e, Res.bind_ok]; rfl, ?_⟩
    simp only [PktInv, pktData, List.filterMap_append, List.filterMap_cons, List.filterMap_nil, PktCall.localAddress?,
      PktCall.remoteAddress?, PktCall.localPort?, PktCall.remotePort?, PktCall.bytes, List.append_nil, lastText_snoc]
    exact ⟨h1, h2, h3, ht, h5⟩
  | remotePort v =>
    obtain ⟨h1, h2, h3, h4, h5, -⟩ := h
    refine ⟨{ p with remotePort := v }, rfl, ?_⟩
    simp only [PktInv, pktData, List.filterMap_append, List.filterMap_cons, List.filterMap_nil, PktCall.localAddress?,
      PktCall.remoteAddress?, PktCall.localPort?, PktCall.remotePort?, PktCall.bytes, List.append_nil, lastElse_snoc]
    exact ⟨h1, h2, h3, h4, h5, rfl⟩

theorem pkt_copy {dst src : Packet} {d d' : List Byte} {la ra la' ra' : Option (List Byte)} {lp rp lp' rp' : Int}
    (hs : PktHolds src d la ra lp rp) (hd : PktHolds dst d' la' ra' lp' rp') :
    ∃ p, Packet.copy dst src = .ok p ∧ PktHolds p d (la.or la') (ra.or ra') lp rp := by
  obtain ⟨s1, s2, s3, s4, s5, s6⟩ := hs
  obtain ⟨p, e, h1, h2, h3, h4, h5, h6⟩ := pkt_setData hd src.data (Packet.getLength src)
    (by intro x hx; rcases s2 with ⟨s2, -⟩ | ⟨s2, -⟩
        · rw [s2] at hx; cases hx
        · rw [s2] at hx; cases hx; exact Nat.le_of_eq s1)
  have hdat : (src.data.getD []).take (Packet.getLength src) = d := by
    unfold Packet.getLength
    rcases s2 with ⟨s2, rfl⟩ | ⟨s2, -⟩
    · simp [s2]
    · simp [s2, s1]
  rw [hdat] at h1 h2
  obtain ⟨l, el, hl⟩ := text_set h3 la s3.2
  obtain ⟨r, er, hr⟩ := text_set h4 ra s4.2
  refine ⟨{ p with localAddr := l, localPort := src.localPort, remoteAddr := r, remotePort := src.remotePort }, ?_, ?_⟩
  · simp only [Packet.copy, e, Res.bind_ok, Packet.getLocalAddress, text_get s3, Packet.setLocalAddress, el,
      Packet.setLocalPort, Packet.getRemoteAddress, text_get s4, Packet.setRemoteAddress, Res.pure_eq, er,
      Packet.setRemotePort, Packet.getLocalPort, Packet.getRemotePort]
  · exact ⟨h1, h2, hl, hr, s5, s6⟩

/-! ## Manufacturers and enumerations -/

def ManInv (m : Manufacture) (cs : List ManCall) : Prop :=
  m.code = lastElse 0 (cs.filterMap ManCall.code?) ∧ Text m.name (lastText (cs.filterMap ManCall.name?))

theorem man_step (m : Manufacture) (cs : List ManCall) (c : ManCall) (h : ManInv m cs) (hc : c.Ok) :
    ∃ m', manCall m c = .ok m' ∧ ManInv m' (cs ++ [c]) := by
  obtain ⟨h1, h2⟩ := h
  cases c with
  | code v =>
    refine ⟨{ m with code := v }, rfl, ?_⟩
    simp only [ManInv, List.filterMap_append, List.filterMap_cons, List.filterMap_nil, ManCall.code?, ManCall.name?,
      List.append_nil, lastElse_snoc]
    exact ⟨trivial, h2⟩
  | name v =>
    obtain ⟨s, e, ht⟩ := text_set h2 v hc
    refine ⟨{ m with name := s }, by simp only [manCall, Manufacture.setName, e, Res.bind_ok]; rfl, ?_⟩
    simp only [ManInv, List.filterMap_append, List.filterMap_cons, List.filterMap_nil, ManCall.code?, ManCall.name?,
      List.append_nil, lastText_snoc]
    exact ⟨h1, ht⟩

def EnumInv (m : PropEnum) (cs : List EnumCall) : Prop :=
  m.code = lastElse 0 (cs.filterMap EnumCall.code?) ∧ Text m.name (lastText (cs.filterMap EnumCall.name?)) ∧
    Text m.desc (lastText (cs.filterMap EnumCall.description?))

theorem enum_step (m : PropEnum) (cs : List EnumCall) (c : EnumCall) (h : EnumInv m cs) (hc : c.Ok) :
    ∃ m', enumCall m c = .ok m' ∧ EnumInv m' (cs ++ [c]) := by
  obtain ⟨h1, h2, h3⟩ := h
  cases c with
  | code v =>
    refine ⟨{ m with code := v }, rfl, ?_⟩
    simp only [EnumInv, List.filterMap_append, List.filterMap_cons, List.filterMap_nil, EnumCall.code?, EnumCall.name?,
      EnumCall.description?, List.append_nil, lastElse_snoc]
    exact ⟨trivial, h2, h3⟩
  | name v =>
    obtain ⟨s, e, ht⟩ := text_set h2 v hc
    refine ⟨{ m with name := s }, by simp only [enumCall, PropEnum.setName, e, Res.bind_ok]; rfl, ?_⟩
    simp only [EnumInv, List.filterMap_append, List.filterMap_cons, List.filterMap_nil, EnumCall.code?, EnumCall.name?,
      EnumCall.description?, List.append_nil, lastText_snoc]
    exact ⟨h1, ht, h3⟩
  | description v =>
    obtain ⟨s, e, ht⟩ := text_set h3 v hc
    refine ⟨{ m with desc := s }, by simp only [enumCall, PropEnum.setDescription, e, Res.bind_ok]; rfl, ?_⟩
    simp only [EnumInv, List.filterMap_append, List.filterMap_cons, List.filterMap_nil, EnumCall.code?, EnumCall.name?,
      EnumCall.description?, List.append_nil, lastText_snoc]
    exact ⟨h1, h2, ht⟩

/-! ## Observers -/

theorem foldl_inv {α β : Type} {f : α → β → α} {I : α → List β → Prop} (step : ∀ a cs c, I a cs → I (f a c) (cs ++ [c])) :
    ∀ cs pre a, I a pre → I (cs.foldl f a) (pre ++ cs) := by
  intro cs
  induction cs with
  | nil => intro pre a h; simpa using h
  | cons c cs ih => intro pre a h; simpa using ih (pre ++ [c]) (f a c) (step a pre c h)

theorem getLast?_snoc' {α : Type} (vs : List α) (v : α) : (vs ++ [v]).getLast? = some v := by simp

end Uecho.Lemmas
