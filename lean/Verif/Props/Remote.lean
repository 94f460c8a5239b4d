import Verif.Spec.Remote
import Verif.Props.Listener
import Verif.Props.Post
import Verif.Props.Node
/-!
# C84, C85: a controller and a remote node together

The request of a post goes as a datagram to a node, which handles it; the answer goes as a datagram to the controller, whose post
returns it. What the network does is that it delivers both datagrams once, the second one while the post waits (see C48).
-/
namespace Uecho.Props
open Uecho Uecho.Spec Uecho.Lemmas

theorem parsePacket_new {f : Frame} (hf : f.WF) (loc : Option String) (b : String) :
    Message.new.parsePacket (encode f) loc (some b) = .ok (true, reqMsg f (some b)) := by
  have h := parse_spec (m := Message.new) inv_new.toMsgWF (encode f ++ []) _ (Nat.le_refl _)
  rw [List.take_length, decode_complete hf, List.append_nil] at h
  simp only at h
  unfold Message.parsePacket
  rw [h]
  have : ((parsed Message.new f).setSourceAddress loc).setSourceAddress (some b) = reqMsg f (some b) := by
    unfold Message.setSourceAddress reqMsg; cases loc <;> rfl
  simp [this]

theorem toFrame_reqMsg {f : Frame} (hf : f.WF) (b : Option String) : toFrame (reqMsg f b) = f :=
  toFrame_parsed (m := Message.new) hf

/-- A frame with the TID of the request of a waiting post, another ESV and one section is returned by the post. -/
theorem post_returns {e : Endian} {ls : List Post.Label} {s : Post.Sys} {t : Nat} {j : Post.Job} {q : Message}
    (h : RunFromNew e ls s) (ha : AtomicListener ls) (hw : Waiting s t j) (hq : s.heap j.req = some q) {r : Frame} (hr : r.WF)
    (htid : r.tid = (toFrame q).tid) (hesv : r.esv ≠ q.esv) (hns : ¬ IsSetGet r.esv) (loc : Option String) (b : String) :
    PostReturns e s t j q loc b r := by
  have hp := parsePacket_new hr loc b
  have hans : Answers q (reqMsg r (some b)) := by
    have := toFrame_reqMsg hr (some b)
    refine ⟨?_, ?_, ?_⟩
    · show r.tid.1 = q.tid0; rw [htid]; rfl
    · show r.tid.2 = q.tid1; rw [htid]; rfl
    · exact hesv
  obtain ⟨s1, h1, ⟨s2, x, h2, h3, h4, _, h6⟩, _⟩ := C48_in_time_partial h ha hw hq (.parsePacket .new _ _ _ _ hp) hans
  exact ⟨_, s1, s2, x, hp, h1, h2, h3, h4, by rw [h6 hns, toFrame_reqMsg hr]⟩

theorem find_set {l : List Obj} {x y : Byte × Byte × Byte} {i : Nat} {o o' : Obj} (hi : l[i]? = some o)
    (hmin : ∀ j z, j < i → l[j]? = some z → objEoj z ≠ y) (ho : objEoj o = y) (ho' : objEoj o' = y) :
    (l.set i o').find? (fun z => objEoj z == x) = if x = y then some o' else l.find? (fun z => objEoj z == x) := by
  induction l generalizing i with
  | nil => simp at hi
  | cons z l ih =>
    cases i with
    | zero =>
      simp only [List.getElem?_cons_zero, Option.some.injEq] at hi
      subst hi
      by_cases hx : x = y
      · subst hx; simp [ho']
      · have h1 : (objEoj o' == x) = false := by rw [ho']; simpa using fun h => hx h.symm
        have h2 : (objEoj z == x) = false := by rw [ho]; simpa using fun h => hx h.symm
        simp [hx, h1, h2]
    | succ i =>
      simp only [List.getElem?_cons_succ] at hi
      have hz : objEoj z ≠ y := hmin 0 z (by omega) rfl
      have := ih hi (fun j w hj hw => hmin (j + 1) w (by omega) (by simpa using hw))
      by_cases hzx : objEoj z = x
      · have : x ≠ y := by rintro rfl; exact hz hzx
        simp [hzx, this]
      · simp [hzx, this]

/-- How one datagram changes the object `x` of a node. -/
theorem receive_at {e : Endian} {n n' : Node} {g : Datagram} {eff : List Effect} (hn : HandlersSet n)
    (h : n.receive e g.loc (some g.sender) g.bytes = .ok (n', eff)) (x : Byte × Byte × Byte) {o : Obj} (ho : destObj n x = some o) :
    ∃ o', destObj n' x = some o' ∧ o'.hasNode = o.hasNode ∧ o'.observers = o.observers ∧
      ∀ k, ¬ Overwrites x k g → o'.getProperty k = o.getProperty k := by
  cases hd : decode g.bytes with
  | none =>
    have hno : ¬ ∃ f rest, f.WF ∧ g.bytes = encode f ++ rest := by
      rintro ⟨f, rest, hf, hb⟩
      rw [hb, decode_complete hf] at hd; cases hd
    rw [C41_malformed_ignored e n g.loc (some g.sender) g.bytes hno] at h
    simp only [Res.ok.injEq, Prod.mk.injEq] at h
    obtain ⟨rfl, _⟩ := h
    exact ⟨o, ho, rfl, rfl, fun _ _ => rfl⟩
  | some y =>
    obtain ⟨f, rest⟩ := y
    obtain ⟨hb, hf⟩ := decode_sound hd
    rw [hb] at h
    by_cases hreq : IsRequestEsv f.esv
    · cases hto : destObj n f.deoj with
      | none =>
        rw [receive_unknown e n g.loc g.sender hf rest hto] at h
        simp only [Res.ok.injEq, Prod.mk.injEq] at h
        obtain ⟨rfl, _⟩ := h
        exact ⟨o, ho, rfl, rfl, fun _ _ => rfl⟩
      | some w =>
        obtain ⟨_, i, hi, hmin, hn', _⟩ := receive_outcome hf hn hto hreq h
        have hfr := outObj_frame w f
        have hw : objEoj w = f.deoj := by
          have := List.find?_some hto; simpa using this
        have hw' : objEoj (outObj w f) = f.deoj := by
          rw [← hw]; unfold objEoj; rw [hfr]
        have hfind := find_set (x := x) hi hmin hw hw'
        have hdest : destObj n' x = if x = f.deoj then some (outObj w f) else destObj n x := by
          unfold destObj; rw [hn']; exact hfind
        by_cases hx : x = f.deoj
        · subst hx
          rw [ho] at hto; cases hto
          rw [if_pos rfl] at hdest
          refine ⟨_, hdest, by rw [hfr], by rw [hfr], ?_⟩
          intro k hk
          have hk' : k ∉ codes (written f) := fun hc => hk ⟨f, rest, hf, hb, rfl, hc⟩
          unfold outObj
          unfold written at hk'
          cases hbody : f.body with
          | plain ps =>
            rw [hbody] at hk'
            simp only at hk' ⊢
            by_cases hwr : isW f.esv = true
            · rw [(runObj_write hwr ps o).1]
              rw [if_pos (by rcases (isW_iff _).1 hwr with h | h <;> rw [h] <;> decide)] at hk'
              exact C34_not_named_unchanged _ _ _ _ _ hk'
            · rw [(run_read (by simpa using hwr) ps o).1]
          | setGet s1 g1 =>
            rw [hbody] at hk'
            simp only at hk' ⊢
            rw [(runObj_write rfl s1 o).1]
            exact C34_not_named_unchanged _ _ _ _ _ hk'
        · rw [if_neg hx] at hdest
          exact ⟨o, by rw [hdest]; exact ho, rfl, rfl, fun _ _ => rfl⟩
    · obtain ⟨eff2, h2, _⟩ := C37_nonrequest_ignored e n g.loc g.sender f rest hf hreq
      rw [h2] at h
      simp only [Res.ok.injEq, Prod.mk.injEq] at h
      obtain ⟨rfl, _⟩ := h
      exact ⟨o, ho, rfl, rfl, fun _ _ => rfl⟩

theorem receive_handlers {e : Endian} {n n' : Node} {g : Datagram} {eff : List Effect} (hn : HandlersSet n)
    (h : n.receive e g.loc (some g.sender) g.bytes = .ok (n', eff)) : HandlersSet n' := by
  cases hd : decode g.bytes with
  | none =>
    have hno : ¬ ∃ f rest, f.WF ∧ g.bytes = encode f ++ rest := by
      rintro ⟨f, rest, hf, hb⟩
      rw [hb, decode_complete hf] at hd; cases hd
    rw [C41_malformed_ignored e n g.loc (some g.sender) g.bytes hno] at h
    simp only [Res.ok.injEq, Prod.mk.injEq] at h
    exact h.1 ▸ hn
  | some y =>
    obtain ⟨f, rest⟩ := y
    obtain ⟨hb, hf⟩ := decode_sound hd
    rw [hb] at h
    by_cases hreq : IsRequestEsv f.esv
    · cases hto : destObj n f.deoj with
      | none =>
        rw [receive_unknown e n g.loc g.sender hf rest hto] at h
        simp only [Res.ok.injEq, Prod.mk.injEq] at h
        exact h.1 ▸ hn
      | some w =>
        obtain ⟨_, i, hi, _, hn', _⟩ := receive_outcome hf hn hto hreq h
        intro o ho
        rw [hn'] at ho
        rcases List.mem_or_eq_of_mem_set ho with ho | rfl
        · exact hn o ho
        · have hfr := outObj_frame w f
          rw [show (outObj w f).observers = w.observers by rw [hfr]]
          exact hn w (destObj_mem hto)
    · obtain ⟨eff2, h2, _⟩ := C37_nonrequest_ignored e n g.loc g.sender f rest hf hreq
      rw [h2] at h
      simp only [Res.ok.injEq, Prod.mk.injEq] at h
      exact h.1 ▸ hn

theorem receiveAll_holds {e : Endian} {x : Byte × Byte × Byte} {hs : List Observer} {k : Byte} {d : List Byte} :
    ∀ (gs : List Datagram) (n n' : Node), HandlersSet n → receiveAll e n gs = .ok n' → (∀ g ∈ gs, ¬ Overwrites x k g) →
      Holds n x hs k d → Holds n' x hs k d ∧ HandlersSet n'
  | [], n, n', hn, h, _, hh => by
      simp only [receiveAll, Res.ok.injEq] at h; exact h ▸ ⟨hh, hn⟩
  | g :: gs, n, n', hn, h, hg, hh => by
      simp only [receiveAll, Res.bind_eq_ok] at h
      obtain ⟨⟨n1, eff⟩, h1, h2⟩ := h
      obtain ⟨o, p, ho, a1, a2, a3, a4⟩ := hh
      obtain ⟨o', b1, b2, b3, b4⟩ := receive_at hn h1 x ho
      refine receiveAll_holds gs n1 n' (receive_handlers hn h1) h2 (fun g' hg' => hg g' (List.mem_cons_of_mem _ hg')) ?_
      exact ⟨o', p, b1, b2.trans a1, b3.trans a2, by rw [b4 k (hg g (List.mem_cons_self ..)), a3], a4⟩

/-- A single granted property: the answer of the node. -/
theorem granted_answer {e : Endian} {n n' : Node} {loc : Option String} {a : String} {f : Frame} {eff : List Effect} {o : Obj}
    (hf : f.WF) (hn : HandlersSet n) (ho : destObj n f.deoj = some o) (hnode : o.hasNode = true) (hreq : IsRequestEsv f.esv)
    (hone : AtMostOneEach f) (hall : AllGranted o f) {v : Byte} (hv : successEsv f.esv = some v) (hv2 : v ≠ 0x73)
    (h : n.receive e loc (some a) (encode f) = .ok (n', eff)) :
    sentTo a eff = [sends (some a) (respFrame o f v)] := by
  rw [← List.append_nil (encode f)] at h
  obtain ⟨⟨pre, h1, h2⟩, _⟩ := receive_outcome hf hn ho hreq h
  simp only [hnode, if_true, outEsv, (allAccepted_iff hf).2 ⟨hone, hall⟩, responseEsv_true hreq, hv, Option.map_some] at h1
  rw [h1]
  have hpre : sentTo a pre = [] := by
    unfold sentTo
    rw [List.filter_eq_nil_iff]
    intro x hx
    rcases h2 x hx with rfl | ⟨c, rfl⟩ | ⟨_, q, _, t, s, d, rfl⟩ <;> simp [sends]
  unfold sentTo at hpre ⊢
  rw [List.filter_append, hpre]
  have hv3 : (respFrame o f v).esv ≠ 0x73 := hv2
  rw [if_neg hv3]
  simp [sends]

/-! Samples: thread 0 posts a request to the device of `xNode` and waits. -/
def rMsg (f : Frame) : Message := reqMsg f (some "10.0.0.9")
def rPost (f : Frame) : List Post.Label := [.store 0 (rMsg f), .store 1 Message.new, .callPost 0 jobA] ++ steps 0 10
def rRead : Frame := xFrame 0x62 (.plain [(0x80, [])])
def rWrite : Frame := xFrame 0x61 (.plain [(0x80, [0x31])])
theorem rMsg_reach {f : Frame} (hf : f.WF) : Reachable .little (rMsg f) := .parsePacket .new _ _ _ _ (parsePacket_new hf none "10.0.0.9")
theorem rPost_run {f : Frame} (hf : f.WF) (hp : possible (rPost f) = true) : RunFromNew .little (rPost f) (after (rPost f)) := by
  refine run_after' hp [rMsg f, Message.new] rfl ?_
  intro m hm
  simp only [List.mem_cons, List.not_mem_nil, or_false] at hm
  rcases hm with rfl | rfl
  · exact rMsg_reach hf
  · exact .new
theorem rPost_atomic (f : Frame) : AtomicListener (rPost f) := by intro t m h; simp [rPost, steps] at h
theorem xNode_holds : Holds xNode (0x01, 0x30, 0x01) [⟨0x61, 0xE0, some fun _ _ _ => false⟩] 0x80 [0x30] :=
  ⟨xDevice, _, rfl, rfl, rfl, rfl, rfl⟩

/-- **C84.** A post whose request reads one property of an object of a remote node, which nobody refuses, returns true with a response that
carries the data the property has when the node handles the request, under the TID of the request and with the address of the
node. -/
theorem C84_remote_read {e e2 : Endian} {ls : List Post.Label} {s : Post.Sys} {t : Nat} {j : Post.Job} {q : Message}
    (h : RunFromNew e ls s) (ha : AtomicListener ls) (hw : Waiting s t j) (hq : s.heap j.req = some q)
    {k : Byte} (hesv : (toFrame q).esv = 0x62) (hbody : (toFrame q).body = .plain [(k, [])])
    {n : Node} {hs : List Observer} {d : List Byte} (hn : HandlersSet n) (hold : Holds n (toFrame q).deoj hs k d)
    (hacc : ∀ p, accepts hs 0x62 k p [] = true) (hd : d.length ≤ 255) (loc loc2 : Option String) (a b : String) :
    ∃ eff r, n.receive e2 loc (some a) (encode (toFrame q)) = .ok (n, eff) ∧ sentTo a eff = [sends (some a) r] ∧
      r = ⟨(toFrame q).tid, (toFrame q).deoj, (toFrame q).seoj, 0x72, .plain [(k, d)]⟩ ∧
      PostReturns e s t j q loc2 b r := by
  obtain ⟨o, p, ho, hnode, hobs, hp, hdat⟩ := hold
  have hf : (toFrame q).WF := by
    unfold Frame.WF
    rw [hbody]
    exact ⟨by rw [hesv]; decide, by simp, by simp⟩
  have hreq : IsRequestEsv (toFrame q).esv := by rw [hesv]; decide
  have hone : AtMostOneEach (toFrame q) := by unfold AtMostOneEach; rw [hbody]; simp
  have hall : AllGranted o (toFrame q) := by
    unfold AllGranted
    rw [hbody]
    simp only
    rw [if_neg (by rw [hesv]; decide)]
    intro x hx
    simp only [List.mem_singleton] at hx; subst hx
    simp only [granted, hp, hobs, hesv, hacc]
  obtain ⟨n', eff, hrec⟩ := C66_receive_safe_partial e2 n loc a (encode (toFrame q)) hn
  have hsame : n' = n := by
    have h' := hrec
    rw [← List.append_nil (encode _)] at h'
    exact C34_other_services_change_nothing e2 n n' loc a _ [] eff hf hn (by rw [hesv]; decide) h'
  subst hsame
  have hsent := granted_answer hf hn ho hnode hreq hone hall (v := 0x72) (by rw [hesv]; rfl) (by decide) hrec
  have hr : respFrame o (toFrame q) 0x72 = ⟨(toFrame q).tid, (toFrame q).deoj, (toFrame q).seoj, 0x72, .plain [(k, d)]⟩ := by
    unfold respFrame outBody
    rw [hbody]
    simp only
    rw [runRes_read (by rw [hesv]; decide)]
    simp only [readSection, List.map_cons, List.map_nil, hp, hobs, hesv, hacc, if_true, hdat]
  refine ⟨eff, _, hrec, hsent, hr, ?_⟩
  rw [hr]
  refine post_returns (r := ⟨_, _, _, 0x72, .plain [(k, d)]⟩) h ha hw hq ?_ rfl ?_ (by simp [IsSetGet]) loc2 b
  · exact ⟨by simp [IsSetGet], by simp, by intro x hx; simp only [List.mem_singleton] at hx; subst hx; exact hd⟩
  · have : q.esv = 0x62 := hesv
    rw [this]; simp

example : ∃ q, Waiting (after (rPost rRead)) 0 jobA ∧ (after (rPost rRead)).heap 0 = some q ∧ toFrame q = { rRead with tid := (1, 0), seoj := (0x0E, 0xF0, 0x01) } ∧
    ∃ eff r, xNode.receive .big none (some "10.0.0.2") (encode (toFrame q)) = .ok (xNode, eff) ∧
      sentTo "10.0.0.2" eff = [sends (some "10.0.0.2") r] ∧
      r = ⟨(1, 0), (0x01, 0x30, 0x01), (0x0E, 0xF0, 0x01), 0x72, .plain [(0x80, [0x30])]⟩ ∧
      PostReturns .little (after (rPost rRead)) 0 jobA q none "10.0.0.3" r := by
  have hw : Waiting (after (rPost rRead)) 0 jobA := ⟨by with_unfolding_all rfl, by with_unfolding_all decide⟩
  have hq : (after (rPost rRead)).heap 0 = some { rMsg rRead with tid0 := 1, tid1 := 0, seoj := (0x0E, 0xF0, 0x01) } := by with_unfolding_all rfl
  exact ⟨_, hw, hq, rfl, C84_remote_read (rPost_run (by decide) (by with_unfolding_all rfl)) (rPost_atomic _) hw hq
    rfl rfl xNode_handlers xNode_holds (fun _ => rfl) (by decide) none none "10.0.0.2" "10.0.0.3"⟩

/-- **C85.** A post whose request writes (0x61) one property of an object of a remote node, which nobody refuses, returns true with
a positive response, and from then on the property has the written data, whatever else the node receives, until somebody writes it
again. (C84 says that reading it gives this data.) -/
theorem C85_remote_write {e e2 : Endian} {ls : List Post.Label} {s : Post.Sys} {t : Nat} {j : Post.Job} {q : Message}
    (h : RunFromNew e ls s) (ha : AtomicListener ls) (hw : Waiting s t j) (hq : s.heap j.req = some q)
    {k : Byte} {d : List Byte} (hesv : (toFrame q).esv = 0x61) (hbody : (toFrame q).body = .plain [(k, d)]) (hd : d.length ≤ 255)
    {n : Node} {hs : List Observer} {old : List Byte} (hn : HandlersSet n) (hold : Holds n (toFrame q).deoj hs k old)
    (hacc : ∀ p, accepts hs 0x61 k p d = true) (loc loc2 : Option String) (a b : String) :
    ∃ n' eff r, n.receive e2 loc (some a) (encode (toFrame q)) = .ok (n', eff) ∧ sentTo a eff = [sends (some a) r] ∧
      r = ⟨(toFrame q).tid, (toFrame q).deoj, (toFrame q).seoj, 0x71, .plain [(k, [])]⟩ ∧
      PostReturns e s t j q loc2 b r ∧
      ∀ gs n'', (∀ g ∈ gs, ¬ Overwrites (toFrame q).deoj k g) → receiveAll e2 n' gs = .ok n'' →
        Holds n'' (toFrame q).deoj hs k d ∧ HandlersSet n'' := by
  obtain ⟨o, p, ho, hnode, hobs, hp, hdat⟩ := hold
  have hf : (toFrame q).WF := by
    unfold Frame.WF
    rw [hbody]
    exact ⟨by rw [hesv]; decide, by simp, by intro x hx; simp only [List.mem_singleton] at hx; subst hx; exact hd⟩
  have hreq : IsRequestEsv (toFrame q).esv := by rw [hesv]; decide
  have hone : AtMostOneEach (toFrame q) := by unfold AtMostOneEach; rw [hbody]; simp
  have hall : AllGranted o (toFrame q) := by
    unfold AllGranted
    rw [hbody]
    simp only
    rw [if_pos (by rw [hesv]; decide)]
    intro x hx
    simp only [writeVerdicts, List.mem_singleton] at hx; subst hx
    simp only [granted, hp, hobs, hesv, hacc]
  obtain ⟨n', eff, hrec⟩ := C66_receive_safe_partial e2 n loc a (encode (toFrame q)) hn
  have hsent := granted_answer hf hn ho hnode hreq hone hall (v := 0x71) (by rw [hesv]; rfl) (by decide) hrec
  have hr : respFrame o (toFrame q) 0x71 = ⟨(toFrame q).tid, (toFrame q).deoj, (toFrame q).seoj, 0x71, .plain [(k, [])]⟩ := by
    unfold respFrame outBody
    rw [hbody]
    simp only
    rw [runRes_write (by rw [hesv]; decide)]
    simp only [writeReply, granted, hp, hobs, hesv, hacc, if_true]
  refine ⟨n', eff, _, hrec, hsent, hr, ?_, ?_⟩
  · rw [hr]
    refine post_returns (r := ⟨_, _, _, 0x71, .plain [(k, [])]⟩) h ha hw hq ?_ rfl ?_ (by simp [IsSetGet]) loc2 b
    · exact ⟨by simp [IsSetGet], by simp, by intro x hx; simp only [List.mem_singleton] at hx; subst hx; simp⟩
    · have : q.esv = 0x61 := hesv
      rw [this]; simp
  · intro gs n'' hg hall'
    have hrec' := hrec
    rw [← List.append_nil (encode _)] at hrec'
    obtain ⟨i, o', hi, hmin, hn', hod, hget⟩ := C34_write_effect e2 n n' loc a _ [(k, d)] [] eff o hf hn (.inr hesv) hbody ho hrec'
    have hw : objEoj o = (toFrame q).deoj := by
      have := List.find?_some ho; simpa using this
    have hw' : objEoj o' = (toFrame q).deoj := by
      rw [← hw]; unfold objEoj; rw [hod.1]
    have hfind := find_set (x := (toFrame q).deoj) hi hmin hw hw'
    rw [if_pos rfl] at hfind
    have hh' : Holds n' (toFrame q).deoj hs k d := by
      refine ⟨o', { p with data := d }, by unfold destObj; rw [hn']; exact hfind, by rw [hod.1]; exact hnode, by rw [hod.1]; exact hobs, ?_, rfl⟩
      rw [hget, hobs, hesv]
      simp only [writeSection, granted, hp, hacc, if_true]
      simp [PMap.store, hp]
    exact receiveAll_holds gs n' n'' (receive_handlers (g := ⟨loc, a, encode (toFrame q)⟩) hn hrec) hall' hg hh'

example : ∃ q, Waiting (after (rPost rWrite)) 0 jobA ∧ (after (rPost rWrite)).heap 0 = some q ∧ toFrame q = { rWrite with tid := (1, 0), seoj := (0x0E, 0xF0, 0x01) } ∧
    ∃ n' eff r, xNode.receive .big none (some "10.0.0.2") (encode (toFrame q)) = .ok (n', eff) ∧
      sentTo "10.0.0.2" eff = [sends (some "10.0.0.2") r] ∧
      r = ⟨(1, 0), (0x01, 0x30, 0x01), (0x0E, 0xF0, 0x01), 0x71, .plain [(0x80, [])]⟩ ∧
      PostReturns .little (after (rPost rWrite)) 0 jobA q none "10.0.0.3" r ∧
      ∀ gs n'', (∀ g ∈ gs, ¬ Overwrites (0x01, 0x30, 0x01) 0x80 g) → receiveAll .big n' gs = .ok n'' →
        Holds n'' (0x01, 0x30, 0x01) [⟨0x61, 0xE0, some fun _ _ _ => false⟩] 0x80 [0x31] ∧ HandlersSet n'' := by
  have hw : Waiting (after (rPost rWrite)) 0 jobA := ⟨by with_unfolding_all rfl, by with_unfolding_all decide⟩
  have hq : (after (rPost rWrite)).heap 0 = some { rMsg rWrite with tid0 := 1, tid1 := 0, seoj := (0x0E, 0xF0, 0x01) } := by with_unfolding_all rfl
  exact ⟨_, hw, hq, rfl, C85_remote_write (rPost_run (by decide) (by with_unfolding_all rfl)) (rPost_atomic _) hw hq
    rfl rfl (by decide) xNode_handlers xNode_holds (fun _ => rfl) none none "10.0.0.2" "10.0.0.3"⟩
/-- The datagrams of the third part: here a read of the same property, a write of another one and garbage. -/
example : ∀ g ∈ [(⟨none, "10.0.0.4", encode rRead⟩ : Datagram), ⟨none, "10.0.0.5", encode (xFrame 0x60 (.plain [(0xE0, [1])]))⟩,
    ⟨none, "10.0.0.6", [1, 2, 3]⟩], ¬ Overwrites (0x01, 0x30, 0x01) 0x80 g := by
  intro g hg hov
  obtain ⟨f, rest, hf, hb, _, hk⟩ := hov
  have hd := decode_complete (r := rest) hf
  rw [← hb] at hd
  simp only [List.mem_cons, List.not_mem_nil, or_false] at hg
  rcases hg with rfl | rfl | rfl
  · have h1 := decode_complete (f := rRead) (r := []) (by decide)
    rw [List.append_nil] at h1
    simp only at hd; rw [h1] at hd; cases hd; revert hk; decide
  · have h1 := decode_complete (f := xFrame 0x60 (.plain [(0xE0, [1])])) (r := []) (by decide)
    rw [List.append_nil] at h1
    simp only at hd; rw [h1] at hd; cases hd; revert hk; decide
  · have h1 : decode [1, 2, 3] = none := by rfl
    simp only at hd; rw [h1] at hd; cases hd

end Uecho.Props
