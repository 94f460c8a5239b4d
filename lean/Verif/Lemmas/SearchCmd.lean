import Verif.Spec.SearchCmd
import Verif.Props.Found
import Verif.Props.Remote
import Verif.Props.PropertyFields
/-! # Lemmas about `Model/SearchCmd.lean` -/
namespace Uecho.Lemmas
open Uecho Uecho.Spec Uecho.SearchCmd Uecho.Props

/-- A controller that the command can use. -/
structure Fit (e : Endian) (db : Db) (c : Ctrl) : Prop where
  reach : CtrlReach e db c
  handlers : HandlersSet c.node
  profile : (destObj c.node profileEoj).isSome

/-- Nodes keep their places, addresses and objects. -/
def Grew (c c' : Ctrl) : Prop :=
  ∀ (i : Nat) n, c.nodes[i]? = some n → ∃ n', c'.nodes[i]? = some n' ∧ n'.address = n.address ∧ eojs n <+: eojs n'

theorem Grew.refl (c : Ctrl) : Grew c c := fun _ n h => ⟨n, h, rfl, List.prefix_rfl⟩

theorem Grew.trans {a b c : Ctrl} (h : Grew a b) (g : Grew b c) : Grew a c := by
  intro i n hn
  obtain ⟨n1, h1, h2, h3⟩ := h i n hn
  obtain ⟨n2, g1, g2, g3⟩ := g i n1 h1
  exact ⟨n2, g1, g2.trans h2, h3.trans g3⟩

theorem handleSearch_node {e : Endian} {db : Db} {orc : Oracle} {c c' : Ctrl} {m : Message} {ev : List CEvent}
    (h : c.handleSearch e db orc m = .ok (c', ev)) : c'.node = c.node := by
  unfold Ctrl.handleSearch at h
  rw [Res.bind_eq_ok] at h
  obtain ⟨p, _, h⟩ := h
  cases p with
  | none => simp at h; rw [← h.1]
  | some p =>
    simp only at h
    split at h
    · simp at h; rw [← h.1]
    · cases hf : m.fromAddr with
      | none => rw [hf] at h; simp at h; rw [← h.1]
      | some a =>
        rw [hf] at h
        simp only [Res.bind_eq_ok, Res.pure_eq, Res.ok.injEq, Prod.mk.injEq] at h
        obtain ⟨_, _, _, _, _, _, h, _⟩ := h
        rw [← h]

theorem handleNode_node {e : Endian} {orc : Oracle} {c c' : Ctrl} {i : Nat} {m : Message} {ev : List CEvent}
    (h : c.handleNode e orc i m = .ok (c', ev)) : c'.node = c.node := by
  unfold Ctrl.handleNode at h
  rw [Res.bind_eq_ok] at h
  obtain ⟨n, _, h⟩ := h
  by_cases hb : (Esv.isNotification m.esv || Esv.isReadResponse m.esv || Esv.isNotifyResponse m.esv) = true
  all_goals
    simp only [hb, if_true, if_false, Bool.false_eq_true, Res.bind_eq_ok, Res.pure_eq, Res.ok.injEq, Prod.mk.injEq] at h
    obtain ⟨_, _, h, _⟩ := h
    rw [← h]

theorem listener_parts {e : Endian} {db : Db} {orc : Oracle} {c c' : Ctrl} {h h' : Heap} {m : Message} {ev : List CEvent}
    (hl : c.listener e db orc h m = .ok (c', h', ev)) : c'.node = c.node ∧ ∃ e2, Ctrl.servePost e c h m = .ok (h', e2) := by
  unfold Ctrl.listener at hl
  simp only [Res.bind_eq_ok] at hl
  obtain ⟨⟨h2, e2⟩, hs, b, _, hl⟩ := hl
  cases b with
  | true =>
    simp only [if_true, Res.bind_eq_ok, Res.pure_eq, Res.ok.injEq, Prod.mk.injEq] at hl
    obtain ⟨⟨c1, e3⟩, h1, rfl, rfl, _⟩ := hl
    exact ⟨handleSearch_node h1, e2, hs⟩
  | false =>
    simp only [Bool.false_eq_true, if_false, Res.bind_eq_ok] at hl
    obtain ⟨dst, _, hl⟩ := hl
    split at hl
    · cases hx : c.nodeIdx m.fromAddr with
      | none =>
        rw [hx] at hl
        simp only [Res.pure_eq, Res.ok.injEq, Prod.mk.injEq] at hl
        obtain ⟨rfl, rfl, _⟩ := hl
        exact ⟨rfl, e2, hs⟩
      | some i =>
        rw [hx] at hl
        simp only [Res.bind_eq_ok, Res.pure_eq, Res.ok.injEq, Prod.mk.injEq] at hl
        obtain ⟨⟨c1, e3⟩, h1, rfl, rfl, _⟩ := hl
        exact ⟨handleNode_node h1, e2, hs⟩
    · simp only [Res.pure_eq, Res.ok.injEq, Prod.mk.injEq] at hl
      obtain ⟨rfl, rfl, _⟩ := hl
      exact ⟨rfl, e2, hs⟩

/-- If there is one property, its value is short. -/
def ShortMsg (m : Message) : Prop := m.opc = 1#8 → ∀ p ∈ m.ep, p.data.length ≤ 3

/-- The two messages of a post, and that they can be used; `q` says whether the values are known to be short. -/
def Waits (e : Endian) (q : Prop) (c : Ctrl) (h : Heap) : Prop :=
  c.postReq = some 0 ∧ c.postRes = some 1 ∧ (∃ m, h 0 = some m) ∧ ∃ m, h 1 = some m ∧ Reachable e m ∧ (q → ShortMsg m)

theorem parsePacket_short {d : List Byte} {loc a : Option String} {m : Message} (h : Message.new.parsePacket d loc a = .ok (true, m))
    (hs : ShortOne d) : ShortMsg m := by
  unfold Message.parsePacket at h
  have h1 := parse_spec inv_new.toMsgWF d d.length (Nat.le_refl _)
  rw [List.take_length] at h1
  cases hd : decode d with
  | none =>
    rw [hd] at h1
    obtain ⟨m', h2, _⟩ := h1
    rw [h2] at h; simp at h
  | some x =>
    obtain ⟨f, r⟩ := x
    rw [hd] at h1
    simp only at h1
    rw [h1] at h
    obtain ⟨k1, k2⟩ := decode_sound hd
    simp only [Bool.not_true, Bool.false_eq_true, if_false, Res.bind_ok, Res.pure_eq, Res.ok.injEq, Prod.mk.injEq] at h
    have hm : m.opc = (parsed Message.new f).opc ∧ m.ep = (parsed Message.new f).ep := by
      rw [← h.2]; cases loc <;> cases a <;> exact ⟨rfl, rfl⟩
    intro ho p hp
    rw [hm.1] at ho
    rw [hm.2] at hp
    unfold parsed at ho hp
    cases hb : f.body with
    | setGet s g => rw [hb] at hp; simp at hp
    | plain ps =>
      rw [hb] at ho hp
      simp only at ho hp
      have hl : ps.length ≤ 255 := by
        unfold Frame.WF at k2; rw [hb] at k2; exact k2.2.1
      have h2 := congrArg BitVec.toNat ho
      rw [ofNat8_toNat hl] at h2
      obtain ⟨x, rfl⟩ := List.length_eq_one_iff.1 h2
      simp at hp
      rw [hp]
      exact hs f r x.1 x.2 k2 k1 hb

theorem receive_fit {e : Endian} {db : Db} {q : Prop} {orc : Oracle} {c c' : Ctrl} {h h' : Heap} {loc : Option String} {a : String} {d : List Byte}
    {ev : List CEvent} (hc : Fit e db c) (hw : Waits e q c h) (hq : q → ShortOne d) (hr : c.receive e db orc h loc (some a) d = .ok (c', h', ev)) :
    Fit e db c' ∧ Grew c c' ∧ Waits e q c' h' := by
  have hgrew : Grew c c' := fun i n hn => C51_only_grows hc.reach orc loc a d hr i n hn
  have hreach : CtrlReach e db c' := .receive orc loc a d hc.reach hr
  have hset : c'.postReq = c.postReq ∧ c'.postRes = c.postRes ∧ SameIds c.node c'.node := by
    rcases receive_any e db orc (reach_cinv hc.reach) hr with ⟨_, rfl, _⟩ | ⟨_, _, _, _, _, _, _, hs, rfl, _⟩
    · exact ⟨rfl, rfl, .refl _⟩
    · exact ⟨rfl, rfl, hs⟩
  have hprof : (destObj c'.node profileEoj).isSome := by
    have h1 := congrArg (List.map Prod.fst) hset.2.2.objs
    simp only [List.map_map] at h1
    have h2 : ∀ n : Node, (destObj n profileEoj).isSome = (n.objs.map (Prod.fst ∘ fun o => (objEoj o, o.hasNode))).contains profileEoj := by
      intro n
      unfold destObj
      rw [Bool.eq_iff_iff, List.find?_isSome]
      simp
    rw [h2, h1, ← h2]
    exact hc.profile
  unfold Ctrl.receive at hr
  rw [Res.bind_eq_ok] at hr
  obtain ⟨⟨ok, m⟩, hp, hr⟩ := hr
  cases ok with
  | false =>
    simp at hr
    obtain ⟨rfl, rfl, _⟩ := hr
    exact ⟨hc, hgrew, hw⟩
  | true =>
    simp only [if_true, Res.bind_eq_ok, Res.pure_eq, Res.ok.injEq, Prod.mk.injEq] at hr
    obtain ⟨⟨n, eff⟩, hn, ⟨c1, h1, ev1⟩, hl, rfl, rfl, _⟩ := hr
    obtain ⟨hnode, e2, hs⟩ := listener_parts hl
    have hnr : c.node.receive e loc (some a) d = .ok (n, eff) := by
      unfold Node.receive
      rw [hp]
      simp only [Res.bind_ok, if_true]
      exact hn
    refine ⟨⟨hreach, ?_, hprof⟩, hgrew, ?_⟩
    · rw [hnode]
      exact receive_handlers (g := ⟨loc, a, d⟩) hc.handlers hnr
    · obtain ⟨w1, w2, ⟨r, w3⟩, m1, w4, w5⟩ := hw
      refine ⟨hset.1.trans w1, hset.2.1.trans w2, ?_⟩
      unfold Ctrl.servePost at hs
      split at hs
      · unfold Ctrl.handlePost at hs
        simp only [w1, w2, w3, w4] at hs
        split at hs
        · simp only [Res.bind_eq_ok, Res.pure_eq, Res.ok.injEq, Prod.mk.injEq] at hs
          obtain ⟨x, hr, rfl, _⟩ := hs
          have hm : Reachable e m := .parsePacket .new d loc (some a) true hp
          refine ⟨⟨r, by simp [Heap.set, w3]⟩, x, by simp [Heap.set], .set w5.1 hm hr, fun h => ?_⟩
          have hms := parsePacket_short hp (hq h)
          rw [setFrom_eq e (reachable_inv w5.1).toMsgWF (reachable_inv hm).toMsgWF, Res.ok.injEq] at hr
          intro ho p hp
          rw [← hr] at ho hp
          obtain ⟨p0, k1, rfl⟩ := List.mem_map.1 hp
          rw [copy_prop]
          exact hms ho p0 k1
        · cases hs; exact ⟨⟨r, w3⟩, m1, w4, w5⟩
      · cases hs; exact ⟨⟨r, w3⟩, m1, w4, w5⟩

theorem arrivals_spec {e : Endian} {db : Db} {q : Prop} : ∀ (as : List Arrival) {c : Ctrl} {h : Heap}, Fit e db c → Waits e q c h →
    (q → ∀ a ∈ as, ShortOne a.data) → ∃ c' h' b, arrivals e db as c h = .ok (c', h', b) ∧ Fit e db c' ∧ Grew c c' ∧ Waits e q c' h' := by
  intro as
  induction as with
  | nil => intro c h hc hw _; exact ⟨c, h, false, rfl, hc, .refl c, hw⟩
  | cons a as ih =>
    intro c h hc hw hq
    obtain ⟨c1, h1, ev, hr⟩ := C71_receive_safe_partial hc.reach a.orc h a.loc a.sender a.data hc.handlers (by
      intro r s hr hs
      obtain ⟨w1, w2, w3, m, w4, w5, _⟩ := hw
      rw [w1] at hr; cases hr
      rw [w2] at hs; cases hs
      exact ⟨w3, m, w4, w5⟩)
    obtain ⟨f1, g1, w1⟩ := receive_fit hc hw (fun h => hq h a (by simp)) hr
    obtain ⟨c2, h2, b, k1, f2, g2, w2⟩ := ih f1 w1 (fun h b hb => hq h b (by simp [hb]))
    exact ⟨c2, h2, decide (CEvent.signal ∈ ev) || b, by simp only [arrivals, hr, k1, Res.bind_ok, Res.pure_eq], f2, g1.trans g2, w2⟩

theorem readRequest_spec (e : Endian) (x : Byte × Byte × Byte) (k : Byte) : ∃ m, readRequest (BitVec.ofNat 32 (eojNat x)) k = .ok m ∧ Reachable e m ∧
    ∀ t, { toFrame m with tid := t, seoj := profileEoj } = ⟨t, profileEoj, x, 0x62, .plain [(k, [])]⟩ := by
  have h1 : (Message.new.setEsv Esv.readRequest).setDestinationObjectCode (BitVec.ofNat 32 (eojNat x)) =
      .ok { Message.new with esv := Esv.readRequest, deoj := x } := by
    simp only [Message.setDestinationObjectCode, eojOfCode_eq, Res.bind_ok, Res.pure_eq]
    rfl
  have h2 : ∃ m, ({ Message.new with esv := Esv.readRequest, deoj := x } : Message).setProperty k [] = .ok m ∧ m.esv = 0x62 ∧ m.deoj = x ∧
      view m.ep = [(k, [])] := by
    refine ⟨{ Message.new with esv := Esv.readRequest, deoj := x, opc := 1, ep := [{ Property.new with code := k }] }, ?_, ?_⟩
    · with_unfolding_all rfl
    · exact ⟨rfl, rfl, rfl⟩
  obtain ⟨m, h3, h4, h5, h6⟩ := h2
  refine ⟨m, by simp only [readRequest, h1, h3, Res.bind_ok], .setProperty (.setDst (.setEsv .new _) _ h1) k [] h3, fun t => ?_⟩
  have : ¬ IsSetGet (0x62 : Byte) := by decide
  simp only [toFrame, h4, h5, h6, this, if_false]

theorem post_spec {e : Endian} {db : Db} {q : Prop} {w : Nat → List Arrival} (hw : q → ∀ k, ∀ a ∈ w k, ShortOne a.data) {s : St} (hf : Fit e db s.c)
    {a : String} {x : Byte × Byte × Byte} {k : Byte} {req : Message} (hq : Reachable e req)
    (hx : ∀ t, { toFrame req with tid := t, seoj := profileEoj } = ⟨t, profileEoj, x, 0x62, .plain [(k, [])]⟩) :
    ∃ s' res y, post e db w s (some a) req = .ok (s', res) ∧ Fit e db s'.c ∧ Grew s.c s'.c ∧ s'.out = s.out ∧ s'.sent = s.sent ++ [y] ∧
      IsAsk y ⟨some a, x, k⟩ ∧ ∀ m, res = some m → Reachable e m ∧ (q → ShortMsg m) := by
  obtain ⟨p, hp⟩ := Option.isSome_iff_exists.mp hf.profile
  let h0 : Heap := fun p => if p = 0 then some req else if p = 1 then some Message.new else none
  have e1 : s.c.postBegin e h0 (some a) 0 1 true = .ok ({ s.c with postReq := some 0, postRes := some 1, node := s.c.node.nextTid },
      h0.set 0 { req.setTid e (nextT s.c.node.lastTid) with seoj := profileEoj },
      [.node (sends (some a) { toFrame req with tid := tidBytes e (nextT s.c.node.lastTid), seoj := profileEoj })], true) := by
    unfold Ctrl.postBegin
    simp only [h0, if_true, sendMessage_eq e s.c.node a (reachable_inv hq), hp, Res.pure_eq, Res.bind_ok]
    rfl
  have hfit : Fit e db { s.c with postReq := some 0, postRes := some 1, node := s.c.node.nextTid } :=
    ⟨.postBegin _ _ _ _ hf.reach e1, hf.handlers, hf.profile⟩
  obtain ⟨c2, h2, b, k1, f2, g2, w2⟩ := arrivals_spec (q := q) (w s.posts) hfit (h := h0.set 0 { req.setTid e (nextT s.c.node.lastTid) with seoj := profileEoj })
    ⟨rfl, rfl, ⟨{ req.setTid e (nextT s.c.node.lastTid) with seoj := profileEoj }, by simp [Heap.set]⟩, Message.new, by simp [Heap.set, h0], .new,
      fun _ h => absurd h (by decide)⟩ (fun h => hw h _)
  refine ⟨{ s with c := c2.postEnd, posts := s.posts + 1, sent := s.sent ++ [.node (sends (some a) { toFrame req with tid := tidBytes e (nextT s.c.node.lastTid), seoj := profileEoj })] },
    if b then h2 1 else none, _, ?_, ⟨.postEnd f2.reach, f2.handlers, f2.profile⟩, g2, rfl, rfl, ⟨_, by rw [hx]⟩, ?_⟩
  · unfold post
    rw [show (fun p : Nat => if p = 0 then some req else if p = 1 then some Message.new else none) = h0 from rfl, e1]
    simp only [Res.bind_ok, if_true, Nat.add_sub_cancel, k1, Res.pure_eq]
  · intro m hm
    cases b with
    | false => simp at hm
    | true =>
      obtain ⟨_, _, _, m1, w4, w5⟩ := w2
      simp only [if_true, w4, Option.some.injEq] at hm
      exact hm ▸ w5

/-! ## What the command did between two states -/

theorem _root_.Uecho.Spec.Pairs.append {α β : Type} {r : α → β → Prop} {xs xs' : List α} {as as' : List β} (h : Pairs r xs as) (g : Pairs r xs' as') :
    Pairs r (xs ++ xs') (as ++ as') := by
  induction h with
  | nil => exact g
  | cons h1 _ ih => exact .cons h1 ih

/-- Between the states, these questions were sent and told about, and these objects were named. -/
def Seg (db : Db) (s s' : St) (asks : List Ask) (os : List (Byte × Byte × Byte)) : Prop :=
  Grew s.c s'.c ∧ ∃ sent out, s'.sent = s.sent ++ sent ∧ s'.out = s.out ++ out ∧ Pairs IsAsk sent asks ∧
    Pairs (IsTold db) (out.filter fun l => (objectLine l).isNone) asks ∧ out.filterMap objectLine = os.map fun x => BitVec.ofNat 32 (eojNat x)

theorem Seg.refl (db : Db) (s : St) : Seg db s s [] [] := ⟨.refl _, [], [], by simp, by simp, .nil, .nil, rfl⟩

theorem Seg.trans {db : Db} {s s1 s2 : St} {as as' : List Ask} {os os' : List (Byte × Byte × Byte)} (h : Seg db s s1 as os) (g : Seg db s1 s2 as' os') :
    Seg db s s2 (as ++ as') (os ++ os') := by
  obtain ⟨h0, x, y, h1, h2, h3, h4, h5⟩ := h
  obtain ⟨g0, x', y', g1, g2, g3, g4, g5⟩ := g
  refine ⟨h0.trans g0, x ++ x', y ++ y', by rw [g1, h1, List.append_assoc], by rw [g2, h2, List.append_assoc], h3.append g3, ?_, ?_⟩
  · rw [List.filter_append]; exact h4.append g4
  · rw [List.filterMap_append, h5, g5, List.map_append]

/-- All of the questions but some about maps. -/
def Mostly (as qs : List Ask) : Prop :=
  as.Sublist qs ∧ as.filter (fun a => !decide (IsMap a.epc)) = qs.filter fun a => !decide (IsMap a.epc)

theorem Mostly.refl (as : List Ask) : Mostly as as := ⟨.refl _, rfl⟩

theorem Mostly.append {a b a' b' : List Ask} (h : Mostly a b) (g : Mostly a' b') : Mostly (a ++ a') (b ++ b') :=
  ⟨h.1.append g.1, by rw [List.filter_append, List.filter_append, h.2, g.2]⟩

theorem Mostly.skip {a b : List Ask} (h : Mostly a b) (x : Ask) (hx : IsMap x.epc) : Mostly a (x :: b) :=
  ⟨h.1.cons x, by rw [h.2, List.filter_cons_of_neg (by simp [hx])]⟩

/-- The object at a place. -/
def At (c : Ctrl) (i j : Nat) (a : String) (x : Byte × Byte × Byte) : Prop :=
  ∃ n o, c.nodes[i]? = some n ∧ n.address = some a ∧ n.objs[j]? = some o ∧ objEoj o = x

theorem At.grew {c c' : Ctrl} {i j : Nat} {a : String} {x : Byte × Byte × Byte} (h : At c i j a x) (g : Grew c c') : At c' i j a x := by
  obtain ⟨n, o, h1, h2, h3, h4⟩ := h
  obtain ⟨n', g1, g2, t, g3⟩ := g i n h1
  have h5 : (eojs n')[j]? = some x := by
    rw [← g3, List.getElem?_append_left]
    · unfold eojs; rw [List.getElem?_map, h3, Option.map_some, h4]
    · unfold eojs; rw [List.length_map]; exact (List.getElem?_eq_some_iff.1 h3).1
  unfold eojs at h5
  rw [List.getElem?_map, Option.map_eq_some_iff] at h5
  obtain ⟨o', h6, h7⟩ := h5
  exact ⟨n', o', g1, g2.trans h2, h6, h7⟩

theorem knows_get {qs ps : List Property} (h : Knows qs ps) : ∀ l : Nat, (∀ q, qs[l]? = some q → ∃ p, ps[l]? = some p ∧ IsStandard q p) ∧
    (qs[l]? = none → ∀ p, ps[l]? = some p → IsExtra p) := by
  induction h with
  | rest h => exact fun l => ⟨by simp, fun _ p hp => h p (List.mem_of_getElem? hp)⟩
  | cons h1 _ ih =>
    intro l
    cases l with
    | zero => refine ⟨fun q hq => ?_, by simp⟩; simp at hq; subst hq; exact ⟨_, rfl, h1⟩
    | succ l => simpa using ih l

theorem readRequired_eq (p : Property) : p.isReadRequired = p.attr.getLsbD 4 := and_ne_zero p.attr 4 (by omega)

theorem answer_ok {e : Endian} (res : Option Message) (h : ∀ m, res = some m → Reachable e m) : ∃ d, answer res = .ok d := by
  cases res with
  | none => exact ⟨none, rfl⟩
  | some m =>
    refine ⟨some (m.ep.map (·.data)), ?_⟩
    simp only [answer, slots_eq (reachable_inv (h m rfl)).toMsgWF.ep, Res.bind_ok, Res.pure_eq]

/-- No standard property is without a name. -/
def Named (db : Db) : Prop := ∀ g c, ∀ q ∈ standardProps db g c, q.name ≠ none

theorem askProps_spec {e : Endian} {db : Db} (hdb : DbCodes db) (hnm : Named db) (w : Nat → List Arrival) (i j : Nat) (a : String) (x : Byte × Byte × Byte) :
    ∀ (fuel l : Nat) (s : St), Fit e db s.c → At s.c i j a x → ∃ r, askProps e db w fuel i j l s = .ok r ∧ ∀ s', r = some s' →
      Fit e db s'.c ∧ ∃ asks, Seg db s s' asks [] ∧
        Mostly asks ((((standardProps db x.1 x.2.1).drop l).filter fun q => q.attr.getLsbD 4).map fun q => ⟨some a, x, q.code⟩) := by
  intro fuel
  induction fuel with
  | zero => intro l s _ _; exact ⟨none, rfl, by simp⟩
  | succ fuel ih =>
    intro l s hf hat
    obtain ⟨n, o, h1, h2, h3, h4⟩ := hat
    have hk : Knows (standardProps db x.1 x.2.1) o.props := by
      have := (C150_standard_partial hf.reach hdb n (List.mem_of_getElem? h1) o (List.mem_of_getElem? h3)).1
      rw [← h4]; exact this
    have ho : objAt s.c i j = some o := by unfold objAt; rw [h1]; exact h3
    have hg := knows_get hk l
    rw [askProps, ho]
    simp only
    cases hp : o.props[l]? with
    | none =>
      refine ⟨some s, rfl, fun s' hs => ?_⟩
      cases hs
      refine ⟨hf, [], .refl _ _, ?_⟩
      have : (standardProps db x.1 x.2.1).length ≤ l := by
        rw [← List.getElem?_eq_none_iff]
        cases hq : (standardProps db x.1 x.2.1)[l]? with
        | none => rfl
        | some q => obtain ⟨p, k, _⟩ := hg.1 q hq; rw [hp] at k; cases k
      rw [List.drop_eq_nil_of_le this]
      exact .refl _
    | some p =>
      simp only
      cases hq : (standardProps db x.1 x.2.1)[l]? with
      | none =>
        have hx := (hg.2 hq p hp).2.1
        unfold hasBit at hx
        have hr : p.isReadRequired = false := by rw [readRequired_eq]; simpa using hx
        rw [hr]
        obtain ⟨r, k1, k2⟩ := ih (l + 1) s hf ⟨n, o, h1, h2, h3, h4⟩
        refine ⟨r, k1, fun s' hs => ?_⟩
        have hl := List.getElem?_eq_none_iff.1 hq
        rw [List.drop_eq_nil_of_le hl]
        have := k2 s' hs
        rwa [List.drop_eq_nil_of_le (by omega)] at this
      | some q =>
        obtain ⟨p', k, hst⟩ := hg.1 q hq
        rw [hp] at k; cases k
        obtain ⟨hl, hq'⟩ := List.getElem?_eq_some_iff.1 hq
        rw [List.drop_eq_getElem_cons hl, hq']
        by_cases hr : p.isReadRequired = true
        · rw [if_pos hr]
          have hqb : q.attr.getLsbD 4 = true := by
            rw [readRequired_eq] at hr
            rcases hst.2.2 with h | ⟨_, h⟩
            · rwa [← h]
            · rw [h] at hr; exact absurd hr (by decide)
          obtain ⟨m, m1, m2, m3⟩ := readRequest_spec e x p.code
          obtain ⟨s1, res, y, p1, p2, p3, p4, p5, p6, p7⟩ := post_spec (q := False) (w := w) (fun h => h.elim) hf m2 m3 (a := a)
          obtain ⟨d, hd⟩ := answer_ok res fun m hm => (p7 m hm).1
          have hat1 : At s1.c i j a x := At.grew ⟨n, o, h1, h2, h3, h4⟩ p3
          obtain ⟨n1, o1, a1, a2, a3, a4⟩ := hat1
          have hk1 : Knows (standardProps db x.1 x.2.1) o1.props := by
            have := (C150_standard_partial p2.reach hdb n1 (List.mem_of_getElem? a1) o1 (List.mem_of_getElem? a3)).1
            rw [← a4]; exact this
          obtain ⟨p1', b1, b2⟩ := (knows_get hk1 l).1 q hq
          obtain ⟨nm, hnm'⟩ := Option.ne_none_iff_exists'.1 (hnm x.1 x.2.1 q (List.mem_of_getElem? hq))
          have hname : (objAt s1.c i j).bind (fun o => (o.props[l]?).bind (·.name)) = some nm := by
            unfold objAt; rw [a1]; simp only [Option.bind_some, a3, b1, b2.2.1, hnm']
          obtain ⟨r, k1, k2⟩ := ih (l + 1) { s1 with out := s1.out ++ [.property j l p.code d nm] } p2 ⟨n1, o1, a1, a2, a3, a4⟩
          refine ⟨r, ?_, fun s' hs => ?_⟩
          · rw [getCode_ofNat, h4, m1]
            simp only [Res.bind_ok, h1, Option.bind_some, h2, p1, hd, hname]
            exact k1
          · obtain ⟨f1, asks, g1, g2⟩ := k2 s' hs
            refine ⟨f1, ⟨some a, x, p.code⟩ :: asks, ?_, ?_⟩
            · refine Seg.trans (s1 := { s1 with out := s1.out ++ [.property j l p.code d nm] }) (as := [_]) (os := []) ?_ g1
              refine ⟨p3, [y], [.property j l p.code d nm], p5, by simp only [p4], .cons p6 .nil, ?_, rfl⟩
              exact .cons ⟨rfl, q, List.mem_of_getElem? hq, hst.1.symm, hnm'⟩ .nil
            · rw [List.filter_cons_of_pos (by simpa using hqb), List.map_cons, hst.1]
              exact Mostly.append (.refl [_]) g2
        · rw [if_neg hr]
          obtain ⟨r, k1, k2⟩ := ih (l + 1) s hf ⟨n, o, h1, h2, h3, h4⟩
          refine ⟨r, k1, fun s' hs => ?_⟩
          obtain ⟨f1, asks, g1, g2⟩ := k2 s' hs
          refine ⟨f1, asks, g1, ?_⟩
          rw [readRequired_eq] at hr
          by_cases hqb : q.attr.getLsbD 4 = true
          · rw [List.filter_cons_of_pos (by simpa using hqb), List.map_cons]
            rcases hst.2.2 with h | ⟨h, _⟩
            · rw [h] at hr; exact absurd hqb hr
            · rw [hst.1] at h
              exact g2.skip _ h
          · rw [List.filter_cons_of_neg (by simpa using hqb)]
            exact g2

theorem flat_one {α β : Type} (f : α → List β) (x : α) (xs : List α) : (x :: xs).flatMap f = f x ++ xs.flatMap f := List.flatMap_cons

/-- What is to be asked about an object. -/
def askObj (db : Db) (a : Option String) (x : Byte × Byte × Byte) : List Ask := (requiredOf db x).map fun k => ⟨a, x, k⟩

theorem askObjs_spec {e : Endian} {db : Db} (hdb : DbCodes db) (hnm : Named db) (w : Nat → List Arrival) (rounds i : Nat) (a : String) :
    ∀ (fuel j : Nat) (s : St), Fit e db s.c → (∃ n, s.c.nodes[i]? = some n ∧ n.address = some a) →
      ∃ r, askObjs e db w rounds fuel i j s = .ok r ∧ ∀ s', r = some s' → Fit e db s'.c ∧ ∃ n' asks, s'.c.nodes[i]? = some n' ∧
        Seg db s s' asks ((eojs n').drop j) ∧ Mostly asks (((eojs n').drop j).flatMap (askObj db (some a))) := by
  intro fuel
  induction fuel with
  | zero => intro j s _ _; exact ⟨none, rfl, by simp⟩
  | succ fuel ih =>
    intro j s hf hn
    obtain ⟨n, h1, h2⟩ := hn
    have hoa : objAt s.c i j = n.objs[j]? := by unfold objAt; rw [h1]; rfl
    rw [askObjs, hoa]
    cases ho : n.objs[j]? with
    | none =>
      refine ⟨some s, rfl, fun s' hs => ?_⟩
      cases hs
      refine ⟨hf, n, [], h1, ?_⟩
      have : (eojs n).drop j = [] := by
        apply List.drop_eq_nil_of_le
        unfold eojs
        rw [List.length_map]
        exact List.getElem?_eq_none_iff.1 ho
      rw [this]
      exact ⟨.refl _ _, .refl _⟩
    | some o =>
      simp only
      obtain ⟨r1, k1, k2⟩ := askProps_spec hdb hnm w i j a (objEoj o) rounds 0 { s with out := s.out ++ [.object j o.getCode o.name] } hf
        ⟨n, o, h1, h2, ho, rfl⟩
      rw [k1]
      simp only [Res.bind_ok]
      cases r1 with
      | none => exact ⟨none, rfl, by simp⟩
      | some s1 =>
        obtain ⟨f1, asks1, g1, g2⟩ := k2 s1 rfl
        obtain ⟨n1, m1, m2, _⟩ := g1.1 i n h1
        obtain ⟨r, b1, b2⟩ := ih (j + 1) s1 f1 ⟨n1, m1, m2.trans h2⟩
        refine ⟨r, b1, fun s' hs => ?_⟩
        obtain ⟨f2, n', asks, c1, c2, c3⟩ := b2 s' hs
        have hd : (eojs n').drop j = objEoj o :: (eojs n').drop (j + 1) := by
          obtain ⟨n2, o2, d1, _, d3, d4⟩ := At.grew (At.grew (c := s.c) (x := objEoj o) ⟨n, o, h1, h2, ho, rfl⟩ g1.1) c2.1
          rw [c1] at d1; cases d1
          have : (eojs n')[j]? = some (objEoj o) := by unfold eojs; rw [List.getElem?_map, d3, Option.map_some, d4]
          obtain ⟨x1, x2⟩ := List.getElem?_eq_some_iff.1 this
          rw [List.drop_eq_getElem_cons x1, x2]
        have hs1 : Seg db s { s with out := s.out ++ [.object j o.getCode o.name] } [] [objEoj o] :=
          ⟨.refl _, [], [.object j o.getCode o.name], by simp, rfl, .nil, .nil, by simp [objectLine, getCode_ofNat]⟩
        refine ⟨f2, n', asks1 ++ asks, c1, ?_, ?_⟩
        · rw [hd]
          exact (hs1.trans g1).trans c2
        · rw [hd, flat_one]
          refine Mostly.append ?_ c3
          rw [List.drop_zero] at g2
          unfold askObj requiredOf
          rw [List.map_map]
          exact g2

theorem maker_spec {e : Endian} {db : Db} {q : Prop} (ms : List Std.Manufacture) {w : Nat → List Arrival} (hw : q → ∀ k, ∀ a ∈ w k, ShortOne a.data)
    {s : St} (hf : Fit e db s.c) (a : String) : (q → ∃ r, maker e db ms w s (some a) = .ok r) ∧ ∀ s' nm, maker e db ms w s (some a) = .ok (s', nm) →
      Fit e db s'.c ∧ Seg db s { s' with out := s'.out ++ [.node (some a) nm] } [⟨some a, profileEoj, 0x8A⟩] [] := by
  obtain ⟨m, m1, m2, m3⟩ := readRequest_spec e profileEoj 0x8A#8
  obtain ⟨s1, res, y, p1, p2, p3, p4, p5, p6, p7⟩ := post_spec (q := q) (w := w) hw hf m2 m3 (a := a)
  have hseg : ∀ nm, Seg db s { s1 with out := s1.out ++ [.node (some a) nm] } [⟨some a, profileEoj, 0x8A⟩] [] := fun nm =>
    ⟨p3, [y], [.node (some a) nm], p5, by simp only [p4], .cons p6 .nil, .cons rfl .nil, rfl⟩
  have hcode : (0x0EF001#32 : CInt) = BitVec.ofNat 32 (eojNat profileEoj) := by decide
  unfold maker
  rw [hcode, m1]
  simp only [Res.bind_ok, p1, Res.pure_eq]
  cases res with
  | none =>
    refine ⟨fun _ => ⟨_, rfl⟩, fun s' nm h => ?_⟩
    cases h
    exact ⟨p2, hseg _⟩
  | some m =>
    obtain ⟨r1, r2⟩ := p7 m rfl
    simp only
    by_cases ho : m.opc = 1#8
    · rw [if_pos ho]
      have hg : m.getProperty 0 = .ok m.ep[0]? := propGet_eq (reachable_inv r1).toMsgWF.ep 0
      rw [hg]
      simp only [Res.bind_ok]
      cases hp : m.ep[0]? with
      | none =>
        refine ⟨fun _ => ⟨_, rfl⟩, fun s' nm h => ?_⟩
        cases h
        exact ⟨p2, hseg _⟩
      | some p =>
        simp only
        refine ⟨fun h => ?_, fun s' nm h => ?_⟩
        · have hl := r2 h ho p (List.mem_of_getElem? hp)
          rw [byte2integer_eq _ (by omega), if_pos]
          · exact ⟨_, rfl⟩
          · have := leValue_lt p.data.reverse
            have h3 : 256 ^ p.data.reverse.length ≤ 256 ^ 3 := Nat.pow_le_pow_right (by omega) (by simpa using hl)
            omega
        · rw [Res.bind_eq_ok] at h
          obtain ⟨_, _, h⟩ := h
          cases h
          exact ⟨p2, hseg _⟩
    · rw [if_neg ho]
      refine ⟨fun _ => ⟨_, rfl⟩, fun s' nm h => ?_⟩
      cases h
      exact ⟨p2, hseg _⟩

/-- The objects that were asked, node by node from `i` on. -/
def Visits (c c' : Ctrl) (i : Nat) (vs : List (Option String × List (Byte × Byte × Byte))) : Prop :=
  vs.length = c'.nodes.length - i ∧
  (∀ (k : Nat) n, c.nodes[i + k]? = some n → ∃ os, vs[k]? = some (n.address, os) ∧ eojs n <+: os) ∧
  ∀ (k : Nat) v, vs[k]? = some v → ∃ n, c'.nodes[i + k]? = some n ∧ n.address = v.1 ∧ v.2 <+: eojs n

theorem askNodes_spec {e : Endian} {db : Db} {q : Prop} (hdb : DbCodes db) (hnm : Named db) (ms : List Std.Manufacture) {w : Nat → List Arrival}
    (hw : q → ∀ k, ∀ a ∈ w k, ShortOne a.data) (rounds : Nat) :
    ∀ (fuel i : Nat) (s : St), Fit e db s.c → (q → ∃ r, askNodes e db ms w rounds fuel i s = .ok r) ∧
      ∀ s', askNodes e db ms w rounds fuel i s = .ok (some s') → Fit e db s'.c ∧ ∃ vs asks, Seg db s s' asks (vs.flatMap (·.2)) ∧
        Mostly asks (vs.flatMap (questions db)) ∧ Visits s.c s'.c i vs := by
  intro fuel
  induction fuel with
  | zero => intro i s _; exact ⟨fun _ => ⟨none, rfl⟩, by simp [askNodes]⟩
  | succ fuel ih =>
    intro i s hf
    rw [askNodes]
    cases hn : s.c.nodes[i]? with
    | none =>
      have hl := List.getElem?_eq_none_iff.1 hn
      refine ⟨fun _ => ⟨some s, rfl⟩, fun s' hs => ?_⟩
      simp only [Res.ok.injEq, Option.some.injEq] at hs
      subst hs
      refine ⟨hf, [], [], .refl _ _, .refl _, by simp; omega, fun k n h => ?_, by simp⟩
      rw [List.getElem?_eq_none (by omega)] at h
      cases h
    | some n =>
      obtain ⟨a, ha⟩ := Option.ne_none_iff_exists'.1 ((reach_cinv hf.reach).addr n (List.mem_of_getElem? hn))
      obtain ⟨k1, k2⟩ := maker_spec (q := q) ms hw hf a
      simp only [ha]
      -- one round, when the manufacturer was found
      have round : ∀ s1 nm, maker e db ms w s (some a) = .ok (s1, nm) → ∃ r,
          askObjs e db w rounds rounds i 0 { s1 with out := s1.out ++ [.node (some a) nm] } = .ok r ∧ ∀ s2, r = some s2 → Fit e db s2.c ∧
            ∃ n' asks, s2.c.nodes[i]? = some n' ∧ n'.address = some a ∧ eojs n <+: eojs n' ∧ Seg db s s2 asks (eojs n') ∧
              Mostly asks (questions db (some a, eojs n')) := by
        intro s1 nm hm
        obtain ⟨f1, g1⟩ := k2 s1 nm hm
        obtain ⟨n1, m1, m2, m3⟩ := g1.1 i n hn
        obtain ⟨r, b1, b2⟩ := askObjs_spec hdb hnm w rounds i a rounds 0 { s1 with out := s1.out ++ [.node (some a) nm] } f1 ⟨n1, m1, m2.trans ha⟩
        refine ⟨r, b1, fun s2 hs => ?_⟩
        obtain ⟨f2, n', asks, c1, c2, c3⟩ := b2 s2 hs
        rw [List.drop_zero] at c2 c3
        obtain ⟨n2, d1, d2, d3⟩ := c2.1 i n1 m1
        rw [c1] at d1; cases d1
        exact ⟨f2, n', _ :: asks, c1, d2.trans (m2.trans ha), m3.trans d3, g1.trans c2, Mostly.append (.refl [_]) c3⟩
      constructor
      · intro h
        obtain ⟨⟨s1, nm⟩, hm⟩ := k1 h
        obtain ⟨r, b1, b2⟩ := round s1 nm hm
        rw [hm]
        simp only [Res.bind_ok, b1]
        cases r with
        | none => exact ⟨none, rfl⟩
        | some s2 => exact (ih (i + 1) s2 (b2 s2 rfl).1).1 h
      · intro s' hs
        cases hm : maker e db ms w s (some a) with
        | ub => rw [hm] at hs; cases hs
        | ok r0 =>
          obtain ⟨s1, nm⟩ := r0
          obtain ⟨r, b1, b2⟩ := round s1 nm hm
          rw [hm] at hs
          simp only [Res.bind_ok, b1] at hs
          cases r with
          | none => cases hs
          | some s2 =>
            obtain ⟨f2, n', asks, c1, c2, c3, c4, c5⟩ := b2 s2 rfl
            obtain ⟨f3, vs, asks', d1, d2, d3, d4, d5⟩ := (ih (i + 1) s2 f2).2 s' hs
            obtain ⟨n3, e1, e2, e3⟩ := d1.1 i n' c1
            have hlen := (List.getElem?_eq_some_iff.1 e1).1
            refine ⟨f3, (some a, eojs n') :: vs, asks ++ asks', ?_, ?_, by simp only [List.length_cons]; omega, ?_, ?_⟩
            · rw [flat_one]; exact c4.trans d1
            · rw [flat_one]; exact c5.append d2
            · intro k n0 hk
              cases k with
              | zero =>
                rw [Nat.add_zero, hn] at hk
                cases hk
                exact ⟨_, by rw [ha]; rfl, c3⟩
              | succ k =>
                rw [show i + (k + 1) = i + 1 + k by omega] at hk
                obtain ⟨n4, x1, x2, x3⟩ := c4.1 (i + 1 + k) n0 hk
                obtain ⟨os, y1, y2⟩ := d4 k n4 x1
                exact ⟨os, by rw [List.getElem?_cons_succ, y1, x2], x3.trans y2⟩
            · intro k v hk
              cases k with
              | zero =>
                simp only [List.getElem?_cons_zero, Option.some.injEq] at hk
                subst hk
                exact ⟨n3, e1, e2.trans c2, e3⟩
              | succ k =>
                rw [List.getElem?_cons_succ] at hk
                obtain ⟨n4, x1, x2⟩ := d5 k v hk
                exact ⟨n4, by rw [show i + (k + 1) = i + 1 + k by omega]; exact x1, x2⟩

end Uecho.Lemmas
