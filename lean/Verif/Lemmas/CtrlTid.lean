import Verif.Lemmas.CtrlRecv
/-! # Lemmas for C144: the transaction ids a controller uses -/
namespace Uecho.Lemmas
open Uecho Uecho.Spec

theorem tidSeq_skip : ∀ (j k : Nat) (t : BitVec 32), (tidSeq k (iterT j t).toNat).Sublist (tidSeq (k + j) t.toNat)
  | 0, k, t => by simp [iterT]
  | j + 1, k, t => by
      have := tidSeq_skip j k (nextT t)
      rw [nextT_toNat] at this
      unfold iterT
      rw [← Nat.add_assoc]
      show List.Sublist _ (succTid t.toNat :: _)
      exact this.cons _

theorem tidSeq_mono {j k : Nat} (h : j ≤ k) (t : Nat) : (tidSeq j t).Sublist (tidSeq k t) := by
  induction j generalizing k t with
  | zero => exact List.nil_sublist _
  | succ j ih =>
    obtain ⟨k, rfl⟩ : ∃ k', k = k' + 1 := ⟨k - 1, by omega⟩
    show List.Sublist (succTid t :: _) (succTid t :: _)
    exact (ih (by omega) _).cons_cons _

theorem annEff_count (e : Endian) : ∀ (ps : List Property) (t : BitVec 32), (annEff e t ps).countP isSend = ps.length
  | [], _ => rfl
  | p :: ps, t => by
      show ((_ :: annEff e (nextT t) ps).countP isSend) = ps.length + 1
      rw [List.countP_cons_of_pos rfl, annEff_count e ps]

theorem putObject_profile (n : Node) (x : CInt) (o : Obj) : (n.putObject x o).lastTid = n.lastTid := by
  rfl

/-- A request advances the transaction id at most once for each datagram sent. -/
theorem messageListener_tid {e : Endian} {n n1 : Node} {m : Message} {eff : List Effect} (hp : profileEoj ∈ eojs n)
    (h : n.messageListener e m = .ok (n1, eff)) (hs : SameIds n n1) :
    ∃ j, n1.lastTid = iterT j n.lastTid ∧ j ≤ eff.countP isSend := by
  unfold Node.messageListener at h
  simp only [Res.bind_eq_ok] at h
  obtain ⟨dst, _, h⟩ := h
  cases ho : n.getObject dst with
  | none =>
    simp only [ho, Res.pure_eq, Res.ok.injEq, Prod.mk.injEq] at h
    exact ⟨0, by rw [← h.1]; rfl, Nat.zero_le _⟩
  | some o =>
    simp only [ho] at h
    by_cases hr : Esv.isRequest m.esv = true
    · simp only [hr, if_true, Res.bind_eq_ok, Res.pure_eq, Res.ok.injEq, Prod.mk.injEq] at h
      obtain ⟨res, _, src, _, res2, _, ⟨o', res3, ann, k⟩, _, ⟨n2, e3⟩, ha, e4, _, rfl, rfl⟩ := h
      rw [announceAll_eq] at ha
      by_cases hn : o'.hasNode = true
      · simp only [hn, if_true, Res.ok.injEq, Prod.mk.injEq] at ha
        obtain ⟨rfl, rfl⟩ := ha
        have hd : (destObj (n.putObject dst o') profileEoj).isSome = true := by
          have : profileEoj ∈ eojs (n.putObject dst o') := by
            have := hs.eojs
            unfold eojs at hp ⊢
            rw [← this] at hp
            exact hp
          unfold destObj
          rw [List.find?_isSome]
          obtain ⟨x, hx, hxe⟩ := List.mem_map.1 this
          exact ⟨x, hx, by simp [hxe]⟩
        refine ⟨ann.length, by simp only [putObject_profile], ?_⟩
        simp only [hd, if_true, List.countP_append, annEff_count]
        omega
      · simp only [hn, Res.ok.injEq, Prod.mk.injEq, Bool.false_eq_true, if_false] at ha
        obtain ⟨rfl, rfl⟩ := ha
        exact ⟨0, by rw [putObject_profile]; rfl, Nat.zero_le _⟩
    · simp only [hr, Res.pure_eq, Res.ok.injEq, Prod.mk.injEq, Bool.false_eq_true, if_false] at h
      exact ⟨0, by rw [← h.1]; rfl, Nat.zero_le _⟩

theorem node_sends_inj {to : Option String} {gs : List Frame} {f : Frame} {eff : List Effect} (hf : eff = [] ∨ eff = [sends to f])
    (h : eff.map CEvent.node = gs.map fun g => .node (sends to g)) : gs.map (·.tid) = [] ∨ gs.map (·.tid) = [f.tid] := by
  have h' : eff.map CEvent.node = (gs.map (sends to)).map CEvent.node := by rw [h, List.map_map]; rfl
  have h2 : eff = gs.map (sends to) := by
    have hinj : ∀ a b : List Effect, a.map CEvent.node = b.map CEvent.node → a = b := by
      intro a
      induction a with
      | nil => intro b hb; cases b with | nil => rfl | cons y ys => simp at hb
      | cons x xs ih =>
        intro b hb
        cases b with
        | nil => simp at hb
        | cons y ys =>
          simp only [List.map_cons, List.cons.injEq, CEvent.node.injEq] at hb
          rw [hb.1, ih ys hb.2]
    exact hinj _ _ h'
  rcases hf with rfl | rfl
  · left; simpa using h2
  · right; exact sends_tid h2.symm

/-- One message: the transaction id after the last one, if it is sent. -/
structure OneTid (e : Endian) (n n1 : Node) (gs : List Frame) : Prop where
  last : n1.lastTid = nextT n.lastTid
  objs : eojs n1 = eojs n
  tids : gs.map (·.tid) = [] ∨ gs.map (·.tid) = [tidBytes e (nextT n.lastTid)]

theorem announce_one {e : Endian} {n n1 : Node} {m m' : Message} {eff : List Effect} {gs : List Frame} (hm : Inv m)
    (h : n.announceMessage e m = .ok (n1, m', eff)) (he : eff.map CEvent.node = gs.map fun g => .node (sends none g)) :
    OneTid e n n1 gs := by
  have h1 := announceMessage_ids e h
  subst h1
  refine ⟨rfl, rfl, ?_⟩
  rw [announceMessage_eq e n hm] at h
  simp only [Res.ok.injEq] at h
  split at h
  · simp only [Prod.mk.injEq] at h
    obtain ⟨_, _, rfl⟩ := h
    left; simpa using he.symm
  · simp only [Prod.mk.injEq] at h
    obtain ⟨_, _, rfl⟩ := h
    rcases node_sends_inj (.inr rfl) he with h | h
    · exact .inl h
    · right; rw [h]; simp [toFrame, setTid_eq]

theorem send_one {e : Endian} {n n1 : Node} {m m' : Message} {a : String} {eff : List Effect} {gs : List Frame} (hm : Inv m)
    (h : n.sendMessage e (some a) m = .ok (n1, m', eff)) (he : eff.map CEvent.node = gs.map fun g => .node (sends (some a) g)) :
    OneTid e n n1 gs := by
  have h1 := sendMessage_ids e h
  subst h1
  refine ⟨rfl, rfl, ?_⟩
  rw [sendMessage_eq e n a hm] at h
  simp only [Res.ok.injEq] at h
  split at h
  · simp only [Prod.mk.injEq] at h
    obtain ⟨_, _, rfl⟩ := h
    left; simpa using he.symm
  · simp only [Prod.mk.injEq] at h
    obtain ⟨_, _, rfl⟩ := h
    rcases node_sends_inj (.inr rfl) he with h | h
    · exact .inl h
    · right; rw [h]; simp [toFrame, setTid_eq]

theorem property_one {e : Endian} {n n1 : Node} {c : CInt} {p : Property} {eff : List Effect} {gs : List Frame}
    (h : n.announceProperty e c p = .ok (n1, eff)) (he : eff.map CEvent.node = gs.map fun g => .node (sends none g)) :
    OneTid e n n1 gs := by
  rw [announceProperty_eq] at h
  simp only [Res.ok.injEq, Prod.mk.injEq] at h
  obtain ⟨rfl, rfl⟩ := h
  refine ⟨rfl, rfl, ?_⟩
  cases hd : destObj n profileEoj with
  | none => simp only [hd] at he; left; simpa using he.symm
  | some o =>
    simp only [hd] at he
    rcases node_sends_inj (.inr rfl) he with h | h
    · exact .inl h
    · right; rw [h]; rfl

theorem searchNew_inv (m : Message) (h : Message.searchNew = .ok m) : Inv m := by
  have hx : ∃ m, Message.searchNew = .ok m ∧ Inv m :=
    ⟨_, by with_unfolding_all rfl, ⟨by with_unfolding_all rfl, by with_unfolding_all rfl, by with_unfolding_all rfl⟩, rfl, rfl⟩
  obtain ⟨m', h', hi⟩ := hx
  rw [h] at h'
  exact Res.ok.inj h' ▸ hi

theorem sends_sublist {e : Endian} {db : Db} {c d : Ctrl} {k : Nat} {fs : List Frame} (h : CtrlSends e db c k fs d) :
    profileEoj ∈ eojs c.node → (fs.map fun f => tidNat e f.tid).Sublist (tidSeq k c.node.lastTid.toNat) := by
  have step : ∀ {n n1 : Node} {k : Nat} {gs fs : List Frame}, OneTid e n n1 gs →
      (profileEoj ∈ eojs n1 → (fs.map fun f => tidNat e f.tid).Sublist (tidSeq k n1.lastTid.toNat)) → profileEoj ∈ eojs n →
      ((gs ++ fs).map fun f => tidNat e f.tid).Sublist (tidSeq (k + 1) n.lastTid.toNat) := by
    intro n n1 k gs fs h1 h3 hp
    have h3 := h3 (h1.objs ▸ hp)
    rw [h1.last, nextT_toNat] at h3
    have hg : gs.map (fun f => tidNat e f.tid) = (gs.map (·.tid)).map (tidNat e) := by rw [List.map_map]; rfl
    rw [List.map_append, hg]
    unfold tidSeq
    rcases h1.tids with h2 | h2
    · rw [h2]; exact h3.cons _
    · rw [h2]; simp only [List.map_cons, List.map_nil, tidNat_next, List.singleton_append]
      exact h3.cons_cons _
  induction h with
  | done => intro _; simp
  | @start c c1 d k fs gs b hs _ ih =>
    unfold Ctrl.start Node.start at hs
    simp only [Res.bind_eq_ok, Res.pure_eq, Res.ok.injEq, Prod.mk.injEq] at hs
    obtain ⟨⟨n1, eff⟩, ha, rfl, he⟩ := hs
    have hno : ∀ {gs : List Frame}, ([] : List Effect).map CEvent.node = gs.map (fun g => .node (sends none g)) → gs = [] := by
      intro gs h; cases gs with | nil => rfl | cons g gs => simp at h
    unfold Node.announce at ha
    split at ha
    · simp only [Res.ok.injEq, Prod.mk.injEq] at ha
      obtain ⟨rfl, rfl⟩ := ha
      rw [hno he]
      exact fun hp => (ih hp).trans (tidSeq_mono (by omega) _)
    · split at ha
      · simp only [Res.ok.injEq, Prod.mk.injEq] at ha
        obtain ⟨rfl, rfl⟩ := ha
        rw [hno he]
        exact fun hp => (ih hp).trans (tidSeq_mono (by omega) _)
      · exact step (n := { c.node with bound := b }) (property_one ha he) ih
  | @announce c c1 d m k fs gs hm hs _ ih =>
    unfold Ctrl.announceMessage at hs
    simp only [Res.bind_eq_ok, Res.pure_eq, Res.ok.injEq, Prod.mk.injEq] at hs
    obtain ⟨⟨n1, m1, eff⟩, ha, rfl, he⟩ := hs
    exact step (announce_one (reachable_inv hm) ha he) ih
  | @search c c1 d k fs gs v hs _ ih =>
    unfold Ctrl.searchWithEsv Ctrl.announceMessage at hs
    simp only [Res.bind_eq_ok, Res.pure_eq, Res.ok.injEq, Prod.mk.injEq] at hs
    obtain ⟨m, hm, ⟨n1, m1, eff⟩, ha, rfl, he⟩ := hs
    have hi := searchNew_inv m hm
    exact step (announce_one (m := m.setEsv v) ⟨⟨hi.ep, hi.epSet, hi.epGet⟩, hi.ehd1, hi.ehd2⟩ ha he) ih
  | @searchObject c c1 d k fs gs x v hs _ ih =>
    unfold Ctrl.searchObjectWithEsv Ctrl.announceMessage at hs
    simp only [Res.bind_eq_ok, Res.pure_eq, Res.ok.injEq, Prod.mk.injEq] at hs
    obtain ⟨m, hm, m2, hm2, ⟨n1, m1, eff⟩, ha, rfl, he⟩ := hs
    have hi := searchNew_inv m hm
    unfold Message.setDestinationObjectCode at hm2
    simp only [Res.bind_eq_ok, Res.pure_eq, Res.ok.injEq] at hm2
    obtain ⟨y, _, rfl⟩ := hm2
    exact step (announce_one (m := { m.setEsv v with deoj := y }) ⟨⟨hi.ep, hi.epSet, hi.epGet⟩, hi.ehd1, hi.ehd2⟩ ha he) ih
  | @post c c1 d k fs gs h h' r m a q w s hm hr hs _ ih =>
    unfold Ctrl.postBegin at hs
    simp only [hm, Res.bind_eq_ok, Res.pure_eq, Res.ok.injEq, Prod.mk.injEq] at hs
    obtain ⟨⟨n1, m1, eff⟩, ha, rfl, _, he, _⟩ := hs
    exact step (send_one (reachable_inv hr) ha he) ih
  | postEnd _ ih => exact ih
  | @property c n1 d k fs gs x p ha _ ih =>
    exact step (property_one ha (by rw [List.map_map]; rfl)) ih
  | @receive c c1 d k fs h h' ev orc loc a x hs _ ih =>
    intro hp
    cases hd : decode x with
    | none =>
      rw [receive_bad e db orc c h loc a hd] at hs
      simp only [Res.ok.injEq, Prod.mk.injEq] at hs
      obtain ⟨rfl, _, rfl⟩ := hs
      exact ih hp
    | some y =>
      obtain ⟨f, r⟩ := y
      obtain ⟨rfl, hf⟩ := decode_sound hd
      have hr := recv e db orc hf hs
      obtain ⟨n1, eff, s2, ev3, g1, g2, g3, g4, g5⟩ := hr.more
      have hid : SameIds c.node n1 := receive_ids e (loc := none) (a := some a) (d := encode f ++ [])
        (by rw [receive_parsed e c.node none a hf []]; exact g1)
      obtain ⟨j, hj1, hj2⟩ := messageListener_tid hp g1 hid
      have hev : nodeEffects ev = eff := by
        have h2 : nodeEffects s2 = [] := by rcases servePost_events e g3 with rfl | rfl <;> rfl
        rw [g4, nodeEffects_append, nodeEffects_append, nodeEffects_append, nodeEffects_node, nodeEffects_msgPart, h2, nodeEffects_status g5]
        simp
      have hp1 : profileEoj ∈ eojs c1.node := by
        rw [g2]; have := hid.eojs; unfold eojs at hp ⊢; rw [this]; exact hp
      have h1 := ih hp1
      rw [g2, hj1] at h1
      rw [hev]
      exact (h1.trans (tidSeq_skip j k _)).trans (tidSeq_mono (by omega) _)

end Uecho.Lemmas
