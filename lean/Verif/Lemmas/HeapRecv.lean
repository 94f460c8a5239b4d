import Verif.Lemmas.HeapNode
/-! # Ownership of blocks: datagrams -/
namespace Uecho.Lemmas.Blocks
open Uecho Uecho.Spec Uecho.Heap

/-- Only the data of properties has changed. -/
def Same (o r : HObj) : Prop := ∃ ps, r = { o with props := ps } ∧ shp ps = shp o.props

theorem Same.refl (o : HObj) : Same o o := ⟨o.props, rfl, rfl⟩

theorem Same.trans {o r s : HObj} (h : Same o r) (h' : Same r s) : Same o s := by
  obtain ⟨ps, rfl, e⟩ := h
  obtain ⟨ps', rfl, e'⟩ := h'
  exact ⟨ps', rfl, e'.trans e⟩

theorem Same.grow {o r : HObj} (h : Same o r) : Grow o r := by
  obtain ⟨ps, e, h⟩ := h
  exact ⟨ps, [], e, by simp [h]⟩

theorem objSetData_same {ann : Announcer} {K : List Nat} (ha : AnnOk ann K) (o : HObj) (code : Byte) (d : List Byte)
    (h : o.props.any (fun p => p.code == code) = true) :
    Triple (objF o ++ K) (objSetData ann o code d) (fun r => objF r ++ K) (Same o) := by
  obtain ⟨p, hp, hc⟩ := List.any_eq_true.1 h
  unfold objSetData
  frame objGetByCode_triple o code
  intro r hr
  frame setDataAt_triple ha o r.1 r.2.1 r.2.2 d
  intro q hq
  refine .pure (by fp) ?_
  rcases hr.2 with h | ⟨h, _⟩
  · refine ⟨_, rfl, ?_⟩
    rw [h]
    simp [shp, hq.1, hq.2.1]
  · exact absurd (by simpa using hc) (h p hp)

theorem handler_triple {ann : Announcer} {K : List Nat} (ha : AnnOk ann K) (l : List (Byte × List Byte)) : ∀ (o : HObj),
    Triple (objF o ++ K) (handler ann l o) (fun r => objF r ++ K) (Same o) := by
  induction l with
  | nil => intro o; exact .pure (.refl _) (.refl o)
  | cons x l ih =>
    intro o
    unfold handler
    split
    next h =>
      refine (objSetData_same ha o x.1 x.2 h).bind (K := []) (by simp) fun o1 h1 => ?_
      exact ((ih o1).perm (by simp)).weak fun r hr => h1.trans hr
    · exact ih o

theorem obs_mem {o : HObj} {x : HObs} {K : List Nat} (h : x ∈ o.obs) : x.self ∈ objF o ++ K := by
  have : x.self ∈ o.obs.map HObs.self := List.mem_map_of_mem h
  simp only [objF, List.mem_append]
  grind

theorem useMem_triple {P : List Nat} {a : Nat} (h : a ∈ P) : Triple P (use a) (fun _ => P) (fun _ => True) := by
  intro rest m o
  have ha : a ∈ m.live := (o.1.mem_iff).2 (List.mem_append_left _ h)
  exact ⟨(), m, by simp only [use, if_pos ha], o, trivial⟩

theorem notify_triple (e : Env) {ann : Announcer} {K : List Nat} (ha : AnnOk ann K) (esv code : Byte) (l : List HObs) : ∀ (o : HObj), (∀ x ∈ l, x ∈ o.obs) →
    Triple (objF o ++ K) (notify e ann esv code l o) (fun r => objF r.2 ++ K) (fun r => Same o r.2) := by
  induction l with
  | nil => intro o _; exact .pure (.refl _) (.refl o)
  | cons x l ih =>
    intro o hl
    unfold notify
    refine (useMem_triple (P := objF o ++ K) (obs_mem (hl x (by simp)))).bind (K := []) (by simp) fun _ _ => ?_
    split
    · refine (askWrites_triple e).bind (K := objF o ++ K) (by simp) fun w _ => ?_
      refine (handler_triple ha w o).bind (K := []) (by simp) fun o1 h1 => ?_
      refine (coin_triple e).bind (K := objF o1 ++ K) (by simp) fun a _ => ?_
      have hobs : o1.obs = o.obs := by obtain ⟨ps, rfl, _⟩ := h1; rfl
      refine (useMem_triple (P := objF o1 ++ K) (obs_mem (by rw [hobs]; exact hl x (by simp)))).bind (K := []) (by simp) fun _ _ => ?_
      refine (ih o1 (fun y hy => by rw [hobs]; exact hl y (by simp [hy]))).bind (K := []) (by simp) fun r hr => ?_
      exact .pure (by simp) (h1.trans hr)
    · exact (ih o (fun y hy => hl y (by simp [hy]))).perm (by simp)

theorem writeData_triple {ann : Announcer} {K : List Nat} (ha : AnnOk ann K) (o : HObj) (esv : Byte) (acc : Bool) (req : HProp)
    (pre : List HProp) (p : HProp) (post : List HProp) :
    Triple (propF req ++ objF { o with props := pre ++ p :: post } ++ K) (writeData ann o esv acc req pre p post)
      (fun q => propF req ++ objF { o with props := pre ++ q :: post } ++ K) (fun q => q.code = p.code ∧ q.attr = p.attr) := by
  unfold writeData
  split
  · frame propRead_triple req
    intro d _
    refine .last ?_
    frame setDataAt_triple ha o pre p post d
    intro q hq
    exact .pure (by fp) ⟨hq.1, hq.2.1⟩
  · exact .pure (by fp) ⟨rfl, rfl⟩

theorem responseData_triple (esv : Byte) (acc : Bool) (req p res : HProp) (P : List Nat)
    (hr : ∃ K, P.Perm (propF req ++ K)) (hp : ∃ K, P.Perm (propF p ++ K)) :
    Triple (P ++ propF res) (responseData esv acc req p res) (fun r => P ++ propF r) (fun _ => True) := by
  have rd : ∀ q, (∃ K, P.Perm (propF q ++ K)) → Triple (P ++ propF res) (do
      let d ← propRead q
      propSetData res d) (fun r => P ++ propF r) (fun _ => True) := by
    rintro q ⟨K, hK⟩
    refine (propRead_triple q).bind (K := K ++ propF res) ((hK.append_right _).trans (by perm)) fun d _ => ?_
    refine (propSetData_triple res d).conseq (K := P) ?_ fun r _ => ⟨by perm, trivial⟩
    exact List.Perm.trans (by perm) ((hK.symm.append_right (propF res)).trans (by perm))
  unfold responseData
  split
  · split
    · exact rd p hp
    · exact .pure (.refl _) trivial
  · split
    · exact rd req hr
    · exact .pure (.refl _) trivial

theorem handleProps_triple (e : Env) {ann : Announcer} {K : List Nat} (ha : AnnOk ann K) (esv : Byte) {add : HMsg → HProp → H HMsg} {sec : MsgSec}
    (hadd : AddOk add sec) (reqs : List HProp) : ∀ (o : HObj) (m : HMsg), MsgOk m → (HMsg.sec m sec).cnt.toNat + reqs.length ≤ 255 →
    Triple (propsF reqs ++ objF o ++ K ++ msgF m) (handleProps e ann esv add reqs o m)
      (fun r => propsF reqs ++ objF r.1 ++ K ++ msgF r.2)
      (fun r => Same o r.1 ∧ MsgOk r.2 ∧ ∀ s, s ≠ sec → (HMsg.sec r.2 s).cnt = (HMsg.sec m s).cnt) := by
  induction reqs with
  | nil => intro o m hm _; exact .pure (.refl _) ⟨.refl o, hm, fun _ _ => rfl⟩
  | cons req reqs ih =>
    intro o m hm hc
    simp only [List.length_cons] at hc
    unfold handleProps
    frame use_triple req.self
    intro _ _
    frame propNew_triple
    intro res _
    frame objFind_triple o req.code
    intro r hr
    rcases r with _ | ⟨pre, p, post⟩
    · simp only
      refine Triple.bind (K := propsF reqs ++ objF o ++ K ++ msgF m)
        (responseData_triple esv false req req { res with code := req.code } (propF req) ⟨[], by simp⟩ ⟨[], by simp⟩) (by fp) ?_
      intro res' _
      refine Triple.bind (K := propsF (req :: reqs) ++ objF o ++ K) (hadd m res' hm (by omega)) (by fp) ?_
      intro m1 h1
      refine (ih o m1 h1.1 (by omega)).conseq (K := propF req) (by fp) fun r hr => ⟨by fp, hr.1, hr.2.1, fun s hs => ?_⟩
      rw [hr.2.2 s hs, h1.2.2 s hs]
    · simp only at hr ⊢
      touching
      intro _ _
      refine Triple.bind (K := propF req ++ propsF reqs ++ propF res ++ msgF m) (notify_triple e ha esv req.code o.obs o (fun _ h => h)) (by fp) ?_
      rintro ⟨acc, o1⟩ h1
      have hsame : Same o o1 := h1
      obtain ⟨ps, rfl, hps⟩ := h1
      simp only
      rcases h2 : splitBy (fun q => q.code == req.code) ps with _ | ⟨pre1, p1, post1⟩
      · exfalso
        have h3 := splitBy_none h2
        have h4 : (req.code, p.attr) ∈ shp ps := by
          rw [hps, hr.1]; simp [shp, hr.2]
        obtain ⟨q, hq, e1⟩ := List.mem_map.1 h4
        have := h3 q hq
        simp only [Prod.mk.injEq] at e1
        simp [e1.1] at this
      · rw [h2]
        obtain ⟨e2, _⟩ := splitBy_eq h2
        subst e2
        simp only
        refine Triple.bind (K := propF res ++ propsF reqs ++ msgF m) (writeData_triple ha { o with props := pre1 ++ p1 :: post1 } esv acc req pre1 p1 post1) (by fp) ?_
        intro p' hp'
        refine Triple.bind (K := propsF reqs ++ K ++ msgF m) (responseData_triple esv acc req p' { res with code := req.code }
          (propF req ++ objF { o with props := pre1 ++ p' :: post1 }) ⟨_, .refl _⟩
          ⟨propF req ++ objF { o with props := pre1 ++ post1 }, by fp⟩) (by fp) ?_
        intro res' _
        refine Triple.bind (K := propsF (req :: reqs) ++ objF { o with props := pre1 ++ p' :: post1 } ++ K) (hadd m res' hm (by omega)) (by fp) ?_
        intro m1 h1
        refine (ih { o with props := pre1 ++ p' :: post1 } m1 h1.1 (by omega)).conseq (K := propF req) (by fp)
          fun r hr' => ⟨by fp, hsame.trans (Same.trans ⟨_, rfl, ?_⟩ hr'.1), hr'.2.1, fun s hs => ?_⟩
        · simp [shp, hp']
        · rw [hr'.2.2 s hs, h1.2.2 s hs]

theorem take_all {s : HSec} (h : SecOk s) : s.cnt.toNat ≤ (slotsOf s.arr).length ∧ (slotsOf s.arr).take s.cnt.toNat = slotsOf s.arr ∧
    (slotsOf s.arr).length ≤ 255 := by
  have h1 : (slotsOf s.arr).length = s.cnt.toNat := h
  have h2 := s.cnt.isLt
  exact ⟨by omega, by rw [← h1]; simp, by omega⟩

theorem handleSecs_triple (e : Env) {ann : Announcer} {K : List Nat} (ha : AnnOk ann K) (m : HMsg) (hm : MsgOk m) (o : HObj) (res : HMsg)
    (hr : MsgOk res ∧ res.plain.cnt = 0 ∧ res.set.cnt = 0 ∧ res.get.cnt = 0) :
    Triple (msgF m ++ objF o ++ K ++ msgF res) (handleSecs e ann m o res) (fun r => msgF m ++ objF r.1 ++ K ++ msgF r.2)
      (fun r => Same o r.1 ∧ MsgOk r.2) := by
  obtain ⟨p1, p2, p3⟩ := take_all hm.1
  obtain ⟨s1, s2, s3⟩ := take_all hm.2.1
  obtain ⟨g1, g2, g3⟩ := take_all hm.2.2
  unfold handleSecs
  split
  · rw [if_pos ⟨s1, g1⟩, s2, g2]
    refine Triple.bind (K := [m.self] ++ ptr m.bytes ++ ptr m.fromA ++ ptr m.toA ++ secF m.plain ++ ptr m.set.arr ++ secF m.get)
      (handleProps_triple e ha Esv.writeRequestRR msgAddSet_ok (slotsOf m.set.arr) o res hr.1
        (by show res.set.cnt.toNat + _ ≤ 255; rw [hr.2.2.1]; simpa using s3)) (by fp) ?_
    intro r h1
    refine (handleProps_triple e ha Esv.readRequest msgAddGet_ok (slotsOf m.get.arr) r.1 r.2 h1.2.1 ?_).conseq
      (K := [m.self] ++ ptr m.bytes ++ ptr m.fromA ++ ptr m.toA ++ secF m.plain ++ secF m.set ++ ptr m.get.arr) (by fp)
        fun q hq => ⟨by fp, h1.1.trans hq.1, hq.2.1⟩
    have : (HMsg.sec r.2 .get).cnt = (HMsg.sec res .get).cnt := h1.2.2 .get (by decide)
    rw [this]
    show res.get.cnt.toNat + _ ≤ 255
    rw [hr.2.2.2]
    simpa using g3
  · rw [p2]
    refine (handleProps_triple e ha m.hd.esv msgAdd_ok (slotsOf m.plain.arr) o res hr.1
      (by show res.plain.cnt.toNat + _ ≤ 255; rw [hr.2.1]; simpa using p3)).conseq
        (K := [m.self] ++ ptr m.bytes ++ ptr m.fromA ++ ptr m.toA ++ ptr m.plain.arr ++ secF m.set ++ secF m.get) (by fp)
        fun q hq => ⟨by fp, hq.1, hq.2.1⟩

theorem respond_triple (e : Env) (n : HNode) (hn : NodeOk n) (res : HMsg) (hr : MsgOk res) : Triple (nodeF n ++ msgF res) (respond e n res)
    (fun r => nodeF n ++ msgF r) MsgOk := by
  unfold respond
  frame coin_triple e
  intro needed _
  split
  · frame coin_triple e
    intro b _
    frame msgGetBytes_triple { res with hd := { res.hd with esv := if b then Esv.notification else Esv.readResponse } } hr
    intro r h1
    obtain ⟨a, rfl⟩ := h1
    frame use_triple n.self
    intro _ _
    split
    · frame postAnnounce_triple e n.server hn
      intro _ _
      exact .pure (by fp) hr
    · frame postResponse_triple e n.server hn
      intro _ _
      exact .pure (by fp) hr
  · exact .pure (by fp) hr

/-- A node of which only the data of properties has changed. -/
def SameNode (n r : HNode) : Prop := r = n ∨ ∃ pre o o' post, n.objs = pre ++ o :: post ∧ r = { n with objs := pre ++ o' :: post } ∧ Same o o'

theorem SameNode.ok {n r : HNode} (h : SameNode n r) (hn : NodeOk n) : NodeOk r := by
  rcases h with rfl | ⟨_, _, _, _, _, rfl, _⟩ <;> exact hn

theorem nodeHandle_triple (e : Env) (n : HNode) (hn : NodeOk n) (m : HMsg) (hm : MsgOk m) : Triple (nodeF n ++ msgF m) (nodeHandle e n m)
    (fun r => nodeF r ++ msgF m) (SameNode n) := by
  unfold nodeHandle touchObjs
  frame use_triple m.self
  intro _ _
  touching
  intro _ _
  rcases h : splitBy (fun o => o.is m.hd.deoj) n.objs with _ | ⟨pre, o, post⟩
  · rw [h]
    exact .pure (by fp) (Or.inl rfl)
  · obtain ⟨e1, ho⟩ := splitBy_eq h
    rw [h]
    simp only
    split
    · frame msgNew_cnt
      intro res hres
      refine Triple.bind (K := []) (handleSecs_triple e (annIn_ok e n hn pre post) m hm o res hres) ?_ ?_
      · simp only [nodeF, e1, restF]; fp
      intro r hr
      refine Triple.perm (P := nodeF { n with objs := pre ++ r.1 :: post } ++ msgF m ++ msgF r.2) ?_ (by simp only [restF]; fp)
      frame useOpt_triple m.fromA
      intro _ _
      frame respond_triple e { n with objs := pre ++ r.1 :: post } hn r.2 hr.2
      intro res' hres'
      frame msgDelete_triple res' hres'
      intro _ _
      exact .pure (by fp) (Or.inr ⟨pre, o, r.1, post, e1, rfl, hr.1⟩)
    · exact .pure (by fp) (Or.inl rfl)

/-! ### Packets -/

/-- The blocks of a packet. -/
def pktF (p : HPkt) : List Nat := [p.self] ++ strF p.loc ++ strF p.rem ++ ptr p.data

theorem pktData_triple (d : List Byte) : Triple [] (pktData d) ptr (fun r => bytesOf r = d) := by
  unfold pktData
  split
  next h => exact .pure (.refl _) (by simpa [bytesOf] using h.symm)
  · frame malloc_triple
    intro a _
    exact .pure (by fp) rfl

theorem selectAddr_triple (e : Env) : Triple [] (selectAddr e) ptr (fun _ => True) := by
  unfold selectAddr
  frame askHere_triple e
  intro h _
  rcases h with _ | s
  · exact .pure (.refl _) trivial
  · simp only
    frame malloc_triple
    intro a _
    exact .pure (by fp) trivial

theorem recvPkt_triple (e : Env) (d : List Byte) (src : String) : Triple [] (recvPkt e d src) pktF
    (fun p => bytesOf p.data = d ∧ (d ≠ [] → p.rem.val.map (·.2) = some src)) := by
  unfold recvPkt pktF
  frame malloc_triple
  intro a _
  frame strNew_triple
  intro l _
  frame strNew_triple
  intro r _
  split
  next h => exact .pure (by fp) ⟨by simpa [bytesOf] using h.symm, fun c => absurd (by simpa using h) c⟩
  · frame pktData_triple d
    intro p hp
    frame strSetValue_triple r (some "")
    intro r1 _
    frame strSetValue_triple r1 (some src)
    intro r2 hr2
    frame selectAddr_triple e
    intro h _
    frame strSetValue_triple l (h.map (·.2))
    intro l1 _
    frame freeOpt_triple h
    intro _ _
    exact .pure (by fp) ⟨hp, fun _ => hr2⟩

theorem pktDelete_triple (p : HPkt) : Triple (pktF p) (pktDelete p) (fun _ => []) (fun _ => True) := by
  unfold pktDelete pktF
  frame use_triple p.self
  intro _ _
  frame freeOpt_triple p.data
  intro _ _
  frame strDelete_triple p.loc
  intro _ _
  frame strDelete_triple p.rem
  intro _ _
  exact (free_triple p.self).perm (by fp)

/-- What a packet becomes: a message with the fields of the frame and the source address, if it is a frame. -/
def Parsed (m : HMsg) (p : HPkt) (r : Bool × HMsg) : Prop :=
  match decode (bytesOf p.data) with
  | some (f, _) => r.1 = true ∧ ∀ s, p.rem.val.map (·.2) = some s → r.2.val = { parsed m.val f with fromAddr := some s }
  | none => r.1 = false

theorem msgParsePkt_triple (m : HMsg) (hm : MsgOk m) (p : HPkt) : Triple (msgF m ++ pktF p) (msgParsePkt m p) (fun r => msgF r.2 ++ pktF p)
    (fun r => MsgOk r.2 ∧ Parsed m p r) := by
  unfold msgParsePkt pktF
  frame use_triple p.self
  intro _ _
  frame useOpt_triple p.data
  intro _ _
  have hs := parse_spec (m := m.val)
    ⟨by simp only [HMsg.val, List.length_map]; exact hm.1, by simp only [HMsg.val, List.length_map]; exact hm.2.1,
      by simp only [HMsg.val, List.length_map]; exact hm.2.2⟩ (bytesOf p.data) (bytesOf p.data).length (Nat.le_refl _)
  rw [List.take_length] at hs
  obtain ⟨v, hv⟩ := parse_defined hm (bytesOf p.data) (bytesOf p.data).length (Nat.le_refl _)
  rw [hv] at hs
  frame msgParse_triple m hm (bytesOf p.data) (bytesOf p.data).length hv
  intro r hr
  obtain ⟨hr, e⟩ := hr
  subst e
  clear hv
  split
  next h =>
    frame strRead_triple p.loc
    intro l _
    frame msgSetSource_triple r.2 hr l
    intro m1 h1
    frame strRead_triple p.rem
    intro s hs'
    frame msgSetSource_triple m1 h1.1 s
    intro m2 h2
    refine .pure (by fp) ⟨h2.1, ?_⟩
    unfold Parsed
    cases hd : decode (bytesOf p.data) with
    | none =>
      rw [hd] at hs
      obtain ⟨m', h', _⟩ := hs
      simp only [Res.ok.injEq, Prod.mk.injEq] at h'
      rw [h'.1] at h
      cases h
    | some x =>
      obtain ⟨f, rest⟩ := x
      rw [hd] at hs
      simp only [Res.ok.injEq, Prod.mk.injEq] at hs
      refine ⟨rfl, fun t ht => ?_⟩
      show m2.val = _
      rw [h2.2.1, hs', ht, h1.2.1, hs.2]
      cases l <;> rfl
  next h =>
    refine .pure (by fp) ⟨hr, ?_⟩
    unfold Parsed
    cases hd : decode (bytesOf p.data) with
    | none => simpa using h
    | some x =>
      obtain ⟨f, rest⟩ := x
      rw [hd] at hs
      simp only [Res.ok.injEq, Prod.mk.injEq] at hs
      exact absurd hs.1 h

theorem receive_triple {σ : Type} (e : Env) (d : List Byte) (src : String) (s : σ) {handle : σ → HMsg → H σ} {P : List Nat} {F : σ → List Nat} {Q : σ → Prop}
    (h0 : P.Perm (F s)) (hQ : decode d = none → Q s)
    (t : ∀ m f rest, MsgOk m → decode d = some (f, rest) → m.val = { parsed Message.new f with fromAddr := some src } →
      Triple (P ++ msgF m) (handle s m) (fun r => F r ++ msgF m) Q) :
    Triple P (receive e d src s handle) F Q := by
  unfold receive
  refine Triple.bind (K := P) (recvPkt_triple e d src) (by fp) ?_
  intro p hp
  refine Triple.bind (K := pktF p ++ P) msgNew_triple (by fp) ?_
  intro m hm
  refine Triple.bind (K := P) (msgParsePkt_triple m hm.1 p) (by fp) ?_
  intro r hr
  obtain ⟨hr, hx⟩ := hr
  unfold Parsed at hx
  rw [hp.1, hm.2] at hx
  split
  next h =>
    cases hd : decode d with
    | none => rw [hd] at hx; rw [hx] at h; cases h
    | some x =>
      obtain ⟨f, rest⟩ := x
      rw [hd] at hx
      have hne : d ≠ [] := by rintro rfl; cases hd
      refine Triple.bind (K := pktF p) (t r.2 f rest hr hd (hx.2 src (hp.2 hne))) (by fp) ?_
      intro s1 h1
      refine Triple.bind (K := F s1 ++ msgF r.2) (pktDelete_triple p) (by fp) ?_
      intro _ _
      refine Triple.bind (K := F s1) (msgDelete_triple r.2 hr) (by fp) ?_
      intro _ _
      exact .pure (by fp) h1
  next h =>
    have hd : decode d = none := by
      cases hd : decode d with
      | none => rfl
      | some x => obtain ⟨f, rest⟩ := x; rw [hd] at hx; exact absurd hx.1 h
    refine Triple.bind (K := P ++ msgF r.2) (pktDelete_triple p) (by fp) ?_
    intro _ _
    refine Triple.bind (K := P) (msgDelete_triple r.2 hr) (by fp) ?_
    intro _ _
    exact .pure (by simpa using h0) (hQ hd)

/-- A datagram at a node. -/
theorem nodeReceive_triple (e : Env) (d : List Byte) (src : String) (n : HNode) (hn : NodeOk n) :
    Triple (nodeF n) (receive e d src n (nodeHandle e)) nodeF (SameNode n) :=
  receive_triple e d src n (.refl _) (fun _ => Or.inl rfl) fun m _ _ hm _ _ => nodeHandle_triple e n hn m hm

end Uecho.Lemmas.Blocks
