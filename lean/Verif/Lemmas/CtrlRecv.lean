import Verif.Lemmas.Cache
/-! # Lemmas about datagrams received by a controller -/
set_option linter.unusedSimpArgs false
namespace Uecho.Lemmas
open Uecho Uecho.Spec

theorem statuses_append (a b : List CEvent) : statuses (a ++ b) = statuses a ++ statuses b := by
  unfold statuses; simp

theorem statuses_node (l : List Effect) : statuses (l.map .node) = [] := by
  unfold statuses; simp

theorem statuses_msgPart (c : Ctrl) : statuses (msgPart c) = [] := by
  unfold msgPart; split <;> rfl

theorem statuses_search (c : Ctrl) (a : String) (st : List NodeStatus) :
    statuses (searchStatus c a st) = if c.hasNodeListener then st.map (fun s => (some a, s)) else [] := by
  unfold searchStatus
  split
  · unfold statuses
    rw [List.filterMap_map]
    induction st with
    | nil => rfl
    | cons s st ih => simp [ih]
  · rfl

theorem servePost_events (e : Endian) {c : Ctrl} {h h' : Heap} {m : Message} {ev : List CEvent}
    (hs : Ctrl.servePost e c h m = .ok (h', ev)) : ev = [] ∨ ev = [.signal] := by
  unfold Ctrl.servePost Ctrl.handlePost at hs
  split at hs
  · split at hs
    · split at hs
      · simp at hs
      · split at hs
        · split at hs
          · simp at hs
          · rw [Res.bind_eq_ok] at hs
            obtain ⟨_, _, hs⟩ := hs
            simp at hs
            exact .inr hs.2.symm
        · simp at hs; exact .inl hs.2
    · simp at hs; exact .inl hs.2
  · simp at hs; exact .inl hs.2

/-- the events are calls of the node listener -/
def StatusOnly (ev : List CEvent) : Prop := ∀ x ∈ ev, ∃ a s, x = .status a s

theorem statusOnly_if (b : Bool) (a : Option String) (st : List NodeStatus) :
    StatusOnly (if b then st.map (CEvent.status a) else []) := by
  intro x hx
  split at hx
  · obtain ⟨s, _, rfl⟩ := List.mem_map.1 hx; exact ⟨_, _, rfl⟩
  · cases hx

theorem handleSearch_statusOnly {e : Endian} {db : Db} {orc : Oracle} {c c' : Ctrl} {m : Message} {ev : List CEvent}
    (h : Ctrl.handleSearch e db orc c m = .ok (c', ev)) : StatusOnly ev ∧ c'.node = c.node := by
  unfold Ctrl.handleSearch at h
  rw [Res.bind_eq_ok] at h
  obtain ⟨p, _, h⟩ := h
  have triv : ∀ {x}, (pure (c, ([] : List CEvent)) : Res _) = .ok (c', x) → StatusOnly x ∧ c'.node = c.node := by
    intro x hx
    simp only [Res.pure_eq, Res.ok.injEq, Prod.mk.injEq] at hx
    obtain ⟨rfl, rfl⟩ := hx
    refine ⟨?_, rfl⟩
    intro x hx; cases hx
  split at h
  · exact triv h
  · split at h
    · exact triv h
    · split at h
      · exact triv h
      · simp only [Res.bind_eq_ok, Res.pure_eq, Res.ok.injEq, Prod.mk.injEq] at h
        obtain ⟨_, _, _, _, _, _, rfl, rfl⟩ := h
        exact ⟨statusOnly_if _ _ _, rfl⟩

theorem handleNode_statusOnly {e : Endian} {orc : Oracle} {c c' : Ctrl} {i : Nat} {m : Message} {ev : List CEvent}
    (h : Ctrl.handleNode e orc c i m = .ok (c', ev)) : StatusOnly ev ∧ c'.node = c.node := by
  unfold Ctrl.handleNode at h
  rw [Res.bind_eq_ok] at h
  obtain ⟨n, _, h⟩ := h
  simp only [] at h
  split at h <;>
  · rw [Res.bind_eq_ok] at h
    obtain ⟨⟨_, _⟩, _, h⟩ := h
    simp only [Res.pure_eq, Res.ok.injEq, Prod.mk.injEq] at h
    obtain ⟨rfl, rfl⟩ := h
    exact ⟨statusOnly_if _ _ _, rfl⟩

theorem nodeEffects_append (a b : List CEvent) : nodeEffects (a ++ b) = nodeEffects a ++ nodeEffects b := by
  unfold nodeEffects; simp
theorem nodeEffects_node (l : List Effect) : nodeEffects (l.map .node) = l := by
  unfold nodeEffects
  induction l with
  | nil => rfl
  | cons x xs ih => simp [ih]
theorem nodeEffects_msgPart (c : Ctrl) : nodeEffects (msgPart c) = [] := by
  unfold msgPart; split <;> rfl
theorem nodeEffects_status {l : List CEvent} (h : StatusOnly l) : nodeEffects l = [] := by
  unfold nodeEffects
  rw [List.filterMap_eq_nil_iff]
  intro x hx
  obtain ⟨a, s, rfl⟩ := h x hx; rfl

/-- what one datagram does -/
structure Recv (e : Endian) (db : Db) (orc : Oracle) (c : Ctrl) (h : Heap) (a : String) (f : Frame)
    (c' : Ctrl) (h' : Heap) (ev : List CEvent) : Prop where
  ex : ∃ n1 eff s2 ev3, c.node.messageListener e (reqMsg f (some a)) = .ok (n1, eff) ∧ SameIds c.node n1 ∧
    Ctrl.servePost e { c with node := n1 } h (reqMsg f (some a)) = .ok (h', s2) ∧
    ev = eff.map .node ++ (msgPart c ++ s2 ++ ev3) ∧
    ((∃ d, SearchAnswer f d ∧
        Ctrl.handleSearch e db orc { c with node := n1 } (reqMsg f (some a)) = .ok (c', ev3)) ∨
     ((∀ d, ¬ SearchAnswer f d) ∧ (f.deoj ∈ eojs c.node → c.nodeIdx (some a) = none) ∧
        c' = { c with node := n1 } ∧ ev3 = []) ∨
     ((∀ d, ¬ SearchAnswer f d) ∧ f.deoj ∈ eojs c.node ∧ ∃ i, c.nodeIdx (some a) = some i ∧
        Ctrl.handleNode e orc { c with node := n1 } i (reqMsg f (some a)) = .ok (c', ev3)))

theorem recv (e : Endian) (db : Db) (orc : Oracle) {c c' : Ctrl} {h h' : Heap} {loc : Option String} {a : String}
    {f : Frame} (hf : f.WF) {rest : List Byte} {ev : List CEvent}
    (hr : c.receive e db orc h loc (some a) (encode f ++ rest) = .ok (c', h', ev)) :
    Recv e db orc c h a f c' h' ev := by
  rw [receive_eq e db orc c h loc a hf rest] at hr
  simp only [Res.bind_eq_ok, Res.ok.injEq, Prod.mk.injEq] at hr
  obtain ⟨⟨n1, eff⟩, g1, ⟨c1, h1, ev1⟩, g2, rfl, rfl, rfl⟩ := hr
  have hid : SameIds c.node n1 :=
    receive_ids e (loc := none) (a := some a) (d := encode f ++ [])
      (by rw [receive_parsed e c.node none a hf []]; exact g1)
  simp only at g2
  by_cases hs : ∃ d, SearchAnswer f d
  · obtain ⟨d, hs⟩ := hs
    rw [listener_search e db orc _ h hs] at g2
    simp only [Res.bind_eq_ok, Res.ok.injEq, Prod.mk.injEq] at g2
    obtain ⟨⟨h2, s2⟩, k1, ⟨c3, ev3⟩, k2, rfl, rfl, rfl⟩ := g2
    exact ⟨n1, eff, s2, ev3, g1, hid, k1, rfl, .inl ⟨d, hs, k2⟩⟩
  · have hs : ∀ d, ¬ SearchAnswer f d := fun d h => hs ⟨d, h⟩
    rw [listener_other e db orc _ h hf hs] at g2
    simp only [Res.bind_eq_ok] at g2
    obtain ⟨⟨h2, s2⟩, k1, k2⟩ := g2
    have he : eojs n1 = eojs c.node := hid.eojs
    have hidx : ∀ x, ({ c with node := n1 } : Ctrl).nodeIdx x = c.nodeIdx x := fun _ => rfl
    rw [hidx] at k2
    simp only [he] at k2
    by_cases hd : f.deoj ∈ eojs c.node
    · rw [if_pos hd] at k2
      cases hx : c.nodeIdx (some a) with
      | none =>
        rw [hx] at k2
        simp only [Res.ok.injEq, Prod.mk.injEq] at k2
        obtain ⟨rfl, rfl, rfl⟩ := k2
        exact ⟨n1, eff, s2, [], g1, hid, k1, by simp; rfl, .inr (.inl ⟨hs, fun _ => hx, rfl, rfl⟩)⟩
      | some i =>
        rw [hx] at k2
        simp only [Res.bind_eq_ok, Res.ok.injEq, Prod.mk.injEq] at k2
        obtain ⟨⟨c3, ev3⟩, k2, rfl, rfl, rfl⟩ := k2
        exact ⟨n1, eff, s2, ev3, g1, hid, k1, rfl, .inr (.inr ⟨hs, hd, i, hx, k2⟩)⟩
    · rw [if_neg hd] at k2
      simp only [Res.ok.injEq, Prod.mk.injEq] at k2
      obtain ⟨rfl, rfl, rfl⟩ := k2
      exact ⟨n1, eff, s2, [], g1, hid, k1, by simp; rfl, .inr (.inl ⟨hs, fun h => absurd h hd, rfl, rfl⟩)⟩

theorem Recv.more {e : Endian} {db : Db} {orc : Oracle} {c c' : Ctrl} {h h' : Heap} {a : String} {f : Frame}
    {ev : List CEvent} (hr : Recv e db orc c h a f c' h' ev) :
    ∃ n1 eff s2 ev3, c.node.messageListener e (reqMsg f (some a)) = .ok (n1, eff) ∧ c'.node = n1 ∧
    Ctrl.servePost e { c with node := n1 } h (reqMsg f (some a)) = .ok (h', s2) ∧
    ev = eff.map .node ++ (msgPart c ++ s2 ++ ev3) ∧ StatusOnly ev3 := by
  obtain ⟨n1, eff, s2, ev3, g1, _, g3, g4, g5⟩ := hr.ex
  refine ⟨n1, eff, s2, ev3, g1, ?_, g3, g4, ?_⟩
  · rcases g5 with ⟨_, _, g5⟩ | ⟨_, _, rfl, _⟩ | ⟨_, _, _, _, g5⟩
    · exact (handleSearch_statusOnly g5).2
    · rfl
    · exact (handleNode_statusOnly g5).2
  · rcases g5 with ⟨_, _, g5⟩ | ⟨_, _, _, rfl⟩ | ⟨_, _, _, _, g5⟩
    · exact (handleSearch_statusOnly g5).1
    · intro x hx; cases hx
    · exact (handleNode_statusOnly g5).1

/-- what the node table and the node listener see -/
inductive Seen (c : Ctrl) (a : String) (f : Frame) : List Node → List NodeStatus → Prop
  | ignored : (SearchAnswer f [] ∨ (∀ d, ¬ SearchAnswer f d) ∧ (f.deoj ∈ eojs c.node → c.getNode (some a) = none)) →
      Seen c a f c.nodes []
  | known {d i n n'} : SearchAnswer f d → d ≠ [] → c.getNode (some a) = some n → c.nodes[i]? = some n →
      n.address = some a → DInv n' → n'.address = some a →
      eojs n' = eojs n ++ newCodes (eojs n) (listedCodes d) →
      (newCodes (eojs n) (listedCodes d) = [] → n' = n) →
      (∀ o ∈ n.objs, objEoj o ≠ profileEoj → o ∈ n'.objs) →
      Seen c a f (c.nodes.set i n') (if newCodes (eojs n) (listedCodes d) = [] then [] else [.updated])
  | added {d n'} : SearchAnswer f d → d ≠ [] → c.getNode (some a) = none → (∀ n ∈ c.nodes, n.address ≠ some a) →
      DInv n' → n'.address = some a → eojs n' = [profileEoj] ++ newCodes [profileEoj] (listedCodes d) →
      Seen c a f (c.nodes ++ [n']) [.added]
  | report {i n n' u} : (∀ d, ¬ SearchAnswer f d) → f.deoj ∈ eojs c.node → c.getNode (some a) = some n →
      c.nodes[i]? = some n → n.address = some a → DInv n' → n'.address = some a → eojs n' = eojs n →
      (¬ (Reports f.esv ∧ (destObj n f.seoj).isSome) → n' = n ∧ u = false) →
      (Reports f.esv → ∀ o, destObj n f.seoj = some o → ∃ j o' t, n.objs[j]? = some o ∧
        (∀ l y, l < j → n.objs[l]? = some y → objEoj y ≠ f.seoj) ∧
        n' = { n with objs := n.objs.set j o', lastTid := t } ∧ Cached (reported f) o o' false u) →
      Seen c a f (c.nodes.set i n') (nodeStatus f.esv u)

theorem recv_seen (e : Endian) (db : Db) (orc : Oracle) {c c' : Ctrl} {h h' : Heap} {loc : Option String} {a : String}
    {f : Frame} (hi : CInv c) (hf : f.WF) {rest : List Byte} {ev : List CEvent}
    (hr : c.receive e db orc h loc (some a) (encode f ++ rest) = .ok (c', h', ev)) :
    ∃ n1 ns st, SameIds c.node n1 ∧ c' = { c with node := n1, nodes := ns } ∧ Seen c a f ns st ∧
      statuses ev = if c.hasNodeListener then st.map (fun s => (some a, s)) else [] := by
  obtain ⟨n1, eff, s2, ev3, g1, g2, g3, g4, g5⟩ := (recv e db orc hf hr).ex
  have hst : statuses ev = statuses ev3 := by
    rw [g4, statuses_append, statuses_append, statuses_append, statuses_node, statuses_msgPart]
    rcases servePost_events e g3 with rfl | rfl <;> rfl
  have hi1 : CInv { c with node := n1 } := ⟨hi.node, hi.addr, hi.nodup⟩
  rw [hst]
  rcases g5 with ⟨d, hs, g5⟩ | ⟨hs, hk, rfl, rfl⟩ | ⟨hs, hd, i, hx, g5⟩
  · by_cases hd : d = []
    · subst hd
      rw [handleSearch_nil e db orc _ hs] at g5
      simp only [Res.ok.injEq, Prod.mk.injEq] at g5
      obtain ⟨rfl, rfl⟩ := g5
      exact ⟨n1, c.nodes, [], g2, rfl, .ignored (.inl hs), by simp [statuses]⟩
    · rcases handleSearch_spec e db orc hi1 hs hd a with
        ⟨i, n, n', k1, k2, k3, k4, k5, k6, k7, k8, k9⟩ | ⟨n', k1, k2, k4, k5, k6, k7⟩
      · rw [k4] at g5
        simp only [Res.ok.injEq, Prod.mk.injEq] at g5
        obtain ⟨rfl, rfl⟩ := g5
        exact ⟨n1, _, _, g2, rfl, .known hs hd k1 k2 k3 k5 k6 k7 k8 k9, statuses_search _ _ _⟩
      · rw [k4] at g5
        simp only [Res.ok.injEq, Prod.mk.injEq] at g5
        obtain ⟨rfl, rfl⟩ := g5
        exact ⟨n1, _, _, g2, rfl, .added hs hd k1 k2 k5 k6 k7, statuses_search _ _ _⟩
  · refine ⟨n1, c.nodes, [], g2, rfl, .ignored (.inr ⟨hs, fun h => ?_⟩), by simp [statuses]⟩
    rcases nodeIdx_spec hi a with ⟨j, _, _⟩ | ⟨i, n, _, j, _, _⟩
    · exact j
    · rw [hk h] at j; cases j
  · rcases nodeIdx_spec hi a with ⟨_, j, _⟩ | ⟨i', n, j0, j, j1, j2⟩
    · rw [hx] at j; cases j
    · rw [hx] at j
      cases j
      obtain ⟨n', u, k1, k2, k3, k4, k5, k6⟩ := handleNode_spec e orc hi1 hf (i := i) (n := n) (a := a) j1 j2
      rw [k1] at g5
      simp only [Res.ok.injEq, Prod.mk.injEq] at g5
      obtain ⟨rfl, rfl⟩ := g5
      exact ⟨n1, _, _, g2, rfl, .report hs hd j0 j1 j2 k2 k3 k4 k5 k6, statuses_search _ _ _⟩

theorem Seen.inv {c : Ctrl} {a : String} {f : Frame} {ns : List Node} {st : List NodeStatus} (hi : CInv c)
    (h : Seen c a f ns st) (n1 : Node) : CInv { c with node := n1, nodes := ns } := by
  have key : CInv { c with nodes := ns } := by
    cases h with
    | ignored => exact hi
    | known _ _ _ h1 h2 h3 h4 => exact hi.set h1 h3 (by rw [h4, h2])
    | added _ _ _ h1 h3 h4 => exact hi.append h3 h4 h1
    | report _ _ _ h1 h2 h3 h4 => exact hi.set h1 h3 (by rw [h4, h2])
  exact ⟨key.node, key.addr, key.nodup⟩

theorem receive_any (e : Endian) (db : Db) (orc : Oracle) {c c' : Ctrl} {h h' : Heap} {loc : Option String} {a : String}
    {data : List Byte} (hi : CInv c) {ev : List CEvent}
    (hr : c.receive e db orc h loc (some a) data = .ok (c', h', ev)) :
    (decode data = none ∧ c' = c ∧ h' = h ∧ ev = []) ∨ ∃ f rest n1 ns st, f.WF ∧ data = encode f ++ rest ∧
      SameIds c.node n1 ∧ c' = { c with node := n1, nodes := ns } ∧ Seen c a f ns st ∧
      statuses ev = if c.hasNodeListener then st.map (fun s => (some a, s)) else [] := by
  cases hd : decode data with
  | none =>
    rw [receive_bad e db orc c h loc a hd] at hr
    simp only [Res.ok.injEq, Prod.mk.injEq] at hr
    exact .inl ⟨rfl, hr.1.symm, hr.2.1.symm, hr.2.2.symm⟩
  | some x =>
    obtain ⟨f, r⟩ := x
    obtain ⟨rfl, hf⟩ := decode_sound hd
    obtain ⟨n1, ns, st, h1, h2, h3, h4⟩ := recv_seen e db orc hi hf hr
    exact .inr ⟨f, r, n1, ns, st, hf, rfl, h1, h2, h3, h4⟩

theorem reach_cinv {e : Endian} {db : Db} {c : Ctrl} (h : CtrlReach e db c) : CInv c := by
  induction h with
  | new => exact ⟨by simp [Ctrl.new], by simp [Ctrl.new], by simp [Ctrl.new]⟩
  | setMessageListener _ _ ih => exact ⟨ih.node, ih.addr, ih.nodup⟩
  | setNodeListener _ _ ih => exact ⟨ih.node, ih.addr, ih.nodup⟩
  | enableOption _ _ ih => exact ⟨ih.node, ih.addr, ih.nodup⟩
  | disableOption _ _ ih => exact ⟨ih.node, ih.addr, ih.nodup⟩
  | localNode _ _ ih => exact ⟨ih.node, ih.addr, ih.nodup⟩
  | start b _ hs _ =>
    unfold Ctrl.start at hs
    simp only [Res.bind_eq_ok, Res.pure_eq, Res.ok.injEq, Prod.mk.injEq] at hs
    obtain ⟨_, _, rfl, _⟩ := hs
    exact ⟨by simp, by simp, by simp⟩
  | announce m _ hs ih =>
    unfold Ctrl.announceMessage at hs
    simp only [Res.bind_eq_ok, Res.pure_eq, Res.ok.injEq, Prod.mk.injEq] at hs
    obtain ⟨_, _, rfl, _⟩ := hs
    exact ⟨ih.node, ih.addr, ih.nodup⟩
  | search esv _ hs ih =>
    unfold Ctrl.searchWithEsv Ctrl.announceMessage at hs
    simp only [Res.bind_eq_ok, Res.pure_eq, Res.ok.injEq, Prod.mk.injEq] at hs
    obtain ⟨_, _, _, _, rfl, _⟩ := hs
    exact ⟨ih.node, ih.addr, ih.nodup⟩
  | searchObject code esv _ hs ih =>
    unfold Ctrl.searchObjectWithEsv Ctrl.announceMessage at hs
    simp only [Res.bind_eq_ok, Res.pure_eq, Res.ok.injEq, Prod.mk.injEq] at hs
    obtain ⟨_, _, _, _, _, _, rfl, _⟩ := hs
    exact ⟨ih.node, ih.addr, ih.nodup⟩
  | postBegin a req res s _ hs ih =>
    unfold Ctrl.postBegin at hs
    simp only at hs
    split at hs
    · simp at hs
    · simp only [Res.bind_eq_ok, Res.pure_eq, Res.ok.injEq, Prod.mk.injEq] at hs
      obtain ⟨_, _, rfl, _⟩ := hs
      exact ⟨ih.node, ih.addr, ih.nodup⟩
  | postEnd _ ih => exact ⟨ih.node, ih.addr, ih.nodup⟩
  | receive orc loc a d _ hs ih =>
    rcases receive_any e db orc ih hs with ⟨_, rfl, _⟩ | ⟨_, _, n1, ns, _, _, _, _, rfl, h3, _⟩
    · exact ih
    · exact h3.inv ih n1

end Uecho.Lemmas
