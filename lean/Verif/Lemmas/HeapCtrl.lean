import Verif.Lemmas.HeapRecv
/-! # Ownership of blocks: controllers -/
namespace Uecho.Lemmas.Blocks
open Uecho Uecho.Spec Uecho.Heap

/-- The servers of the nodes of a controller have bound sockets only. -/
def CtrlOk (c : HCtrl) : Prop := NodeOk c.node ∧ ∀ n ∈ c.nodes, NodeOk n

/-- The maps of all the objects of the nodes of a controller can be rebuilt. -/
def Listed (l : List HNode) : Prop := ∀ n ∈ l, NodeOk n ∧ AllSafe n

theorem nodesClear_triple (hdr : Nat) (l : List HNode) : Triple ([hdr] ++ nodesF l) (nodesClear hdr l) (fun _ => [hdr]) (fun _ => True) := by
  induction l with
  | nil =>
    unfold nodesClear
    refine .last ?_
    frame use_triple hdr
    intro _ _
    exact .pure (by fp) trivial
  | cons o l ih =>
    unfold nodesClear
    touching
    intro _ _
    frame nodeDelete_triple o
    intro _ _
    exact ih.perm (by fp)

theorem ctrlNew_triple (e : Env) (db : HDb) (id : List Byte) : Triple (dbF db) (ctrlNew e db id) (fun r => ctrlF r ++ dbF db)
    (fun r => NodeOk r.node ∧ AllSafe r.node ∧ r.nodes = [] ∧ r.post = none) := by
  unfold ctrlNew
  frame malloc_triple
  intro a _
  frame malloc_triple
  intro m _
  frame malloc_triple
  intro c _
  frame nodeNew_triple e db id
  intro n hn
  frame malloc_triple
  intro l _
  frame serverAddObserver_triple n.server
  intro s hs
  refine .pure (by fp) ⟨?_, hn.2.1, rfl, rfl⟩
  have := hn.1
  simp only [NodeOk, ServerOk] at this ⊢
  rw [hs.1, hs.2]
  exact this

theorem ctrlDelete_triple (c : HCtrl) : Triple (ctrlF c) (ctrlDelete c) (fun _ => []) (fun _ => True) := by
  unfold ctrlDelete
  frame use_triple c.self
  intro _ _
  frame nodeStop_triple c.node
  intro n _
  frame free_triple c.mutex
  intro _ _
  frame free_triple c.cond
  intro _ _
  frame nodeDelete_triple n
  intro _ _
  frame nodesClear_triple c.nlist c.nodes
  intro _ _
  frame free_triple c.nlist
  intro _ _
  exact (free_triple c.self).perm (by fp)

theorem ctrlStart_triple (e : Env) (c : HCtrl) : Triple (ctrlF c) (ctrlStart e c) ctrlF
    (fun r => NodeOk r.node ∧ r.nodes = [] ∧ r.post = c.post ∧ r.node.objs = c.node.objs) := by
  unfold ctrlStart
  frame use_triple c.self
  intro _ _
  frame nodesClear_triple c.nlist c.nodes
  intro _ _
  frame nodeStart_triple e c.node
  intro n hn
  exact .pure (by fp) ⟨hn.1, rfl, rfl, hn.2⟩

theorem ctrlStop_triple (c : HCtrl) : Triple (ctrlF c) (ctrlStop c) ctrlF
    (fun r => NodeOk r.node ∧ r.nodes = c.nodes ∧ r.post = c.post ∧ r.node.objs = c.node.objs) := by
  unfold ctrlStop
  frame use_triple c.self
  intro _ _
  frame nodeStop_triple c.node
  intro n hn
  exact .pure (by fp) ⟨hn.1, rfl, rfl, hn.2⟩

theorem ctrlSearch_triple (e : Env) (c : HCtrl) (hc : NodeOk c.node) : Triple (ctrlF c) (ctrlSearch e c) (fun _ => ctrlF c) (fun _ => True) := by
  unfold ctrlSearch
  frame searchNew_triple
  intro m hm
  frame use_triple c.self
  intro _ _
  frame announceMessage_triple e c.node hc m hm.1
  intro r hr
  refine .last ?_
  obtain ⟨b, hr⟩ := hr
  frame msgDelete_triple r.1 (by rw [hr]; exact hm.1)
  intro _ _
  exact .pure (by fp) trivial

theorem readAddress_triple (n : HNode) : Triple (nodeF n) (readAddress n) (fun _ => nodeF n) (fun _ => True) := by
  unfold readAddress
  frame use_triple n.self
  intro _ _
  frame strRead_triple n.addr
  intro _ _
  touching
  intro _ _
  frame readAddrs_triple n.server.udp
  intro _ _
  refine .last ?_
  frame readAddrs_triple n.server.mcast
  intro _ _
  exact .pure (by fp) trivial

theorem readAddresses_triple (l : List HNode) : Triple (nodesF l) (readAddresses l) (fun _ => nodesF l) (fun _ => True) := by
  induction l with
  | nil => exact .pure (.refl _) trivial
  | cons n l ih =>
    unfold readAddresses
    refine Triple.bind (K := nodesF l) (readAddress_triple n) (by fp) ?_
    intro _ _
    refine .last ?_
    refine Triple.bind (K := nodeF n) ih (by fp) ?_
    intro _ _
    exact .pure (by fp) trivial

theorem findNode_triple (c : HCtrl) (addr : String) : Triple (ctrlF c) (findNode c addr) (fun _ => ctrlF c)
    (fun r => r = splitBy (fun n => n.at addr) c.nodes) := by
  unfold findNode
  touching
  intro _ _
  refine Triple.bind (K := [c.self] ++ [c.mutex] ++ [c.cond] ++ nodeF c.node ++ [c.nlist]) (readAddresses_triple c.nodes) (by fp) ?_
  intro _ _
  exact .pure (by fp) rfl

theorem addListed_triple (e : Env) (db : HDb) (l : List Byte) (n : HNode) (hn : NodeOk n ∧ AllSafe n) : Triple (dbF db ++ nodeF n) (addListed e db l n)
    (fun r => dbF db ++ nodeF r) (fun r => (NodeOk r ∧ AllSafe r) ∧ r.addr = n.addr ∧ r.server = n.server) := by
  fun_induction addListed e db l n with
  | case1 g c i l n ih =>
    refine Triple.bind (K := []) (nodeSetObject_triple e db n hn.1 (g, c, i)) (by fp) ?_
    intro n1 h1
    exact ((ih n1 ⟨h1.1, h1.2.2 hn.2⟩).perm (by fp)).weak fun r hr => ⟨hr.1, hr.2.1.trans h1.2.1.1, hr.2.2.trans h1.2.1.2⟩
  | case2 n l h => exact .pure (.refl _) ⟨hn, rfl, rfl⟩

theorem Listed.mid {l pre post : List HNode} {n r : HNode} (e : l = pre ++ n :: post) (h : Listed l) (hr : NodeOk r ∧ AllSafe r) :
    Listed (pre ++ r :: post) := by
  intro x hx
  simp only [List.mem_append, List.mem_cons] at hx
  rcases hx with hx | rfl | hx
  · exact h x (by rw [e]; simp [hx])
  · exact hr
  · exact h x (by rw [e]; simp [hx])

/-- A node that is known by its address only. -/
def Remote (a : String) (n : HNode) : Prop := n.server.udp = [] ∧ n.server.mcast = [] ∧ n.addr.val.map (·.2) = some a

theorem Remote.at {a b : String} {n : HNode} (h : Remote a n) : n.at b = true ↔ a = b := by
  simp [HNode.at, h.1, h.2.1, h.2.2, isBoundTo]

/-- The nodes have these addresses, each its own. -/
def Addrs (l : List HNode) (as : List String) : Prop :=
  (∀ n ∈ l, n.server.udp = [] ∧ n.server.mcast = []) ∧ l.map (fun n => n.addr.val.map (·.2)) = as.map some ∧ as.Nodup

/-- The list of nodes keeps its addresses; one more can be that of the sender. -/
def Kept (src : Option String) (l l' : List HNode) : Prop :=
  ∀ as, Addrs l as → Addrs l' as ∨ ∃ a, src = some a ∧ a ∉ as ∧ Addrs l' (as ++ [a])

theorem Kept.mid {src : Option String} {l pre post : List HNode} {n r : HNode} (e : l = pre ++ n :: post) (h1 : r.addr = n.addr) (h2 : r.server = n.server) :
    Kept src l (pre ++ r :: post) := by
  intro as ⟨a, b, c⟩
  refine Or.inl ⟨?_, ?_, c⟩
  · intro x hx
    simp only [List.mem_append, List.mem_cons] at hx
    rcases hx with hx | rfl | hx
    · exact a x (by rw [e]; simp [hx])
    · rw [h2]; exact a n (by rw [e]; simp)
    · exact a x (by rw [e]; simp [hx])
  · rw [← b, e]; simp [h1]

theorem Kept.new {a : String} {l : List HNode} {n : HNode} (hno : ∀ x ∈ l, x.at a = false) (hn : Remote a n) : Kept (some a) l (l ++ [n]) := by
  intro as ⟨h, b, c⟩
  have hna : a ∉ as := by
    intro ha
    have : some a ∈ l.map (fun n => n.addr.val.map (·.2)) := by rw [b]; exact List.mem_map_of_mem ha
    obtain ⟨x, hx, e⟩ := List.mem_map.1 this
    have := hno x hx
    simp [HNode.at, e] at this
  refine Or.inr ⟨a, rfl, hna, ?_, ?_, ?_⟩
  · intro x hx
    rcases List.mem_append.1 hx with hx | hx
    · exact h x hx
    · simp only [List.mem_singleton] at hx; subst hx; exact ⟨hn.1, hn.2.1⟩
  · simp [b, hn.2.2]
  · rw [List.nodup_append]
    refine ⟨c, by simp, ?_⟩
    intro x hx y hy e
    simp only [List.mem_singleton] at hy
    exact hna (by rw [← hy, ← e]; exact hx)

/-- What a message leaves of a controller: everything but its list of nodes is as before. -/
def Heard (m : HMsg) (c r : HCtrl) : Prop := (∃ l, r = { c with nodes := l }) ∧ Listed r.nodes ∧ Kept m.val.fromAddr c.nodes r.nodes

theorem Heard.refl {m : HMsg} {c : HCtrl} (h : Listed c.nodes) : Heard m c c := ⟨⟨_, rfl⟩, h, fun _ h => Or.inl h⟩

/-- The message lists objects. -/
def Lists (m : Message) : Prop := ∃ p x l, m.ep.find? (fun p => p.code == 0xD6) = some p ∧ p.data = x :: l

/-- A message that lists objects, from an address that no node has, adds a node. -/
def Met (c : HCtrl) (m : HMsg) (r : HCtrl) : Prop :=
  Lists m.val → ∀ a, m.val.fromAddr = some a → (∀ n ∈ c.nodes, n.at a = false) → ∃ n, r.nodes = c.nodes ++ [n] ∧ Remote a n

theorem handleSearch_triple (e : Env) (db : HDb) (id : List Byte) (c : HCtrl) (hc : Listed c.nodes) (m : HMsg) (hm : MsgOk m) :
    Triple (dbF db ++ ctrlF c ++ msgF m) (handleSearch e db id c m) (fun r => dbF db ++ ctrlF r ++ msgF m) (fun r => Heard m c r ∧ Met c m r) := by
  obtain ⟨p1, p2, p3⟩ := take_all hm.1
  have hfind : m.val.ep.find? (fun p => p.code == 0xD6) = ((slotsOf m.plain.arr).find? (fun p => p.code == 0xD6)).map HProp.val := by
    simp only [HMsg.val, List.find?_map]
    rfl
  unfold handleSearch
  rw [if_pos p1, p2]
  frame use_triple m.self
  intro _ _
  frame useOpt_triple m.plain.arr
  intro _ _
  refine Triple.bind (K := []) (touch_triple ?_) (by simp only [List.append_nil]; exact .refl _) ?_
  · refine (propSelfs _).trans ?_
    inFp
  intro _ _
  rcases h : (slotsOf m.plain.arr).find? (fun p => p.code == 0xD6) with _ | p
  · rw [h]
    refine .pure (by fp) ⟨Heard.refl hc, ?_⟩
    rintro ⟨p, x, l, hp, _⟩
    rw [hfind, h] at hp
    cases hp
  · rw [h]
    simp only
    obtain ⟨pre, post, e1⟩ := List.append_of_mem (List.mem_of_find?_eq_some h)
    refine Triple.bind (K := dbF db ++ ctrlF c ++ ([m.self] ++ ptr m.bytes ++ ptr m.fromA ++ ptr m.toA ++ ptr m.plain.arr ++ propsF pre ++ propsF post ++ secF m.set ++ secF m.get))
      (propRead_triple p) (by simp only [msgF, secF, e1]; fp) ?_
    intro d hd
    refine Triple.perm (P := dbF db ++ ctrlF c ++ msgF m) ?_ (by simp only [msgF, secF, e1]; fp)
    frame addrRead_triple m.fromA
    intro a ha
    rcases d with _ | ⟨x, l⟩
    · refine .pure (by fp) ⟨Heard.refl hc, ?_⟩
      rintro ⟨q, x, l, hp, hq⟩
      rw [hfind, h] at hp
      simp only [Option.map_some, Option.some.injEq] at hp
      subst hp
      exact absurd (hd.trans hq) (by simp)
    rcases a with _ | a
    · refine .pure (by fp) ⟨Heard.refl hc, ?_⟩
      intro _ b hb
      exact absurd (ha.trans hb) (by simp)
    · simp only
      refine Triple.bind (K := dbF db ++ msgF m) (findNode_triple c a) (by fp) ?_
      intro r hr
      rcases r with _ | ⟨pre, n, post⟩
      · simp only
        refine Triple.bind (K := ctrlF c ++ msgF m) (nodeNew_triple e db id) (by fp) ?_
        intro n hn
        refine Triple.bind (K := dbF db ++ ctrlF c ++ msgF m) (nodeSetAddr_triple n (some a)) (by fp) ?_
        intro n1 h1
        obtain ⟨s, rfl, hs⟩ := h1
        refine Triple.bind (K := ctrlF c ++ msgF m) (addListed_triple e db l { n with addr := s } ⟨hn.1, hn.2.1⟩) (by fp) ?_
        intro n2 h2
        have hrem : Remote a n2 := by
          refine ⟨?_, ?_, ?_⟩
          · rw [h2.2.2]; exact hn.2.2.1
          · rw [h2.2.2]; exact hn.2.2.2
          · rw [h2.2.1]; exact hs
        have hsrc : m.val.fromAddr = some a := ha.symm
        refine .pure (by simp only [ctrlF]; fp) ⟨⟨⟨_, rfl⟩, ?_, ?_⟩, ?_⟩
        · intro x hx
          simp only [List.mem_append, List.mem_singleton] at hx
          rcases hx with hx | rfl
          · exact hc x hx
          · exact h2.1
        · rw [hsrc]; exact Kept.new (splitBy_none hr.symm) hrem
        · intro _ b hb _
          have : a = b := by simpa using ha.trans hb
          subst this
          exact ⟨n2, rfl, hrem⟩
      · simp only at hr ⊢
        obtain ⟨e2, hat⟩ := splitBy_eq hr.symm
        have hn := hc n (by rw [e2]; simp)
        refine Triple.bind (K := [c.self] ++ [c.mutex] ++ [c.cond] ++ nodeF c.node ++ [c.nlist] ++ nodesF pre ++ nodesF post ++ msgF m)
          (addListed_triple e db l n hn) (by simp only [ctrlF, e2]; fp) ?_
        intro n2 h2
        refine .pure (by fp) ⟨⟨⟨_, rfl⟩, Listed.mid e2 hc h2.1, Kept.mid e2 h2.2.1 h2.2.2⟩, ?_⟩
        intro _ b hb hno
        have : a = b := by simpa using ha.trans hb
        subst this
        have := hno n (by rw [e2]; simp)
        rw [hat] at this
        cases this

theorem ensureProp_triple {ann : Announcer} {K : List Nat} (ha : AnnOk ann K) (o : HObj) (ho : mapsSafe o = true) (code : Byte) :
    Triple (objF o ++ K) (ensureProp ann o code) (fun r => objF r ++ K) (fun r => mapsSafe r = true) := by
  unfold ensureProp
  frame objFind_triple o code
  intro r hr
  rcases r with _ | r
  · simp only [Option.isSome_none, Bool.false_eq_true, if_false] at hr ⊢
    refine objSetProperty_triple ha o code 0 ?_
    simp only [mapsSafe, Bool.or_eq_true, beq_iff_eq, hasReadable, List.any_eq_true] at ho
    rcases ho with h | ⟨p, hp, h⟩
    · exact Or.inl h
    · exact Or.inr (Or.inr ⟨p, hp, hr p hp, h⟩)
  · simp only [Option.isSome_some, if_true]
    exact .pure (by fp) ho

theorem updateProps_triple {ann : Announcer} {K : List Nat} (ha : AnnOk ann K) (qs : List HProp) : ∀ (o : HObj), mapsSafe o = true →
    Triple (propsF qs ++ objF o ++ K) (updateProps ann qs o) (fun r => propsF qs ++ objF r ++ K) (fun r => mapsSafe r = true) := by
  induction qs with
  | nil => intro o ho; exact .pure (.refl _) ho
  | cons q qs ih =>
    intro o ho
    unfold updateProps
    frame use_triple q.self
    intro _ _
    refine Triple.bind (K := propF q ++ propsF qs) (ensureProp_triple ha o ho q.code) (by fp) ?_
    intro o1 h1
    refine Triple.bind (K := propF q ++ propsF qs ++ K) (objFind_triple o1 q.code) (by fp) ?_
    intro r hr
    rcases r with _ | ⟨pre, p, post⟩
    · simp only
      exact (ih o1 h1).conseq (K := propF q) (by fp) fun r hr => ⟨by fp, hr⟩
    · simp only at hr ⊢
      frame propRead_triple q
      intro d _
      refine Triple.perm (P := propF q ++ propsF qs ++ objF { o1 with props := pre ++ p :: post } ++ K) ?_ (by rw [← hr.1]; fp)
      frame propRead_triple p
      intro d' _
      split
      · refine (ih o1 h1).conseq (K := propF q) ?_ fun r hr => ⟨by fp, hr⟩
        refine List.Perm.trans ?_ (show (propF q ++ propsF qs ++ objF { o1 with props := pre ++ p :: post } ++ K).Perm _ by rw [← hr.1]; fp)
        fp
      · refine Triple.bind (K := propF q ++ propsF qs) (setDataAt_triple ha o1 pre p post d) (by fp) ?_
        intro p' hp'
        refine (ih _ (Grow.safe (o := o1) ⟨_, [], rfl, ?_⟩ h1)).conseq (K := propF q) (by fp) fun r hr => ⟨by fp, hr⟩
        rw [hr.1]; simp [shp, hp']

theorem updateNode_triple (e : Env) (n : HNode) (hn : NodeOk n ∧ AllSafe n) (m : HMsg) (hm : MsgOk m) :
    Triple (msgF m ++ nodeF n) (updateNode e n m) (fun r => msgF m ++ nodeF r)
      (fun r => (NodeOk r ∧ AllSafe r) ∧ r.addr = n.addr ∧ r.server = n.server) := by
  obtain ⟨p1, p2, p3⟩ := take_all hm.1
  obtain ⟨g1, g2, g3⟩ := take_all hm.2.2
  have key : ∀ l, Triple (propsF l ++ nodeF n) (inNode e n m.hd.seoj (fun ann o => updateProps ann l o)) (fun r => propsF l ++ nodeF r)
      (fun r => (NodeOk r ∧ AllSafe r) ∧ r.addr = n.addr ∧ r.server = n.server) := by
    intro l
    refine (inNode_triple e n hn.1 m.hd.seoj (I := fun o => mapsSafe o = true) (J := fun _ r => mapsSafe r = true)
      (fun ann K o ha ho => updateProps_triple ha l o ho) (fun o ho _ => hn.2 o ho)).weak ?_
    rintro r (rfl | ⟨pre, o, o', post, e1, rfl, h⟩)
    · exact ⟨hn, rfl, rfl⟩
    · exact ⟨⟨hn.1, allSafe_mid e1 hn.2 (fun _ => h)⟩, rfl, rfl⟩
  unfold updateNode
  split
  · rw [g2]
    exact (key _).conseq (K := [m.self] ++ ptr m.bytes ++ ptr m.fromA ++ ptr m.toA ++ secF m.plain ++ secF m.set ++ ptr m.get.arr) (by fp)
      fun r hr => ⟨by fp, hr⟩
  · rw [p2]
    exact (key _).conseq (K := [m.self] ++ ptr m.bytes ++ ptr m.fromA ++ ptr m.toA ++ ptr m.plain.arr ++ secF m.set ++ secF m.get) (by fp)
      fun r hr => ⟨by fp, hr⟩

theorem handleNode_triple (e : Env) (c : HCtrl) (hc : Listed c.nodes) (m : HMsg) (hm : MsgOk m) :
    Triple (ctrlF c ++ msgF m) (handleNode e c m) (fun r => ctrlF r ++ msgF m) (Heard m c) := by
  unfold handleNode touchObjs
  frame use_triple c.self
  intro _ _
  touching
  intro _ _
  split
  · frame addrRead_triple m.fromA
    intro a _
    refine Triple.bind (K := msgF m) (findNode_triple c (a.getD "")) (by fp) ?_
    intro r hr
    rcases r with _ | ⟨pre, n, post⟩
    · exact .pure (by fp) (Heard.refl hc)
    · simp only at hr ⊢
      split
      · obtain ⟨e2, _⟩ := splitBy_eq hr.symm
        refine Triple.bind (K := [c.self] ++ [c.mutex] ++ [c.cond] ++ nodeF c.node ++ [c.nlist] ++ nodesF pre ++ nodesF post)
          (updateNode_triple e n (hc n (by rw [e2]; simp)) m hm) (by simp only [ctrlF, e2]; fp) ?_
        intro n1 h1
        exact .pure (by fp) ⟨⟨_, rfl⟩, Listed.mid e2 hc h1.1, Kept.mid e2 h1.2.1 h1.2.2⟩
      · exact .pure (by fp) (Heard.refl hc)
  · exact .pure (by fp) (Heard.refl hc)

theorem isSearchResponse_ok (m : HMsg) (hm : MsgOk m) : ∃ b, m.val.isSearchResponse = .ok b := by
  unfold Message.isSearchResponse
  split
  · exact ⟨_, rfl⟩
  · split
    · exact ⟨_, rfl⟩
    · next h =>
      have h1 : m.val.opc = 1 := by simpa using h
      have h2 : m.val.ep.length = 1 := by
        have : m.val.ep.length = m.val.opc.toNat := by simp only [HMsg.val, List.length_map]; exact hm.1
        rw [this, h1]; rfl
      rcases h3 : m.val.ep with _ | ⟨p, l⟩
      · rw [h3] at h2; cases h2
      · have : m.val.getProperty 0 = .ok (some p) := by
          simp only [Message.getProperty, Message.propGet, h1, h3, List.cons_ne_nil, if_false]; rfl
        rw [this]
        exact ⟨_, rfl⟩

theorem isSearch_triple (m : HMsg) (hm : MsgOk m) : Triple (msgF m) (isSearch m) (fun _ => msgF m) (fun b => m.val.isSearchResponse = .ok b) := by
  obtain ⟨b, hb⟩ := isSearchResponse_ok m hm
  unfold isSearch
  frame use_triple m.self
  intro _ _
  frame useOpt_triple m.plain.arr
  intro _ _
  refine Triple.bind (K := []) (touch_triple ?_) (by simp only [List.append_nil]; exact .refl _) ?_
  · refine (propSelfs _).trans ?_
    inFp
  intro _ _
  exact (lift_triple hb).conseq (K := msgF m) (by fp) fun r hr => ⟨by fp, by rw [hb, hr]⟩

theorem ctrlHandle_triple (e : Env) (db : HDb) (id : List Byte) (c : HCtrl) (hc : Listed c.nodes) (m : HMsg) (hm : MsgOk m) :
    Triple (dbF db ++ ctrlF c ++ msgF m) (ctrlHandle e db id c m) (fun r => dbF db ++ ctrlF r ++ msgF m)
      (fun r => Heard m c r ∧ (m.val.isSearchResponse = .ok true → Met c m r)) := by
  unfold ctrlHandle
  frame use_triple c.self
  intro _ _
  frame isSearch_triple m hm
  intro s hs
  split
  · exact ((handleSearch_triple e db id c hc m hm).perm (by fp)).weak fun r hr => ⟨hr.1, fun _ => hr.2⟩
  next h =>
    refine (handleNode_triple e c hc m hm).conseq (K := dbF db) (by fp) fun r hr => ⟨by fp, hr, fun h' => ?_⟩
    rw [hs] at h'
    cases h'
    exact absurd rfl h

/-- The blocks of the messages of a post. -/
def postF : Option (HMsg × HMsg) → List Nat
  | none => []
  | some p => msgF p.1 ++ msgF p.2

/-- The messages of a waiting post are there. -/
def PostOk (s : HCtrl × Option (HMsg × HMsg)) : Prop :=
  match s.2 with
  | none => s.1.post = none
  | some p => MsgOk p.1 ∧ MsgOk p.2

/-- What a datagram leaves of a controller and of the messages of the post. -/
def HeardPost (src : Option String) (s r : HCtrl × Option (HMsg × HMsg)) : Prop :=
  SameNode s.1.node r.1.node ∧ (∃ l n, r.1 = { s.1 with nodes := l, node := n }) ∧ Listed r.1.nodes ∧ PostOk r ∧ r.2.isSome = s.2.isSome ∧
    Kept src s.1.nodes r.1.nodes

theorem HeardPost.refl {src : Option String} {s : HCtrl × Option (HMsg × HMsg)} (hc : Listed s.1.nodes) (hp : PostOk s) : HeardPost src s s :=
  ⟨Or.inl rfl, ⟨_, _, rfl⟩, hc, hp, rfl, fun _ h => Or.inl h⟩

/-- A datagram that lists objects, from an address that no node has, adds a node. -/
def MetIn (d : List Byte) (src : String) (c r : HCtrl) : Prop :=
  ∀ f rest, decode d = some (f, rest) → (parsed Message.new f).isSearchResponse = .ok true → Lists (parsed Message.new f) →
    (∀ n ∈ c.nodes, n.at src = false) → ∃ n, r.nodes = c.nodes ++ [n] ∧ Remote src n

theorem metIn {d : List Byte} {src : String} {f : Frame} {rest : List Byte} {m : HMsg} (hd : decode d = some (f, rest))
    (hm : m.val = { parsed Message.new f with fromAddr := some src }) {c r : HCtrl} (h : m.val.isSearchResponse = .ok true → Met c m r) :
    MetIn d src c r := by
  intro f' rest' h' hs hl hno
  rw [hd] at h'
  cases h'
  refine h ?_ ?_ src ?_ hno
  · rw [hm]; exact hs
  · rw [hm]; exact hl
  · rw [hm]

theorem ctrlObserve_triple (e : Env) (db : HDb) (id : List Byte) (s : HCtrl × Option (HMsg × HMsg)) (hn : NodeOk s.1.node) (hc : Listed s.1.nodes)
    (hp : PostOk s) (m : HMsg) (hm : MsgOk m) :
    Triple (dbF db ++ ctrlF s.1 ++ postF s.2 ++ msgF m) (ctrlObserve e db id s m) (fun r => dbF db ++ ctrlF r.1 ++ postF r.2 ++ msgF m)
      (fun r => HeardPost m.val.fromAddr s r ∧ (m.val.isSearchResponse = .ok true → Met s.1 m r.1)) := by
  obtain ⟨c, p⟩ := s
  unfold ctrlObserve
  simp only at *
  frame nodeHandle_triple e c.node hn m hm
  intro n1 h1
  rcases p with _ | ⟨req, res⟩
  · simp only [PostOk] at hp
    simp only [hp, postF]
    refine Triple.bind (K := []) (ctrlHandle_triple e db id { c with node := n1, post := none } hc m hm) (by fp) ?_
    intro c1 hc1
    obtain ⟨⟨⟨l, rfl⟩, hl, hk⟩, hmet⟩ := hc1
    refine .pure (by fp) ⟨⟨h1, ⟨l, n1, ?_⟩, hl, rfl, rfl, hk⟩, hmet⟩
    simp only [hp]
  · simp only [PostOk] at hp
    simp only [postF]
    touching
    intro _ _
    split
    · refine Triple.bind (K := dbF db ++ ctrlF { c with node := n1 } ++ msgF req) (msgSet_triple res m hp.2 hm) (by fp) ?_
      intro res1 hr
      frame use_triple c.cond
      intro _ _
      refine Triple.bind (K := msgF req ++ msgF res1) (ctrlHandle_triple e db id { c with node := n1 } hc m hm) (by fp) ?_
      intro c1 hc1
      obtain ⟨⟨⟨l, rfl⟩, hl, hk⟩, hmet⟩ := hc1
      exact .pure (by simp only [postF]; fp) ⟨⟨h1, ⟨l, n1, rfl⟩, hl, ⟨hp.1, hr.1⟩, rfl, hk⟩, hmet⟩
    · refine Triple.bind (K := msgF req ++ msgF res) (ctrlHandle_triple e db id { c with node := n1 } hc m hm) (by fp) ?_
      intro c1 hc1
      obtain ⟨⟨⟨l, rfl⟩, hl, hk⟩, hmet⟩ := hc1
      exact .pure (by simp only [postF]; fp) ⟨⟨h1, ⟨l, n1, rfl⟩, hl, hp, rfl, hk⟩, hmet⟩

theorem ctrlReceive_triple (e : Env) (db : HDb) (id : List Byte) (d : List Byte) (src : String) (s : HCtrl × Option (HMsg × HMsg))
    (hn : NodeOk s.1.node) (hc : Listed s.1.nodes) (hp : PostOk s) :
    Triple (dbF db ++ ctrlF s.1 ++ postF s.2) (ctrlReceive e db id d src s) (fun r => dbF db ++ ctrlF r.1 ++ postF r.2)
      (fun r => HeardPost (some src) s r ∧ MetIn d src s.1 r.1) := by
  unfold ctrlReceive
  refine receive_triple e d src s (.refl _) (fun h => ⟨.refl hc hp, ?_⟩) fun m f rest hm hd hv =>
    (ctrlObserve_triple e db id s hn hc hp m hm).weak fun r hr => ⟨by have := hr.1; rw [hv] at this; exact this, metIn hd hv hr.2⟩
  intro f rest h'
  rw [h] at h'
  cases h'

/-- What datagrams leave of a controller and of the messages of the post. -/
def WaitPost (s r : HCtrl × Option (HMsg × HMsg)) : Prop :=
  NodeOk r.1.node ∧ (AllSafe s.1.node → AllSafe r.1.node) ∧ (∃ l n, r.1 = { s.1 with nodes := l, node := n }) ∧ Listed r.1.nodes ∧ PostOk r ∧
    r.2.isSome = s.2.isSome

theorem SameNode.safe {n r : HNode} (h : SameNode n r) (hn : AllSafe n) : AllSafe r := by
  rcases h with rfl | ⟨pre, o, o', post, e1, rfl, h⟩
  · exact hn
  · exact allSafe_mid e1 hn (fun ho => h.grow.safe ho)

theorem ctrlWait_triple (e : Env) (db : HDb) (id : List Byte) (l : List (List Byte × String)) : ∀ (s : HCtrl × Option (HMsg × HMsg)),
    NodeOk s.1.node → Listed s.1.nodes → PostOk s →
    Triple (dbF db ++ ctrlF s.1 ++ postF s.2) (ctrlWait e db id l s) (fun r => dbF db ++ ctrlF r.1 ++ postF r.2) (WaitPost s) := by
  induction l with
  | nil => intro s hn hc hp; exact .pure (.refl _) ⟨hn, fun h => h, ⟨_, _, rfl⟩, hc, hp, rfl⟩
  | cons x l ih =>
    intro s hn hc hp
    unfold ctrlWait
    refine Triple.bind (K := []) (ctrlReceive_triple e db id x.1 x.2 s hn hc hp) (by fp) ?_
    intro s1 h1
    obtain ⟨⟨a, ⟨k, n, b⟩, c, d, f, -⟩, -⟩ := h1
    refine ((ih s1 (a.ok hn) c d).perm (by fp)).weak fun r hr => ?_
    obtain ⟨a', a'', ⟨k', n', b'⟩, c', d', f'⟩ := hr
    exact ⟨a', fun h => a'' (a.safe h), ⟨k', n', by rw [b', b]⟩, c', d', f'.trans f⟩

theorem sendMessage_triple (e : Env) (n : HNode) (hn : NodeOk n) (dst : HStr) (m : HMsg) (hm : MsgOk m) :
    Triple (nodeF n ++ strF dst ++ msgF m) (sendMessage e n dst m) (fun r => nodeF n ++ strF dst ++ msgF r.1) (fun r => MsgOk r.1) := by
  unfold sendMessage touchObjs
  frame use_triple m.self
  intro _ _
  touching
  intro _ _
  split
  · frame strRead_triple dst
    intro a _
    frame msgGetBytes_triple m hm
    intro m1 h1
    obtain ⟨b, rfl⟩ := h1
    split
    · exact .pure (by fp) hm
    · frame postResponse_triple e n.server hn
      intro _ _
      exact .pure (by fp) hm
  · exact .pure (by fp) hm

theorem ctrlPost_triple (e : Env) (db : HDb) (id : List Byte) (c : HCtrl) (hn : NodeOk c.node) (hc : Listed c.nodes) (dst : String) (req res : HMsg)
    (hq : MsgOk req) (hr : MsgOk res) (l : List (List Byte × String)) :
    Triple (dbF db ++ ctrlF c ++ msgF req ++ msgF res) (ctrlPost e db id c dst req res l) (fun r => dbF db ++ ctrlF r.1 ++ msgF r.2.1 ++ msgF r.2.2)
      (fun r => NodeOk r.1.node ∧ (AllSafe c.node → AllSafe r.1.node) ∧ Listed r.1.nodes ∧ MsgOk r.2.1 ∧ MsgOk r.2.2) := by
  unfold ctrlPost
  touching
  intro _ _
  rcases h : splitBy (fun n => n.at dst) c.nodes with _ | ⟨pre, n, post⟩
  · rw [h]
    exact .pure (by fp) ⟨hn, fun h => h, hc, hq, hr⟩
  · rw [h]
    obtain ⟨e1, _⟩ := splitBy_eq h
    simp only
    have e2 : ctrlF c = ctrlF { c with nodes := pre ++ n :: post } := by rw [← e1]
    rw [e2]
    frame use_triple n.self
    intro _ _
    frame sendMessage_triple e c.node hn n.addr req hq
    intro r h1
    refine Triple.perm (P := dbF db ++ ctrlF { c with nodes := pre ++ n :: post } ++ msgF r.1 ++ msgF res) ?_ (by fp)
    rw [← e2]
    split
    · refine Triple.bind (K := []) (ctrlWait_triple e db id l ({ c with post := some (req.self, res.self) }, some (r.1, res)) hn hc ⟨h1, hr⟩)
        (by simp only [postF]; fp) ?_
      rintro ⟨c1, p⟩ ⟨a, a', _, b, d, f⟩
      rcases p with _ | ⟨q, s⟩
      · cases f
      · simp only [PostOk] at d
        exact .pure (by simp only [postF]; fp) ⟨a, a', b, d.1, d.2⟩
    · exact .pure (by fp) ⟨hn, fun h => h, hc, h1, hr⟩

end Uecho.Lemmas.Blocks
