import Verif.Lemmas.HeapObj
import Verif.Lemmas.HeapServer
/-! # Ownership of blocks: nodes -/
namespace Uecho.Lemmas.Blocks
open Uecho Uecho.Spec Uecho.Heap

theorem msgNew_cnt : Triple [] Heap.msgNew msgF (fun m => MsgOk m ∧ m.plain.cnt = 0 ∧ m.set.cnt = 0 ∧ m.get.cnt = 0) := by
  refine msgNew_triple.weak fun m h => ⟨h.1, ?_, ?_, ?_⟩
  · have : m.val.opc = 0 := by rw [h.2]; rfl
    exact this
  · have : m.val.opcSet = 0 := by rw [h.2]; rfl
    exact this
  · have : m.val.opcGet = 0 := by rw [h.2]; rfl
    exact this

/-- Adding a property to a message: the count of the array grows by one, those of the others stay. -/
def AddOk (add : HMsg → HProp → H HMsg) (sec : MsgSec) : Prop :=
  ∀ m p, MsgOk m → (HMsg.sec m sec).cnt.toNat < 255 → Triple (msgF m ++ propF p) (add m p) msgF
    (fun r => MsgOk r ∧ (HMsg.sec r sec).cnt.toNat = (HMsg.sec m sec).cnt.toNat + 1 ∧ ∀ s, s ≠ sec → (HMsg.sec r s).cnt = (HMsg.sec m s).cnt)

theorem propAdd_ok {opc : Byte} {ep : List Property} {p : Property} {r : Byte × List Property} (h : Message.propAdd opc ep p = .ok r)
    (hc : opc.toNat < 255) : r.1.toNat = opc.toNat + 1 := by
  simp only [Message.propAdd] at h
  split at h
  · cases h
  · split at h
    · cases h
      simp only [BitVec.toNat_add]
      rw [Nat.mod_eq_of_lt (by show opc.toNat + 1 < 256; omega)]
      rfl
    · cases h

theorem msgAdd_ok : AddOk msgAdd .plain := by
  intro m p hm hc
  refine (msgAdd_triple m hm hc p).weak fun r hr => ?_
  have := hr.2
  simp only [Message.addProperty, Res.bind_eq_ok] at this
  obtain ⟨⟨a, b⟩, h1, h2⟩ := this
  simp only [Res.pure_eq, Res.ok.injEq] at h2
  refine ⟨hr.1, ?_, ?_⟩
  · have e := propAdd_ok h1 hc
    show r.val.opc.toNat = _
    rw [← h2]
    exact e
  · intro s hs
    cases s with
    | plain => exact absurd rfl hs
    | set => show r.val.opcSet = m.val.opcSet; rw [← h2]
    | get => show r.val.opcGet = m.val.opcGet; rw [← h2]

theorem msgAddSet_ok : AddOk msgAddSet .set := by
  intro m p hm hc
  refine (msgAddSet_triple m hm hc p).weak fun r hr => ?_
  have := hr.2
  simp only [Message.addPropertySet, Res.bind_eq_ok] at this
  obtain ⟨⟨a, b⟩, h1, h2⟩ := this
  simp only [Res.pure_eq, Res.ok.injEq] at h2
  refine ⟨hr.1, ?_, ?_⟩
  · have e := propAdd_ok h1 hc
    show r.val.opcSet.toNat = _
    rw [← h2]
    exact e
  · intro s hs
    cases s with
    | plain => show r.val.opc = m.val.opc; rw [← h2]
    | set => exact absurd rfl hs
    | get => show r.val.opcGet = m.val.opcGet; rw [← h2]

theorem msgAddGet_ok : AddOk msgAddGet .get := by
  intro m p hm hc
  refine (msgAddGet_triple m hm hc p).weak fun r hr => ?_
  have := hr.2
  simp only [Message.addPropertyGet, Res.bind_eq_ok] at this
  obtain ⟨⟨a, b⟩, h1, h2⟩ := this
  simp only [Res.pure_eq, Res.ok.injEq] at h2
  refine ⟨hr.1, ?_, ?_⟩
  · have e := propAdd_ok h1 hc
    show r.val.opcGet.toNat = _
    rw [← h2]
    exact e
  · intro s hs
    cases s with
    | plain => show r.val.opc = m.val.opc; rw [← h2]
    | set => show r.val.opcSet = m.val.opcSet; rw [← h2]
    | get => exact absurd rfl hs

/-! ### Announcements -/

theorem announceMessage_triple (e : Env) (n : HNode) (hn : ServerOk n.server) (m : HMsg) (hm : MsgOk m) :
    Triple (nodeF n ++ msgF m) (announceMessage e n m) (fun r => nodeF n ++ msgF r.1) (fun r => ∃ b, r.1 = { m with bytes := b }) := by
  unfold announceMessage touchObjs
  frame use_triple m.self
  intro _ _
  touching
  intro _ _
  split
  · frame msgGetBytes_triple m hm
    intro m1 h1
    obtain ⟨a, rfl⟩ := h1
    frame postAnnounce_triple e n.server hn
    intro ok _
    exact .pure (by fp) ⟨_, rfl⟩
  · exact .pure (by fp) ⟨m.bytes, rfl⟩

theorem announceProperty_triple (e : Env) (n : HNode) (hn : ServerOk n.server) (o : HObj) (ho : o ∈ n.objs) (p : HProp) (hp : p ∈ o.props) :
    Triple (nodeF n) (announceProperty e n o p) (fun _ => nodeF n) (fun _ => True) := by
  unfold announceProperty
  obtain ⟨pre, post, e1⟩ := List.append_of_mem ho
  obtain ⟨pre', post', e2⟩ := List.append_of_mem hp
  have e3 : nodeF n = nodeF { n with objs := pre ++ { o with props := pre' ++ p :: post' } :: post } := by
    rw [← e2, ← e1]
  rw [e3]
  frame msgNew_cnt
  intro m hm
  frame use_triple o.self
  intro _ _
  frame propCopy_triple p
  intro c _
  have hc : m.plain.cnt.toNat < 255 := by rw [hm.2.1]; decide
  frame msgAdd_triple m hm.1 hc c
  intro m1 h1
  refine Triple.perm (P := nodeF n ++ msgF m1) ?_ (by rw [e3]; fp)
  frame announceMessage_triple e n hn m1 h1.1
  intro r hr
  obtain ⟨b, hr⟩ := hr
  have hr' : MsgOk r.1 := by rw [hr]; exact h1.1
  frame msgDelete_triple r.1 hr'
  intro _ _
  exact .pure (by rw [← e3]; fp) trivial

/-- The blocks of a node without those of one object. -/
def restF (n : HNode) (pre post : List HObj) : List Nat :=
  [n.self] ++ [n.mutex] ++ [n.clist] ++ n.classes.map (·.1) ++ [n.olist] ++ objsF pre ++ objsF post ++ serverF n.server ++ strF n.addr

theorem annIn_ok (e : Env) (n : HNode) (hn : ServerOk n.server) (pre post : List HObj) : AnnOk (annIn e n pre post) (restF n pre post) := by
  intro o p hp
  unfold annIn
  refine Triple.bind (K := []) (announceProperty_triple e { n with objs := pre ++ o :: post } hn o (by simp) p hp) (by simp only [restF]; fp) ?_
  intro _ _
  exact .pure (by simp only [restF]; fp) trivial

/-! ### The functions of node.c -/

theorem reallocs_triple (k : Nat) : ∀ t, Triple [t] (reallocs k t) (fun r => [r]) (fun _ => True) := by
  induction k with
  | zero => intro t; exact .pure (.refl _) trivial
  | succ k ih =>
    intro t
    unfold reallocs
    frame realloc_triple (some (t, ()))
    intro a _
    frame use_triple a
    intro _ _
    exact (ih a).perm (by fp)

theorem updateInstances_triple (e : Env) (n : HNode) (hn : ServerOk n.server) (pre : List HObj) (o : HObj) (post : List HObj) :
    Triple (objF o ++ restF n pre post) (updateInstances e n pre o post) (fun r => objF r ++ restF n pre post) (Grow o) := by
  unfold updateInstances
  have ha := annIn_ok e n hn pre post
  unfold restF at ha ⊢
  frame malloc_triple
  intro t _
  touching
  intro _ _
  frame reallocs_triple (n.classes.filter fun c => c.2.1 != 0x0E).length t
  intro t1 _
  frame objSetInteger_triple ha o 0xD4 (BitVec.ofNat 32 n.classes.length) 2 (by decide)
  intro o1 h1
  frame use_triple t1
  intro _ _
  frame objSetData_triple ha o1 0xD7 (0 :: classBytes n.classes)
  intro o2 h2
  frame free_triple t1
  intro _ _
  frame malloc_triple
  intro t2 _
  touching
  intro _ _
  frame reallocs_triple ((pre ++ o2 :: post).filter fun x => x.grp != 0x0E).length t2
  intro t3 _
  frame objSetInteger_triple ha o2 0xD3 (BitVec.ofNat 32 (pre ++ post).length) 3 (by decide)
  intro o3 h3
  frame use_triple t3
  intro _ _
  frame objSetData_triple ha o3 0xD6 (0 :: instanceBytes (pre ++ post))
  intro o4 h4
  frame objSetData_triple ha o4 0xD5 (0 :: instanceBytes (pre ++ post))
  intro o5 h5
  frame free_triple t3
  intro _ _
  exact .pure (by fp) ((((h1.trans h2).trans h3).trans h4).trans h5)

theorem classSet_triple (n : HNode) (g c : Byte) : Triple (nodeF n) (classSet n g c) nodeF (fun r => ∃ l, r = { n with classes := l }) := by
  unfold classSet
  touching
  intro _ _
  split
  · exact .pure (by fp) ⟨n.classes, rfl⟩
  · frame malloc_triple
    intro a _
    exact .pure (by fp) ⟨_, rfl⟩

/-- The maps of all the objects of a node can be rebuilt. -/
def AllSafe (n : HNode) : Prop := ∀ o ∈ n.objs, mapsSafe o = true

theorem allSafe_mid {n : HNode} {pre post : List HObj} {o r : HObj} (e : n.objs = pre ++ o :: post) (h : AllSafe n)
    (hr : mapsSafe o = true → mapsSafe r = true) : AllSafe { n with objs := pre ++ r :: post } := by
  intro x hx
  have ho := h o (by rw [e]; simp)
  simp only [List.mem_append, List.mem_cons] at hx
  rcases hx with hx | rfl | hx
  · exact h x (by rw [e]; simp [hx])
  · exact hr ho
  · exact h x (by rw [e]; simp [hx])

theorem updateProfile_triple (e : Env) (n : HNode) (hn : ServerOk n.server) : Triple (nodeF n) (updateProfile e n) nodeF
    (fun r => (∃ l, r = { n with objs := l }) ∧ (AllSafe n → AllSafe r)) := by
  unfold updateProfile touchObjs
  touching
  intro _ _
  rcases h : splitBy (fun o => o.is profileCode) n.objs with _ | ⟨pre, o, post⟩
  · rw [h]
    exact .pure (by fp) ⟨⟨n.objs, rfl⟩, id⟩
  · obtain ⟨e1, _⟩ := splitBy_eq h
    rw [h]
    refine Triple.bind (K := []) (updateInstances_triple e n hn pre o post) ?_ ?_
    · simp only [nodeF, e1, restF]; fp
    intro o1 h1
    refine .pure (by simp only [restF]; fp) ⟨⟨_, rfl⟩, fun hs => allSafe_mid e1 hs h1.safe⟩

/-- The blocks of a node, and of an object that was not taken. -/
def addedF (r : HNode × Option HObj) : List Nat := nodeF r.1 ++ objOptF r.2

theorem nodeAdd_triple (e : Env) (n : HNode) (hn : ServerOk n.server) (o : HObj) : Triple (nodeF n ++ objF o) (nodeAdd e n o) addedF
    (fun r => r.1.server = n.server ∧ r.1.addr = n.addr ∧ (AllSafe n → mapsSafe o = true → AllSafe r.1) ∧
      ((∀ x ∈ n.objs, x.is (o.grp, o.cls, o.ins) = false) → r.2 = none)) := by
  unfold nodeAdd touchObjs
  frame use_triple o.self
  intro _ _
  touching
  intro _ _
  split
  next h =>
    refine .pure (by simp only [addedF, objOptF]; fp) ⟨rfl, rfl, fun h _ => h, fun c => ?_⟩
    obtain ⟨x, hx, hx'⟩ := List.any_eq_true.1 h
    rw [c x hx] at hx'
    cases hx'
  · frame classSet_triple { n with objs := n.objs ++ [o] } o.grp o.cls
    intro n1 h1
    obtain ⟨l, rfl⟩ := h1
    frame updateProfile_triple e { n with objs := n.objs ++ [o], classes := l } hn
    intro n2 h2
    obtain ⟨⟨l2, rfl⟩, h2⟩ := h2
    refine .pure (by simp only [addedF, objOptF]; fp) ⟨rfl, rfl, fun ha ho => h2 ?_, fun _ => rfl⟩
    intro x hx
    rcases List.mem_append.1 hx with hx | hx
    · exact ha x hx
    · simp only [List.mem_singleton] at hx; subst hx; exact ho

/-- A node with servers as they should be, and objects whose maps can be rebuilt. -/
def NodeOk (n : HNode) : Prop := ServerOk n.server

theorem nodeNew_triple (e : Env) (db : HDb) (id : List Byte) : Triple (dbF db) (nodeNew e db id) (fun r => nodeF r ++ dbF db)
    (fun r => NodeOk r ∧ AllSafe r ∧ r.server.udp = [] ∧ r.server.mcast = []) := by
  unfold nodeNew
  frame malloc_triple
  intro a _
  frame malloc_triple
  intro m _
  frame malloc_triple
  intro c _
  frame malloc_triple
  intro l _
  frame serverNew_triple
  intro s hs
  frame serverAddObserver_triple s
  intro s1 h1
  have ok : ServerOk s1 := by simp [ServerOk, h1.1, h1.2, hs.1, hs.2]
  frame strNew_triple
  intro t _
  frame nodeProfileNew_triple db id
  intro o ho
  frame nodeAdd_triple e ⟨a, m, c, [], l, [], s1, t⟩ ok o
  intro r hr
  have h2 : r.2 = none := hr.2.2.2 (by simp)
  refine .pure (by simp only [addedF, h2, objOptF]; fp) ⟨?_, ?_, ?_⟩
  · show ServerOk r.1.server
    rw [hr.1]; exact ok
  · exact hr.2.2.1 (by simp [AllSafe]) (readable_safe ho.1)
  · rw [hr.1]; simp [h1.1, h1.2, hs.1, hs.2]

theorem objsClear_triple (hdr : Nat) (l : List HObj) : Triple ([hdr] ++ objsF l) (objsClear hdr l) (fun _ => [hdr]) (fun _ => True) := by
  induction l with
  | nil =>
    unfold objsClear
    refine .last ?_
    frame use_triple hdr
    intro _ _
    exact .pure (by fp) trivial
  | cons o l ih =>
    unfold objsClear
    touching
    intro _ _
    frame objDelete_triple o
    intro _ _
    exact ih.perm (by fp)

theorem nodeDrop_triple (n : HNode) : Triple (nodeF n) (nodeDrop n) (fun _ => [n.self] ++ serverF n.server ++ strF n.addr) (fun _ => True) := by
  unfold nodeDrop
  frame use_triple n.self
  intro _ _
  frame free_triple n.mutex
  intro _ _
  touching
  intro _ _
  frame freeAll_triple (n.classes.map (·.1))
  intro _ _
  frame free_triple n.clist
  intro _ _
  frame objsClear_triple n.olist n.objs
  intro _ _
  refine .last ?_
  frame free_triple n.olist
  intro _ _
  exact .pure (by fp) trivial

theorem nodeDelete_triple (n : HNode) : Triple (nodeF n) (nodeDelete n) (fun _ => []) (fun _ => True) := by
  unfold nodeDelete
  frame nodeDrop_triple n
  intro _ _
  frame serverDelete_triple n.server
  intro _ _
  frame strDelete_triple n.addr
  intro _ _
  exact (free_triple n.self).perm (by fp)

theorem nodeClear_triple (n : HNode) : Triple (nodeF n) (nodeClear n) nodeF (fun r => r.server = n.server) := by
  unfold nodeClear
  touching
  intro _ _
  frame freeAll_triple (n.classes.map (·.1))
  intro _ _
  frame objsClear_triple n.olist n.objs
  intro _ _
  exact .pure (by fp) rfl

theorem nodeSetAddr_triple (n : HNode) (v : Option String) : Triple (nodeF n) (nodeSetAddr n v) nodeF
    (fun r => ∃ a, r = { n with addr := a } ∧ a.val.map (·.2) = match v with | none => n.addr.val.map (·.2) | some t => some t) := by
  unfold nodeSetAddr
  frame use_triple n.self
  intro _ _
  frame strSetValue_triple n.addr v
  intro t ht
  exact .pure (by fp) ⟨t, rfl, ht⟩

theorem nodeSetObject_triple (e : Env) (db : HDb) (n : HNode) (hn : NodeOk n) (code : Byte × Byte × Byte) :
    Triple (dbF db ++ nodeF n) (nodeSetObject e db n code) (fun r => dbF db ++ nodeF r)
      (fun r => NodeOk r ∧ (r.addr = n.addr ∧ r.server = n.server) ∧ (AllSafe n → AllSafe r)) := by
  unfold nodeSetObject touchObjs
  touching
  intro _ _
  split
  · exact .pure (by fp) ⟨hn, ⟨rfl, rfl⟩, id⟩
  next h =>
    frame objNew_triple
    intro o ho
    have hs : mapsSafe o = true := by simp [mapsSafe, ho.2.2.1]
    frame objSetCode_triple (silent_ok []) db o code.1 code.2.1 code.2.2 hs
    intro o1 h1
    frame nodeAdd_triple e n hn o1
    intro r hr
    have h2 : r.2 = none := hr.2.2.2 (by
      intro x hx
      rw [h1.2.1, h1.2.2.1, h1.2.2.2]
      by_cases c : x.is code = true
      · exact absurd (List.any_eq_true.2 ⟨x, hx, c⟩) h
      · simpa using c)
    refine .pure (by simp only [addedF, h2, objOptF]; fp) ⟨?_, ⟨hr.2.1, hr.1⟩, fun ha => hr.2.2.1 ha (readable_safe h1.1)⟩
    show ServerOk r.1.server
    rw [hr.1]; exact hn

theorem nodeAnnounce_triple (e : Env) (n : HNode) (hn : NodeOk n) : Triple (nodeF n) (nodeAnnounce e n) (fun _ => nodeF n) (fun _ => True) := by
  unfold nodeAnnounce touchObjs
  touching
  intro _ _
  rcases h : n.objs.find? (fun o => o.is profileCode) with _ | o
  · rw [h]
    exact .pure (by fp) trivial
  · rw [h]
    have ho := List.mem_of_find?_eq_some h
    obtain ⟨pre, post, e1⟩ := List.append_of_mem ho
    have e2 : nodeF n = nodeF { n with objs := pre ++ o :: post } := by rw [← e1]
    refine Triple.bind (K := []) (touch_triple (P := nodeF n) ?_) (by fp) ?_
    · rw [e2]; inFp
    intro _ _
    rcases h' : o.props.find? (fun p => p.code == 0xD5) with _ | p
    · rw [h']
      exact .pure (by fp) trivial
    · rw [h']
      exact (announceProperty_triple e n hn o ho p (List.mem_of_find?_eq_some h')).perm (by fp)

theorem nodeStart_triple (e : Env) (n : HNode) : Triple (nodeF n) (nodeStart e n) nodeF (fun r => NodeOk r ∧ r.objs = n.objs) := by
  unfold nodeStart
  frame use_triple n.self
  intro _ _
  frame serverStart_triple e n.server
  intro s hs
  frame nodeAnnounce_triple e { n with server := s } hs
  intro _ _
  exact .pure (by fp) ⟨hs, rfl⟩

theorem nodeStop_triple (n : HNode) : Triple (nodeF n) (nodeStop n) nodeF (fun r => NodeOk r ∧ r.objs = n.objs) := by
  unfold nodeStop
  frame use_triple n.self
  intro _ _
  frame serverStop_triple n.server
  intro s hs
  exact .pure (by fp) ⟨by rw [hs]; simp [NodeOk, ServerOk], rfl⟩

/-- A function on one object of a node, with the announcer of the node. -/
theorem inNode_triple (e : Env) (n : HNode) (hn : NodeOk n) (code : Byte × Byte × Byte) {f : Announcer → HObj → H HObj} {I : HObj → Prop}
    {J : HObj → HObj → Prop} {R : List Nat}
    (t : ∀ ann K o, AnnOk ann K → I o → Triple (R ++ objF o ++ K) (f ann o) (fun r => R ++ objF r ++ K) (J o))
    (hI : ∀ o ∈ n.objs, o.is code = true → I o) :
    Triple (R ++ nodeF n) (inNode e n code f) (fun r => R ++ nodeF r) (fun r => r = n ∨ ∃ pre o o' post, n.objs = pre ++ o :: post ∧
      r = { n with objs := pre ++ o' :: post } ∧ J o o') := by
  unfold inNode touchObjs
  touching
  intro _ _
  rcases h : splitBy (fun o => o.is code) n.objs with _ | ⟨pre, o, post⟩
  · rw [h]
    exact .pure (by fp) (Or.inl rfl)
  · obtain ⟨e1, ho⟩ := splitBy_eq h
    rw [h]
    refine Triple.bind (K := []) (t _ _ o (annIn_ok e n hn pre post) (hI o (by rw [e1]; simp) ho)) ?_ ?_
    · simp only [nodeF, e1, restF]; fp
    intro o1 h1
    exact .pure (by simp only [restF]; fp) (Or.inr ⟨pre, o, o1, post, e1, rfl, h1⟩)

end Uecho.Lemmas.Blocks
