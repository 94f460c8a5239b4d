import Verif.Lemmas.CtrlRecv
import Verif.Props.Node
/-!
# Properties C51–C55, C68–C72: controllers

Specification: `Spec.ControllerApi`.
-/
set_option linter.unusedSimpArgs false
namespace Uecho.Props
open Uecho Uecho.Spec Uecho.Lemmas

/-! ## A controller used in the examples

Its local node is `yNode` (objects 0x0EF001 and 0x013001); it has learnt of the node 10.0.0.2 with the device
0x029001. -/

def kOrc : Oracle := ⟨fun _ => 0, fun _ => 0, 0, fun _ _ => 0⟩
def kHeap : Heap := fun _ => none
def kNew : Ctrl := (Ctrl.new yNode none).setNodeListener true
/-- the instance list of 10.0.0.2, with one stray byte at the end -/
def kList : Frame :=
  ⟨(0, 1), (0x0E, 0xF0, 0x01), (0x0E, 0xF0, 0x01), 0x72, .plain [(0xD6, [1, 0x02, 0x90, 0x01, 0xFF])]⟩
def kGet : Res (Ctrl × Heap × List CEvent) → Ctrl
  | .ok (c, _) => c
  | .ub => kNew
def kRecv (c : Ctrl) (a : String) (f : Frame) : Res (Ctrl × Heap × List CEvent) :=
  c.receive .little [] kOrc kHeap none (some a) (encode f)
def kCtrl : Ctrl := kGet (kRecv kNew "10.0.0.2" kList)

theorem kNew_reach : CtrlReach .little [] kNew := .setNodeListener _ (.new none yNode_reach)
theorem kCtrl_recv : kRecv kNew "10.0.0.2" kList = .ok (kCtrl, kHeap, [.status (some "10.0.0.2") .added]) := by
  with_unfolding_all rfl
theorem kCtrl_reach : CtrlReach .little [] kCtrl := .receive kOrc none "10.0.0.2" _ kNew_reach kCtrl_recv
theorem kList_wf : kList.WF := by decide
theorem kList_search : SearchAnswer kList [1, 0x02, 0x90, 0x01, 0xFF] := ⟨by decide, rfl⟩

/-- `getnodebyaddress` finds exactly the node with this address -/
theorem getNode_iff {c : Ctrl} (h : CInv c) (a : String) (n : Node) :
    c.getNode (some a) = some n ↔ n ∈ c.nodes ∧ n.address = some a := by
  rw [getNode_eq h]
  constructor
  · intro hf
    exact ⟨List.mem_of_find?_eq_some hf, by simpa using List.find?_some hf⟩
  · rintro ⟨hm, ha⟩
    have hnd := h.nodup
    clear h
    revert hm hnd
    generalize c.nodes = l
    induction l with
    | nil => simp
    | cons m ms ih =>
      intro hm hnd
      simp only [List.map_cons, List.nodup_cons, List.mem_map, not_exists, not_and] at hnd
      rw [List.find?_cons]
      rcases List.mem_cons.1 hm with rfl | hm
      · simp [ha]
      · have : m.address ≠ some a := fun hma => hnd.1 n hm (by rw [ha, hma])
        have hb : (m.address == some a) = false := by simpa using this
        rw [hb]; exact ih hm hnd.2

theorem getNode_other {c : Ctrl} (h : CInv c) {i : Nat} {n n' n1 : Node} {a b : String} (hi : c.nodes[i]? = some n)
    (ha : n.address = some a) (hd : DInv n') (ha' : n'.address = some a) (hb : b ≠ a) :
    ({ c with node := n1, nodes := c.nodes.set i n' } : Ctrl).getNode (some b) = c.getNode (some b) := by
  have h1 : CInv { c with node := n1, nodes := c.nodes.set i n' } := by
    have := h.set hi hd (by rw [ha', ha]); exact ⟨this.node, this.addr, this.nodup⟩
  apply Option.ext
  intro m
  rw [getNode_iff h1, getNode_iff h]
  simp only
  constructor
  · rintro ⟨hm, hmb⟩
    rcases List.mem_or_eq_of_mem_set hm with hm | rfl
    · exact ⟨hm, hmb⟩
    · rw [ha'] at hmb; exact absurd (Option.some.inj hmb).symm hb
  · rintro ⟨hm, hmb⟩
    refine ⟨?_, hmb⟩
    obtain ⟨j, hj, rfl⟩ := List.getElem_of_mem hm
    have hne : i ≠ j := by
      intro e; subst e
      rw [List.getElem?_eq_getElem hj] at hi
      rw [Option.some.inj hi, ha] at hmb
      exact hb (Option.some.inj hmb).symm
    apply List.mem_of_getElem? (i := j)
    rw [List.getElem?_set_ne hne]
    exact List.getElem?_eq_getElem hj

theorem getNode_set {c : Ctrl} (h : CInv c) {i : Nat} {n n' n1 : Node} {a : String} (hi : c.nodes[i]? = some n)
    (ha : n.address = some a) (hd : DInv n') (ha' : n'.address = some a) :
    ({ c with node := n1, nodes := c.nodes.set i n' } : Ctrl).getNode (some a) = some n' := by
  have h1 : CInv { c with node := n1, nodes := c.nodes.set i n' } := by
    have := h.set hi hd (by rw [ha', ha]); exact ⟨this.node, this.addr, this.nodup⟩
  exact (getNode_iff h1 a n').2 ⟨List.mem_set (List.getElem?_eq_some_iff.1 hi).1 n', ha'⟩

theorem getNode_append {c : Ctrl} (h : CInv c) {n' n1 : Node} {a : String} (hn : ∀ n ∈ c.nodes, n.address ≠ some a)
    (hd : DInv n') (ha' : n'.address = some a) :
    ({ c with node := n1, nodes := c.nodes ++ [n'] } : Ctrl).getNode (some a) = some n' ∧
    ∀ b, b ≠ a → ({ c with node := n1, nodes := c.nodes ++ [n'] } : Ctrl).getNode (some b) = c.getNode (some b) := by
  have h1 : CInv { c with node := n1, nodes := c.nodes ++ [n'] } := by
    have := h.append hd ha' hn; exact ⟨this.node, this.addr, this.nodup⟩
  refine ⟨(getNode_iff h1 a n').2 ⟨by simp, ha'⟩, ?_⟩
  intro b hb
  apply Option.ext
  intro m
  rw [getNode_iff h1, getNode_iff h]
  simp only [List.mem_append, List.mem_singleton]
  constructor
  · rintro ⟨hm | rfl, hmb⟩
    · exact ⟨hm, hmb⟩
    · rw [ha'] at hmb; exact absurd (Option.some.inj hmb).symm hb
  · rintro ⟨hm, hmb⟩; exact ⟨.inl hm, hmb⟩

/-! ## C51 -/

/-- **C51.** After any history, every node in the table has an address, no two have the same, and no node has
two objects with the same code. -/
theorem C51_table_duplicate_free {e : Endian} {db : Db} {c : Ctrl} (h : CtrlReach e db c) :
    (c.nodes.map (·.address)).Nodup ∧ (∀ n ∈ c.nodes, n.address ≠ none) ∧ ∀ n ∈ c.nodes, (eojs n).Nodup :=
  ⟨(reach_cinv h).nodup, (reach_cinv h).addr, fun n hn => ((reach_cinv h).node n hn).inv.codes⟩

/-- **C51.** A received datagram, whatever it is, removes neither nodes nor objects: every node keeps its position,
its address and its objects, and new objects come after them. -/
theorem C51_only_grows {e : Endian} {db : Db} {c c' : Ctrl} {h h' : Heap} {ev : List CEvent} (hc : CtrlReach e db c)
    (orc : Oracle) (loc : Option String) (a : String) (data : List Byte)
    (hr : c.receive e db orc h loc (some a) data = .ok (c', h', ev)) (i : Nat) (n : Node)
    (hi : c.nodes[i]? = some n) :
    ∃ n', c'.nodes[i]? = some n' ∧ n'.address = n.address ∧ eojs n <+: eojs n' := by
  have hv := reach_cinv hc
  rcases receive_any e db orc hv hr with ⟨_, rfl, _⟩ | ⟨f, rest, n1, ns, st, _, _, _, rfl, hs, _⟩
  · exact ⟨n, hi, rfl, List.prefix_rfl⟩
  · have hset : ∀ j m m', c.nodes[j]? = some m → m'.address = m.address → eojs m <+: eojs m' →
        ∃ n', (c.nodes.set j m')[i]? = some n' ∧ n'.address = n.address ∧ eojs n <+: eojs n' := by
      intro j m m' hj h1 h2
      by_cases hij : j = i
      · subst hij
        rw [hi] at hj; cases hj
        exact ⟨m', by rw [List.getElem?_set_self (List.getElem?_eq_some_iff.1 hi).1], h1, h2⟩
      · exact ⟨n, by rw [List.getElem?_set_ne hij, hi], rfl, List.prefix_rfl⟩
    cases hs with
    | ignored => exact ⟨n, hi, rfl, List.prefix_rfl⟩
    | known _ _ _ h1 h2 h3 h4 h5 => exact hset _ _ _ h1 (by rw [h4, h2]) (by rw [h5]; exact List.prefix_append _ _)
    | added =>
      refine ⟨n, ?_, rfl, List.prefix_rfl⟩
      simp only
      rw [List.getElem?_append_left (List.getElem?_eq_some_iff.1 hi).1]
      exact hi
    | report _ _ _ h1 h2 h3 h4 h5 => exact hset _ _ _ h1 (by rw [h4, h2]) (by rw [h5]; exact List.prefix_rfl)

theorem newCodes_nil {old xs : List (Byte × Byte × Byte)} : newCodes old xs = [] ↔ ∀ x ∈ xs, x ∈ old := by
  unfold newCodes
  rw [List.filter_eq_nil_iff]
  constructor
  · intro h x hx
    have := h x ((firsts_mem x xs).2 hx)
    simpa using this
  · intro h x hx
    have := h x ((firsts_mem x xs).1 hx)
    simpa using this

theorem newCodes_mem {old xs : List (Byte × Byte × Byte)} {x} : x ∈ newCodes old xs ↔ x ∈ xs ∧ x ∉ old := by
  unfold newCodes
  rw [List.mem_filter, firsts_mem]; simp

/-- **C51.** Receiving the same instance list twice from the same address changes nothing in the table the
second time and calls no node listener. -/
theorem C51_second_list_no_effect {e : Endian} {db : Db} {c c1 c2 : Ctrl} {h h1 h2 h3 : Heap} {ev1 ev2 : List CEvent}
    (hc : CtrlReach e db c) (orc orc2 : Oracle) (loc loc2 : Option String) (a : String) (f : Frame) (d : List Byte)
    (hf : f.WF) (hs : SearchAnswer f d) (rest rest2 : List Byte)
    (hr1 : c.receive e db orc h loc (some a) (encode f ++ rest) = .ok (c1, h1, ev1))
    (hr2 : c1.receive e db orc2 h2 loc2 (some a) (encode f ++ rest2) = .ok (c2, h3, ev2)) :
    c2.nodes = c1.nodes ∧ statuses ev2 = [] := by
  have hv := reach_cinv hc
  have hv1 : CInv c1 := reach_cinv (.receive orc loc a _ hc hr1)
  have uniq : ∀ d', SearchAnswer f d' → d' = d := by
    intro d' h'
    have := h'.2.symm.trans hs.2
    simpa using this
  obtain ⟨n1, ns, st, _, hc1, hseen, _⟩ := recv_seen e db orc hv hf hr1
  obtain ⟨n2, ns2, st2, _, hc2, hseen2, hst2⟩ := recv_seen e db orc2 hv1 hf hr2
  have hdone : ∀ n', (∀ x ∈ listedCodes d, x ∈ eojs n') → c1.getNode (some a) = some n' →
      c2.nodes = c1.nodes ∧ statuses ev2 = [] := by
    intro n' hall hg
    rw [hst2, hc2]
    cases hseen2 with
    | ignored => simp
    | known k1 k2 k3 k4 k5 k6 k7 k8 k9 =>
      rw [uniq _ k1] at k9 ⊢
      rw [hg] at k3; cases k3
      have hz := newCodes_nil.2 hall
      rw [if_pos hz, k9 hz]
      refine ⟨?_, by simp⟩
      simp only
      have hlt := (List.getElem?_eq_some_iff.1 k4)
      obtain ⟨hlt, hget⟩ := hlt
      rw [← hget, List.set_getElem_self]
    | added k1 k2 k3 => rw [hg] at k3; cases k3
    | report k1 => exact absurd hs (k1 d)
  cases hseen with
  | ignored h =>
    rcases h with h | h
    · have hd : [] = d := uniq [] h
      subst hd
      rw [hst2, hc2]
      cases hseen2 with
      | ignored => simp
      | known k1 k2 => exact absurd (uniq _ k1) k2
      | added k1 k2 => exact absurd (uniq _ k1) k2
      | report k1 => exact absurd hs (k1 _)
    · exact absurd hs (h.1 d)
  | known k1 k2 k3 k4 k5 k6 k7 k8 k9 =>
    have := uniq _ k1; subst this
    refine hdone _ ?_ (by rw [hc1]; exact getNode_set hv k4 k5 k6 k7)
    intro x hx
    rw [k8, List.mem_append, newCodes_mem]
    exact (Classical.em _).imp id fun hm => ⟨hx, hm⟩
  | added k1 k2 k3 k4 k5 k6 k7 =>
    have := uniq _ k1; subst this
    refine hdone _ ?_ (by rw [hc1]; exact (getNode_append hv k4 k5 k6).1)
    intro x hx
    rw [k7, List.mem_append, newCodes_mem]
    by_cases hm : x ∈ [profileEoj]
    · exact .inl hm
    · exact .inr ⟨hx, hm⟩
  | report k1 => exact absurd hs (k1 d)

/-- non-vacuity: the controller of the examples is reachable, has one node, and received its list -/
example : CtrlReach .little [] kCtrl ∧ kCtrl.nodes.map (·.address) = [some "10.0.0.2"] ∧
    ∃ ev, kRecv kCtrl "10.0.0.2" kList = .ok (kCtrl, kHeap, ev) :=
  ⟨kCtrl_reach, by with_unfolding_all rfl, [], by with_unfolding_all rfl⟩

/-! ## C52 -/

/-- **C52.** After an instance list from an address the node with this address has the objects it had (a new node:
its profile) followed by the complete codes of the list it did not have, each once, in the order of
the list. Objects other than the profile are kept as they were, and so are all other nodes. -/
theorem C52_listed_instances {e : Endian} {db : Db} {c c' : Ctrl} {h h' : Heap} {ev : List CEvent}
    (hc : CtrlReach e db c) (orc : Oracle) (loc : Option String) (a : String) (f : Frame) (d : List Byte) (hf : f.WF)
    (hs : SearchAnswer f d) (hd : d ≠ []) (rest : List Byte)
    (hr : c.receive e db orc h loc (some a) (encode f ++ rest) = .ok (c', h', ev)) :
    (∃ n', c'.getNode (some a) = some n' ∧
      match c.getNode (some a) with
      | some n => eojs n' = eojs n ++ (firsts (listedCodes d)).filter (· ∉ eojs n) ∧
          ∀ o ∈ n.objs, objEoj o ≠ profileEoj → o ∈ n'.objs
      | none => eojs n' = profileEoj :: (firsts (listedCodes d)).filter (· ≠ profileEoj)) ∧
    ∀ b, b ≠ a → c'.getNode (some b) = c.getNode (some b) := by
  have hv := reach_cinv hc
  have uniq : ∀ d', SearchAnswer f d' → d' = d := by
    intro d' h'
    have := h'.2.symm.trans hs.2
    simpa using this
  obtain ⟨n1, ns, st, _, rfl, hseen, _⟩ := recv_seen e db orc hv hf hr
  cases hseen with
  | ignored h =>
    rcases h with h | h
    · exact absurd (uniq [] h).symm hd
    · exact absurd hs (h.1 d)
  | known k1 k2 k3 k4 k5 k6 k7 k8 k9 k10 =>
    have := uniq _ k1; subst this
    refine ⟨⟨_, getNode_set hv k4 k5 k6 k7, ?_⟩, fun b hb => getNode_other hv k4 k5 k6 k7 hb⟩
    rw [k3]
    exact ⟨k8, k10⟩
  | added k1 k2 k3 k4 k5 k6 k7 =>
    have := uniq _ k1; subst this
    refine ⟨⟨_, (getNode_append hv k4 k5 k6).1, ?_⟩, (getNode_append hv k4 k5 k6).2⟩
    rw [k3]
    simp only
    rw [k7]
    unfold newCodes
    simp
  | report k1 => exact absurd hs (k1 d)

/-- **C52.** Every other datagram leaves the addresses of the nodes and the codes of their objects as they
are. -/
theorem C52_nothing_else {e : Endian} {db : Db} {c c' : Ctrl} {h h' : Heap} {ev : List CEvent} (hc : CtrlReach e db c)
    (orc : Oracle) (loc : Option String) (a : String) (data : List Byte)
    (hn : ∀ f d rest, f.WF → data = encode f ++ rest → SearchAnswer f d → d = [])
    (hr : c.receive e db orc h loc (some a) data = .ok (c', h', ev)) :
    c'.nodes.map (fun n => (n.address, eojs n)) = c.nodes.map (fun n => (n.address, eojs n)) := by
  have hv := reach_cinv hc
  rcases receive_any e db orc hv hr with ⟨_, rfl, _⟩ | ⟨f, rest, n1, ns, st, hf, hdata, _, rfl, hs, _⟩
  · rfl
  · cases hs with
    | ignored => rfl
    | known k1 k2 => exact absurd (hn _ _ _ hf hdata k1) k2
    | added k1 k2 => exact absurd (hn _ _ _ hf hdata k1) k2
    | report _ _ _ h1 h2 h3 h4 h5 =>
      simp only [List.map_set, h4, h5]
      apply List.ext_getElem?
      intro j
      rw [List.getElem?_set]
      split
      · rename_i i n _ _ hj
        subst hj
        simp only [List.length_map, List.getElem?_map, h1, Option.map_some, h2]
        rw [if_pos (List.getElem?_eq_some_iff.1 h1).1]
      · rfl

/-- non-vacuity: the list of the example had one complete code and one stray byte -/
example : SearchAnswer kList [1, 0x02, 0x90, 0x01, 0xFF] ∧
    listedCodes [1, 0x02, 0x90, 0x01, 0xFF] = [(0x02, 0x90, 0x01)] ∧
    (kCtrl.getNode (some "10.0.0.2")).map eojs = some [profileEoj, (0x02, 0x90, 0x01)] :=
  ⟨kList_search, rfl, by with_unfolding_all rfl⟩

/-! ## C53 -/

theorem destObj_update {n : Node} {j : Nat} {o o' : Obj} {x : Byte × Byte × Byte} {t : BitVec 32}
    (hj : n.objs[j]? = some o) (hx : objEoj o' = x) (hox : objEoj o = x)
    (hfirst : ∀ l y, l < j → n.objs[l]? = some y → objEoj y ≠ x) :
    destObj { n with objs := n.objs.set j o', lastTid := t } x = some o' ∧
    ∀ z, z ≠ x → destObj { n with objs := n.objs.set j o', lastTid := t } z = destObj n z := by
  unfold destObj
  simp only
  have hlt : j < n.objs.length := (List.getElem?_eq_some_iff.1 hj).1
  revert hj hfirst hlt
  generalize n.objs = l
  intro hj hfirst hlt
  induction l generalizing j with
  | nil => simp at hlt
  | cons y ys ih =>
    cases j with
    | zero =>
      simp only [List.getElem?_cons_zero, Option.some.injEq] at hj
      subst hj
      refine ⟨by simp [hx], ?_⟩
      intro z hz
      have h1 : (objEoj o' == z) = false := by rw [hx]; simpa using hz.symm
      have h2 : (objEoj y == z) = false := by rw [hox]; simpa using hz.symm
      rw [List.set_cons_zero, List.find?_cons, List.find?_cons, h1, h2]
    | succ j =>
      have hy : (objEoj y == x) = false := by simpa using hfirst 0 y (by omega) (by simp)
      obtain ⟨g1, g2⟩ := ih (by simpa using hj)
        (fun l z hl hz => hfirst (l + 1) z (by omega) (by simpa using hz)) (by simpa using hlt)
      rw [List.set_cons_succ]
      refine ⟨by rw [List.find?_cons, hy]; exact g1, ?_⟩
      intro z hz
      rw [List.find?_cons, List.find?_cons]
      split
      · rfl
      · exact g2 z hz

/-- **C53** (partial: the property maps 0x9D–0x9F are excepted if a reported property is new, see
`C53_maps_rebuilt_violated`, and so are answers to a search, see `C53_instance_list_violated`). After a
notification or read response from a known node, addressed to an object of the controller, the cached data of every
reported property is the reported data (the last occurrence wins), all other cached data of the
object, all other objects of the node and all other nodes are as before. -/
theorem C53_cache_partial {e : Endian} {db : Db} {c c' : Ctrl} {h h' : Heap} {ev : List CEvent}
    (hc : CtrlReach e db c) (orc : Oracle) (loc : Option String) (a : String) (f : Frame) (hf : f.WF)
    (hrep : Reports f.esv) (hns : ∀ d, ¬ SearchAnswer f d) (hdst : f.deoj ∈ eojs c.node) (n : Node) (o : Obj)
    (hn : c.getNode (some a) = some n) (ho : destObj n f.seoj = some o) (rest : List Byte)
    (hr : c.receive e db orc h loc (some a) (encode f ++ rest) = .ok (c', h', ev)) :
    (∃ n' o', c'.getNode (some a) = some n' ∧ destObj n' f.seoj = some o' ∧
      (∀ k, (¬ IsMapCode k ∨ ∀ q ∈ reported f, dataOf o q.1 ≠ none) →
        dataOf o' k = (lastOf (reported f) k).or (dataOf o k)) ∧
      ∀ x, x ≠ f.seoj → destObj n' x = destObj n x) ∧
    ∀ b, b ≠ a → c'.getNode (some b) = c.getNode (some b) := by
  have hv := reach_cinv hc
  obtain ⟨n1, ns, st, _, rfl, hseen, _⟩ := recv_seen e db orc hv hf hr
  cases hseen with
  | ignored h =>
    rcases h with h | h
    · exact absurd h (hns _)
    · rw [h.2 hdst] at hn; cases hn
  | known k1 => exact absurd k1 (hns _)
  | added k1 => exact absurd k1 (hns _)
  | report k1 k2 k3 k4 k5 k6 k7 k8 k9 k10 =>
    rw [hn] at k3; cases k3
    obtain ⟨j, o', t, j1, j2, j3, j4⟩ := k10 hrep o ho
    subst j3
    have hx : objEoj o = f.seoj := destObj_code ho
    obtain ⟨g1, g2⟩ := destObj_update (t := t) j1 (by rw [j4.eoj, hx]) hx j2
    refine ⟨⟨_, o', getNode_set hv k4 k5 k6 k7, g1, ?_, g2⟩, fun b hb => getNode_other hv k4 k5 k6 k7 hb⟩
    intro k hk
    refine j4.data k (hk.imp id fun hall q hq => ?_)
    exact (hasProperty_iff o q.1).2 (hall q hq)

/-- a notification of the example device -/
def kInf (ps : List Prop8) : Frame := ⟨(0, 2), (0x02, 0x90, 0x01), (0x0E, 0xF0, 0x01), 0x73, .plain ps⟩
/-- the cached data of the example device -/
def kData (c : Ctrl) (k : Byte) : Option (List Byte) :=
  ((c.getNode (some "10.0.0.2")).bind fun n => destObj n (0x02, 0x90, 0x01)).bind fun o => dataOf o k

/-- non-vacuity: a notification from the example node, addressed to the profile of the controller -/
example : Reports (kInf [(0xB0, [0x41]), (0xB0, [0x42])]).esv ∧
    (kInf [(0xB0, [0x41]), (0xB0, [0x42])]).WF ∧
    (∀ d, ¬ SearchAnswer (kInf [(0xB0, [0x41]), (0xB0, [0x42])]) d) ∧
    (kInf [(0xB0, [0x41]), (0xB0, [0x42])]).deoj ∈ eojs kCtrl.node ∧
    ((kCtrl.getNode (some "10.0.0.2")).bind fun n => destObj n (0x02, 0x90, 0x01)).isSome ∧
    kData (kGet (kRecv kCtrl "10.0.0.2" (kInf [(0xB0, [0x41]), (0xB0, [0x42])]))) 0xB0 = some [0x42] := by
  refine ⟨by decide, by decide, ?_, ?_, by with_unfolding_all rfl, by with_unfolding_all rfl⟩
  · intro d hd
    have := hd.2
    simp [kInf] at this
  · have : eojs kCtrl.node = [(0x0E, 0xF0, 0x01), (0x01, 0x30, 0x01)] := by with_unfolding_all rfl
    rw [this]; decide

/-- **C53 violated.** A reported property map does not stay in the cache: the report of another property that is new
to the controller makes it recompute the maps from the properties it happens to know. Here the device
reports its Get map with 4 codes, then a property 0xB0, and the cached map is the controller's own. -/
theorem C53_maps_rebuilt_violated :
    let c1 := kGet (kRecv kCtrl "10.0.0.2" (kInf [(0x9F, [4, 0x80, 0x9D, 0x9E, 0x9F])]))
    let c2 := kGet (kRecv c1 "10.0.0.2" (kInf [(0xB0, [0x41])]))
    CtrlReach .little [] c1 ∧ CtrlReach .little [] c2 ∧ kData c1 0x9F = some [4, 0x80, 0x9D, 0x9E, 0x9F] ∧
      kData c2 0x9F = some [3, 0x9F, 0x9E, 0x9D] := by
  intro c1 c2
  have h1 : CtrlReach .little [] c1 :=
    .receive (h := kHeap) (h' := kHeap) (ev := [.status (some "10.0.0.2") .announced, .status (some "10.0.0.2") .responded, .status (some "10.0.0.2") .updated])
      kOrc none "10.0.0.2" (encode (kInf [(0x9F, [4, 0x80, 0x9D, 0x9E, 0x9F])])) kCtrl_reach
      (by with_unfolding_all rfl)
  refine ⟨h1, ?_, by with_unfolding_all rfl, by with_unfolding_all rfl⟩
  exact .receive (h := kHeap) (h' := kHeap) (ev := [.status (some "10.0.0.2") .announced, .status (some "10.0.0.2") .responded, .status (some "10.0.0.2") .updated])
      kOrc none "10.0.0.2" (encode (kInf [(0xB0, [0x41])])) h1
      (by with_unfolding_all rfl)

/-- **C53 violated.** The value of 0xD6 in an answer to a search is not cached: if the node is known and so are the
listed codes (for example because the list has become shorter), no cached value changes. -/
theorem C53_instance_list_violated {e : Endian} {db : Db} {c c' : Ctrl} {h h' : Heap} {ev : List CEvent}
    (hc : CtrlReach e db c) (orc : Oracle) (loc : Option String) (a : String) (f : Frame) (d : List Byte) (hf : f.WF)
    (hs : SearchAnswer f d) (n : Node) (hn : c.getNode (some a) = some n) (hall : ∀ x ∈ listedCodes d, x ∈ eojs n)
    (rest : List Byte) (hr : c.receive e db orc h loc (some a) (encode f ++ rest) = .ok (c', h', ev)) :
    c'.nodes = c.nodes := by
  have hv := reach_cinv hc
  have uniq : ∀ d', SearchAnswer f d' → d' = d := by
    intro d' h'
    have := h'.2.symm.trans hs.2
    simpa using this
  obtain ⟨n1, ns, st, _, rfl, hseen, _⟩ := recv_seen e db orc hv hf hr
  cases hseen with
  | ignored => rfl
  | known k1 k2 k3 k4 k5 k6 k7 k8 k9 =>
    have := uniq _ k1; subst this
    rw [hn] at k3; cases k3
    rw [k9 (newCodes_nil.2 hall)]
    obtain ⟨hlt, hget⟩ := List.getElem?_eq_some_iff.1 k4
    simp only
    rw [← hget, List.set_getElem_self]
  | added _ _ k3 => rw [hn] at k3; cases k3
  | report k1 => exact absurd hs (k1 d)

/-- non-vacuity: an empty instance list from the node that had one instance -/
example : ∃ f, f.WF ∧ SearchAnswer f [0] ∧ ∃ n, kCtrl.getNode (some "10.0.0.2") = some n ∧
    ∀ x ∈ listedCodes [0], x ∈ eojs n := by
  refine ⟨{ kList with body := .plain [(0xD6, [0])] }, by decide, ⟨by decide, rfl⟩, ?_⟩
  have : (kCtrl.getNode (some "10.0.0.2")).isSome = true := by with_unfolding_all rfl
  obtain ⟨n, hn⟩ := Option.isSome_iff_exists.1 this
  exact ⟨n, hn, by simp [listedCodes, triples]⟩

/-! ## C54 -/

/-- **C54.** Answers to a search: Added exactly when there was no node with this address (and then there is one
afterwards), Updated exactly when there was one and the list has a code it did not have. -/
theorem C54_search_status {e : Endian} {db : Db} {c c' : Ctrl} {h h' : Heap} {ev : List CEvent}
    (hc : CtrlReach e db c) (orc : Oracle) (loc : Option String) (a : String) (f : Frame) (d : List Byte) (hf : f.WF)
    (hs : SearchAnswer f d) (hd : d ≠ []) (rest : List Byte) (hl : c.hasNodeListener = true)
    (hr : c.receive e db orc h loc (some a) (encode f ++ rest) = .ok (c', h', ev)) :
    statuses ev = match c.getNode (some a) with
      | none => [(some a, .added)]
      | some n => if ∀ x ∈ listedCodes d, x ∈ eojs n then [] else [(some a, .updated)] := by
  have hv := reach_cinv hc
  have uniq : ∀ d', SearchAnswer f d' → d' = d := by
    intro d' h'
    have := h'.2.symm.trans hs.2
    simpa using this
  obtain ⟨n1, ns, st, _, rfl, hseen, hst⟩ := recv_seen e db orc hv hf hr
  rw [hl] at hst
  rw [hst]
  cases hseen with
  | ignored h =>
    rcases h with h | h
    · exact absurd (uniq [] h).symm hd
    · exact absurd hs (h.1 d)
  | known k1 k2 k3 =>
    have := uniq _ k1; subst this
    rw [k3]
    simp only [newCodes_nil, if_true]
    split <;> rfl
  | added k1 k2 k3 => rw [k3]; rfl
  | report k1 => exact absurd hs (k1 d)

/-- **C54.** A message that is no answer to a search causes no status, and leaves the table of nodes unchanged, if the
controller has no object with the destination code or there is no node with the sender's address. -/
theorem C54_ignored {e : Endian} {db : Db} {c c' : Ctrl} {h h' : Heap} {ev : List CEvent}
    (hc : CtrlReach e db c) (orc : Oracle) (loc : Option String) (a : String) (f : Frame) (hf : f.WF)
    (hns : ∀ d, ¬ SearchAnswer f d) (hdst : f.deoj ∉ eojs c.node ∨ c.getNode (some a) = none) (rest : List Byte)
    (hr : c.receive e db orc h loc (some a) (encode f ++ rest) = .ok (c', h', ev)) :
    statuses ev = [] ∧ c'.nodes = c.nodes := by
  have hv := reach_cinv hc
  obtain ⟨n1, ns, st, _, rfl, hseen, hst⟩ := recv_seen e db orc hv hf hr
  rw [hst]
  cases hseen with
  | ignored => simp
  | known k1 => exact absurd k1 (hns _)
  | added k1 => exact absurd k1 (hns _)
  | report _ k2 k3 =>
    rcases hdst with h | h
    · exact absurd k2 h
    · rw [h] at k3; cases k3

/-- non-vacuity: a frame for an object the controller does not have, and one from an unknown node -/
example : (∀ d, ¬ SearchAnswer ⟨(0, 1), (0x02, 0x90, 0x01), (0x05, 0xFF, 0x01), 0x72, .plain [(0x80, [0x30])]⟩ d) ∧
    ((0x05, 0xFF, 0x01) : Byte × Byte × Byte) ∉ eojs kCtrl.node ∧ (kCtrl.getNode (some "10.0.0.77")).isNone = true :=
  ⟨fun d h => absurd h.2 (by simp), by with_unfolding_all decide, by with_unfolding_all rfl⟩

/-- **C54.** Every other message to an object of the controller from a known node: first Announced if it is a
notification, then Responded if the code takes the service for a response, then Updated if it reports
a value that differs from the cached one (a value that is not cached counting as empty). -/
theorem C54_node_status {e : Endian} {db : Db} {c c' : Ctrl} {h h' : Heap} {ev : List CEvent}
    (hc : CtrlReach e db c) (orc : Oracle) (loc : Option String) (a : String) (f : Frame) (hf : f.WF)
    (hns : ∀ d, ¬ SearchAnswer f d) (hdst : f.deoj ∈ eojs c.node) (n : Node) (hn : c.getNode (some a) = some n)
    (rest : List Byte) (hl : c.hasNodeListener = true)
    (hmap : ∀ o, destObj n f.seoj = some o →
      (∀ q ∈ reported f, ¬ IsMapCode q.1) ∨ ∀ q ∈ reported f, dataOf o q.1 ≠ none)
    (hr : c.receive e db orc h loc (some a) (encode f ++ rest) = .ok (c', h', ev)) :
    statuses ev =
      (if f.esv = 0x73 then [(some a, .announced)] else []) ++
      (if f.esv = 0x73 ∨ (IsAnswer f.esv ∧ f.esv ≠ 0x51) then [(some a, .responded)] else []) ++
      (match destObj n f.seoj with
        | some o => if Reports f.esv ∧ changes (dataOf o) (reported f) then [(some a, .updated)] else []
        | none => []) := by
  have hv := reach_cinv hc
  obtain ⟨n1, ns, st, _, rfl, hseen, hst⟩ := recv_seen e db orc hv hf hr
  rw [hl] at hst
  rw [hst]
  cases hseen with
  | ignored h =>
    rcases h with h | h
    · exact absurd h (hns _)
    · rw [h.2 hdst] at hn; cases hn
  | known k1 => exact absurd k1 (hns _)
  | added k1 => exact absurd k1 (hns _)
  | @report i n2 n' u k1 k2 k3 k4 k5 k6 k7 k8 k9 k10 =>
    rw [hn] at k3; cases k3
    have hresp : ∀ v : Byte, Esv.isResponse v = decide (v = 0x73 ∨ (IsAnswer v ∧ v ≠ 0x51)) := by decide +kernel
    have hu : u = true ↔ Reports f.esv ∧ ∃ o, destObj n f.seoj = some o ∧ changes (dataOf o) (reported f) = true := by
      by_cases hrep : Reports f.esv
      · cases ho : destObj n f.seoj with
        | none =>
          rw [(k9 (by rw [ho]; simp)).2]; simp
        | some o =>
          obtain ⟨j, o', t, _, _, _, j4⟩ := k10 hrep o ho
          have := j4.upd ((hmap o ho).imp id fun hall q hq => (hasProperty_iff o q.1).2 (hall q hq))
          rw [this]
          simp [hrep]
      · rw [(k9 fun h => hrep h.1).2]; simp [hrep]
    simp only [if_true, nodeStatus, List.map_append, hresp, decide_eq_true_eq]
    congr 1
    · congr 1
      · split <;> rfl
      · split <;> rfl
    · cases ho : destObj n f.seoj with
      | none =>
        have : u = false := by
          cases u with
          | false => rfl
          | true => have := hu.1 rfl; rw [ho] at this; simp at this
        rw [this]; rfl
      | some o =>
        simp only
        rw [ho] at hu
        by_cases hx : Reports f.esv ∧ changes (dataOf o) (reported f) = true
        · rw [if_pos hx, if_pos (hu.2 ⟨hx.1, o, rfl, hx.2⟩)]; rfl
        · rw [if_neg hx, if_neg]
          · rfl
          · intro hc
            obtain ⟨h1, o1, h2, h3⟩ := hu.1 hc
            cases h2
            exact hx ⟨h1, h3⟩

/-- non-vacuity: the status calls for a notification from the example node -/
example : kCtrl.hasNodeListener = true ∧
    (∀ q ∈ reported (kInf [(0xB0, [0x41])]), ¬ IsMapCode q.1) ∧
    kRecv kCtrl "10.0.0.2" (kInf [(0xB0, [0x41])]) = .ok
      (kGet (kRecv kCtrl "10.0.0.2" (kInf [(0xB0, [0x41])])), kHeap,
        [.status (some "10.0.0.2") .announced, .status (some "10.0.0.2") .responded,
          .status (some "10.0.0.2") .updated]) :=
  ⟨by with_unfolding_all rfl, by decide, by with_unfolding_all rfl⟩

theorem lastOf_none : ∀ {qs : List Prop8} {k : Byte}, (∀ q ∈ qs, q.1 ≠ k) → lastOf qs k = none
  | [], _, _ => rfl
  | q :: qs, k, h => by
      simp only [lastOf]
      rw [lastOf_none (fun q' hq' => h q' (by simp [hq'])), if_neg (h q (by simp))]; rfl

/-- a report of distinct properties that are all cached changes the cache exactly if some value differs -/
theorem changes_iff : ∀ {qs : List Prop8} {σ : Byte → Option (List Byte)}, (qs.map (·.1)).Nodup →
    (∀ q ∈ qs, σ q.1 ≠ none) → (changes σ qs = true ↔ ∃ k, (lastOf qs k).or (σ k) ≠ σ k)
  | [], σ, _, _ => by simp [changes, lastOf]
  | q :: qs, σ, hnd, hall => by
      simp only [List.map_cons, List.nodup_cons, List.mem_map, not_exists, not_and] at hnd
      have hne : ∀ q' ∈ qs, q'.1 ≠ q.1 := fun q' hq' he => hnd.1 q' hq' he
      have hlq : lastOf qs q.1 = none := lastOf_none hne
      have ih := changes_iff (σ := fun k => if k = q.1 then some q.2 else σ k) hnd.2 (by
        intro q' hq'
        simp only [hne q' hq', if_false]
        exact hall q' (by simp [hq']))
      simp only [changes, Bool.or_eq_true, ih]
      constructor
      · rintro (h | ⟨k, hk⟩)
        · refine ⟨q.1, ?_⟩
          simp only [lastOf, hlq, if_true, Option.none_or, Option.some_or]
          intro he
          rw [← he] at h; simp at h
        · by_cases hkq : k = q.1
          · subst hkq; simp [hlq] at hk
          · refine ⟨k, ?_⟩
            have hkq' : ¬ q.1 = k := fun e => hkq e.symm
            simp only [lastOf, hkq', if_false, Option.or_none]
            simpa [hkq] using hk
      · rintro ⟨k, hk⟩
        by_cases hkq : k = q.1
        · subst hkq
          simp only [lastOf, hlq, if_true, Option.none_or, Option.some_or] at hk
          refine .inl ?_
          cases hs : σ q.1 with
          | none => exact absurd hs (hall q (by simp))
          | some d =>
            rw [hs] at hk
            simp only [Option.getD_some, bne_iff_ne]
            intro hd; exact hk (by rw [hd])
        · refine .inr ⟨k, ?_⟩
          have hkq' : ¬ q.1 = k := fun e => hkq e.symm
          simp only [lastOf, hkq', if_false, Option.or_none] at hk
          simpa [hkq] using hk

/-- **C54** (partial: reports that name a property once and only properties the controller has cached; see
`C54_new_empty_property_violated` and `C54_flip_violated`). Updated is reported exactly when some cached value of
the reporting object changed. -/
theorem C54_updated_iff_changed_partial {e : Endian} {db : Db} {c c' : Ctrl} {h h' : Heap} {ev : List CEvent}
    (hc : CtrlReach e db c) (orc : Oracle) (loc : Option String) (a : String) (f : Frame) (hf : f.WF)
    (hrep : Reports f.esv) (hns : ∀ d, ¬ SearchAnswer f d) (hdst : f.deoj ∈ eojs c.node) (n : Node) (o : Obj)
    (hn : c.getNode (some a) = some n) (ho : destObj n f.seoj = some o) (rest : List Byte)
    (hl : c.hasNodeListener = true) (hnd : ((reported f).map (·.1)).Nodup)
    (hall : ∀ q ∈ reported f, dataOf o q.1 ≠ none)
    (hr : c.receive e db orc h loc (some a) (encode f ++ rest) = .ok (c', h', ev)) :
    (some a, NodeStatus.updated) ∈ statuses ev ↔
      ∃ n' o', c'.getNode (some a) = some n' ∧ destObj n' f.seoj = some o' ∧ ∃ k, dataOf o' k ≠ dataOf o k := by
  rw [C54_node_status hc orc loc a f hf hns hdst n hn rest hl
    (fun o1 ho1 => .inr (by rw [ho] at ho1; cases ho1; exact hall)) hr, ho]
  obtain ⟨⟨n', o', g1, g2, g3, _⟩, _⟩ := C53_cache_partial hc orc loc a f hf hrep hns hdst n o hn ho rest hr
  have hd : ∀ k, dataOf o' k = (lastOf (reported f) k).or (dataOf o k) := fun k => g3 k (.inr hall)
  have hch := changes_iff hnd hall
  have hmem : (some a, NodeStatus.updated) ∈
      ((if f.esv = 0x73 then [(some a, .announced)] else []) ++
      (if f.esv = 0x73 ∨ (IsAnswer f.esv ∧ f.esv ≠ 0x51) then [(some a, .responded)] else []) ++
      (if Reports f.esv ∧ changes (dataOf o) (reported f) then [(some a, .updated)] else []) :
        List (Option String × NodeStatus)) ↔ changes (dataOf o) (reported f) = true := by
    by_cases hx : changes (dataOf o) (reported f) = true
    · simp [hrep, hx]
    · have hz : ¬ (Reports f.esv ∧ changes (dataOf o) (reported f) = true) := fun h => hx h.2
      rw [if_neg hz, List.append_nil]
      refine ⟨fun hm => ?_, fun h => absurd h hx⟩
      exfalso
      rcases List.mem_append.1 hm with hm | hm <;> split at hm <;> simp at hm
  simp only at hmem ⊢
  rw [hmem, hch]
  constructor
  · rintro ⟨k, hk⟩
    exact ⟨n', o', g1, g2, k, by rw [hd]; exact hk⟩
  · rintro ⟨n2, o2, j1, j2, k, hk⟩
    rw [g1] at j1; cases j1
    rw [g2] at j2; cases j2
    exact ⟨k, by rw [← hd]; exact hk⟩

/-- non-vacuity: 0x9F is cached in the example -/
example : ∃ n o, kCtrl.getNode (some "10.0.0.2") = some n ∧ destObj n (kInf [(0x9F, [1, 0x80])]).seoj = some o ∧
    (∀ q ∈ reported (kInf [(0x9F, [1, 0x80])]), dataOf o q.1 ≠ none) ∧
    ((reported (kInf [(0x9F, [1, 0x80])])).map (·.1)).Nodup := by
  have h1 : kData kCtrl 0x9F = some [0] := by with_unfolding_all rfl
  unfold kData at h1
  cases hn : kCtrl.getNode (some "10.0.0.2") with
  | none => rw [hn] at h1; simp at h1
  | some n =>
    rw [hn] at h1
    simp only [Option.bind_some] at h1
    cases ho : destObj n (0x02, 0x90, 0x01) with
    | none => rw [ho] at h1; simp at h1
    | some o =>
      rw [ho] at h1
      refine ⟨n, o, rfl, ho, ?_, by decide⟩
      intro q hq
      simp only [reported, kInf, List.mem_singleton] at hq
      subst hq
      simp only [Option.bind_some] at h1
      rw [h1]; simp

/-- **C54 violated.** A notification (0x73) is always reported as a response, too. -/
theorem C54_notification_responded_violated {e : Endian} {db : Db} {c c' : Ctrl} {h h' : Heap} {ev : List CEvent}
    (hc : CtrlReach e db c) (orc : Oracle) (loc : Option String) (a : String) (f : Frame) (hf : f.WF)
    (hesv : f.esv = 0x73) (hns : ∀ d, ¬ SearchAnswer f d) (hdst : f.deoj ∈ eojs c.node) (n : Node)
    (hn : c.getNode (some a) = some n) (rest : List Byte) (hl : c.hasNodeListener = true)
    (hr : c.receive e db orc h loc (some a) (encode f ++ rest) = .ok (c', h', ev)) :
    (some a, NodeStatus.announced) ∈ statuses ev ∧ (some a, NodeStatus.responded) ∈ statuses ev := by
  have hv := reach_cinv hc
  obtain ⟨n1, ns, st, _, rfl, hseen, hst⟩ := recv_seen e db orc hv hf hr
  rw [hl] at hst
  rw [hst]
  cases hseen with
  | ignored h =>
    rcases h with h | h
    · exact absurd h (hns _)
    · rw [h.2 hdst] at hn; cases hn
  | known k1 => exact absurd k1 (hns _)
  | added k1 => exact absurd k1 (hns _)
  | report =>
    rw [hesv]
    simp [nodeStatus, Esv.isResponse]
    decide

/-- **C54 violated.** A SetC error response (0x51) is never reported as a response. -/
theorem C54_setc_error_not_responded_violated {e : Endian} {db : Db} {c c' : Ctrl} {h h' : Heap} {ev : List CEvent}
    (hc : CtrlReach e db c) (orc : Oracle) (loc : Option String) (a : String) (f : Frame) (hf : f.WF)
    (hesv : f.esv = 0x51) (rest : List Byte)
    (hr : c.receive e db orc h loc (some a) (encode f ++ rest) = .ok (c', h', ev)) : statuses ev = [] := by
  have hv := reach_cinv hc
  obtain ⟨n1, ns, st, _, rfl, hseen, hst⟩ := recv_seen e db orc hv hf hr
  have hne : ∀ d, ¬ SearchAnswer f d := by
    intro d h
    have := h.1
    rw [hesv] at this
    exact absurd this (by decide)
  rw [hst]
  cases hseen with
  | ignored => simp
  | known k1 => exact absurd k1 (hne _)
  | added k1 => exact absurd k1 (hne _)
  | report k1 k2 k3 k4 k5 k6 k7 k8 k9 =>
    have hu := (k9 (fun h => absurd h.1 (by rw [hesv]; decide))).2
    rw [hu, hesv]
    have : nodeStatus 0x51 false = [] := by decide
    rw [this]; simp

/-- **C54 violated.** A notification of the instance list (0x73 with 0xD6) from a known node is not reported as a
notification. -/
theorem C54_search_notification_violated {e : Endian} {db : Db} {c c' : Ctrl} {h h' : Heap} {ev : List CEvent}
    (hc : CtrlReach e db c) (orc : Oracle) (loc : Option String) (a : String) (f : Frame) (d : List Byte) (hf : f.WF)
    (hs : SearchAnswer f d) (rest : List Byte)
    (hr : c.receive e db orc h loc (some a) (encode f ++ rest) = .ok (c', h', ev)) :
    ∀ b, (b, NodeStatus.announced) ∉ statuses ev := by
  have hv := reach_cinv hc
  obtain ⟨n1, ns, st, _, rfl, hseen, hst⟩ := recv_seen e db orc hv hf hr
  intro b
  rw [hst]
  cases hseen with
  | ignored => simp
  | known => split <;> (try split) <;> simp
  | added => split <;> simp
  | report k1 => exact absurd hs (k1 d)

/-- **C54 violated.** The report of a property that is not cached, with empty data, creates the property in the cache
without Updated being reported. -/
theorem C54_new_empty_property_violated {e : Endian} {db : Db} {c c' : Ctrl} {h h' : Heap} {ev : List CEvent}
    (hc : CtrlReach e db c) (orc : Oracle) (loc : Option String) (a : String) (f : Frame) (hf : f.WF) (k : Byte)
    (hrep : Reports f.esv) (hb : f.body = .plain [(k, [])]) (hk : ¬ IsMapCode k) (hk2 : k ≠ 0xD6)
    (hdst : f.deoj ∈ eojs c.node) (n : Node) (o : Obj)
    (hn : c.getNode (some a) = some n) (ho : destObj n f.seoj = some o) (hnone : dataOf o k = none)
    (rest : List Byte) (hl : c.hasNodeListener = true)
    (hr : c.receive e db orc h loc (some a) (encode f ++ rest) = .ok (c', h', ev)) :
    (∃ n' o', c'.getNode (some a) = some n' ∧ destObj n' f.seoj = some o' ∧ dataOf o' k = some []) ∧
    (some a, NodeStatus.updated) ∉ statuses ev := by
  have hns : ∀ d, ¬ SearchAnswer f d := by
    intro d hd
    have := hd.2
    rw [hb] at this
    simp at this
    exact hk2 this.1
  have hrp : reported f = [(k, [])] := by unfold reported; rw [hb]
  constructor
  · obtain ⟨⟨n', o', g1, g2, g3, _⟩, _⟩ := C53_cache_partial hc orc loc a f hf hrep hns hdst n o hn ho rest hr
    exact ⟨n', o', g1, g2, by rw [g3 k (.inl hk), hrp]; simp [lastOf]⟩
  · rw [C54_node_status hc orc loc a f hf hns hdst n hn rest hl (fun _ _ => .inl (by rw [hrp]; simpa using hk)) hr, ho,
      hrp]
    have : changes (dataOf o) [(k, [])] = false := by simp [changes, hnone]
    simp only [this, Bool.false_eq_true, and_false, if_false, List.append_nil]
    intro hm
    rcases List.mem_append.1 hm with hm | hm <;> split at hm <;> simp at hm

/-- **C54 violated.** A report that names a property twice, with another value and then with the cached one, is
reported as Updated although every cached value is the same afterwards. -/
theorem C54_flip_violated {e : Endian} {db : Db} {c c' : Ctrl} {h h' : Heap} {ev : List CEvent}
    (hc : CtrlReach e db c) (orc : Oracle) (loc : Option String) (a : String) (f : Frame) (hf : f.WF) (k : Byte)
    (d d' : List Byte) (hrep : Reports f.esv) (hb : f.body = .plain [(k, d'), (k, d)]) (hd : d' ≠ d)
    (hdst : f.deoj ∈ eojs c.node) (n : Node) (o : Obj)
    (hn : c.getNode (some a) = some n) (ho : destObj n f.seoj = some o) (hold : dataOf o k = some d)
    (rest : List Byte) (hl : c.hasNodeListener = true)
    (hr : c.receive e db orc h loc (some a) (encode f ++ rest) = .ok (c', h', ev)) :
    (∃ n' o', c'.getNode (some a) = some n' ∧ destObj n' f.seoj = some o' ∧ ∀ j, dataOf o' j = dataOf o j) ∧
    (some a, NodeStatus.updated) ∈ statuses ev := by
  have hns : ∀ d, ¬ SearchAnswer f d := by
    intro d hd
    have := hd.2
    rw [hb] at this
    simp at this
  have hrp : reported f = [(k, d'), (k, d)] := by unfold reported; rw [hb]
  have hall : ∀ q ∈ reported f, dataOf o q.1 ≠ none := by rw [hrp]; simp [hold]
  constructor
  · obtain ⟨⟨n', o', g1, g2, g3, _⟩, _⟩ := C53_cache_partial hc orc loc a f hf hrep hns hdst n o hn ho rest hr
    refine ⟨n', o', g1, g2, fun j => ?_⟩
    rw [g3 j (.inr hall), hrp]
    by_cases hj : k = j
    · subst hj; simp [lastOf, hold]
    · simp [lastOf, hj]
  · rw [C54_node_status hc orc loc a f hf hns hdst n hn rest hl
      (fun o1 ho1 => .inr (by rw [ho] at ho1; cases ho1; exact hall)) hr, ho, hrp]
    have : changes (dataOf o) [(k, d'), (k, d)] = true := by simp [changes, hold, hd.symm]
    simp [this, hrep]

/-- non-vacuity of the five theorems above: frames from the known device that meet their hypotheses; the rest of the
hypotheses is met by `kCtrl` as in the examples before -/
example : (kInf [(0xB0, [])]).WF ∧ (kInf [(0x9F, [7]), (0x9F, [0])]).WF ∧
    Frame.WF { kInf [(0xB0, [])] with esv := 0x51 } ∧ SearchAnswer (kInf [(0xD6, [0])]) [0] ∧
    kData kCtrl 0xB0 = none ∧ kData kCtrl 0x9F = some [0] :=
  ⟨by decide, by decide, by decide, ⟨by decide, rfl⟩, by with_unfolding_all rfl, by with_unfolding_all rfl⟩

/-! ## C55 -/

/-- **C55** (partial: the option was enabled before). Disabling an option that is completely enabled disables it
and leaves the other options alone. -/
theorem C55_disable_partial (c : Ctrl) (p q : BitVec 32) (hp : c.option &&& p = p) (hq : q &&& p = 0) :
    (c.disableOption p).isOptionEnabled p = false ∧
    (c.disableOption p).isOptionEnabled q = c.isOptionEnabled q := by
  have key : ∀ i : Nat, c.option.getLsbD i = false → p.getLsbD i = false := by
    intro i hi
    have := congrArg (fun x => x.getLsbD i) hp
    simp only [BitVec.getLsbD_and, hi, Bool.false_and] at this
    exact this.symm
  have hzero : ∀ i : Nat, (q.getLsbD i && p.getLsbD i) = false := by
    intro i
    have := congrArg (fun x => x.getLsbD i) hq
    simpa using this
  unfold Ctrl.disableOption Ctrl.isOptionEnabled
  constructor
  · simp only [bne_eq_false_iff_eq]
    apply BitVec.eq_of_getLsbD_eq
    intro i _
    simp only [BitVec.getLsbD_and, BitVec.getLsbD_xor, BitVec.getLsbD_zero]
    cases h1 : c.option.getLsbD i with
    | false => simp [key i h1]
    | true => cases p.getLsbD i <;> simp
  · have : (c.option ^^^ p) &&& q = c.option &&& q := by
      apply BitVec.eq_of_getLsbD_eq
      intro i _
      simp only [BitVec.getLsbD_and, BitVec.getLsbD_xor]
      have := hzero i
      cases hqi : q.getLsbD i with
      | false => simp
      | true =>
        rw [hqi] at this
        have hpi : p.getLsbD i = false := by simpa using this
        simp [hpi]
    simp only
    rw [this]

/-- **C55 violated.** Disabling an option that is not enabled enables it. -/
theorem C55_disable_enables_violated (c : Ctrl) (p : BitVec 32) (hp : p ≠ 0) (hc : c.isOptionEnabled p = false) :
    (c.disableOption p).isOptionEnabled p = true := by
  unfold Ctrl.isOptionEnabled at hc ⊢
  unfold Ctrl.disableOption
  simp only [bne_eq_false_iff_eq] at hc
  have : (c.option ^^^ p) &&& p = p := by
    apply BitVec.eq_of_getLsbD_eq
    intro i _
    have := congrArg (fun x => x.getLsbD i) hc
    simp only [BitVec.getLsbD_and, BitVec.getLsbD_zero] at this
    simp only [BitVec.getLsbD_and, BitVec.getLsbD_xor]
    cases h1 : p.getLsbD i with
    | false => simp
    | true => rw [h1] at this; simp at this; simp [this]
  simp only
  rw [this]
  simpa using hp

/-- non-vacuity: a fresh controller has no option; `uEchoControllerOptionDisableUdpServer` is 1 -/
example : (kNew.enableOption 1).option &&& 1 = (1 : BitVec 32) ∧ kNew.isOptionEnabled 1 = false := by
  constructor <;> rfl

/-- **C55.** Enabling: the option is enabled, disjoint options are unchanged. -/
theorem C55_enable (c : Ctrl) (p q : BitVec 32) (hp : p ≠ 0) (hq : q &&& p = 0) :
    (c.enableOption p).isOptionEnabled p = true ∧
    (c.enableOption p).isOptionEnabled q = c.isOptionEnabled q := by
  have hzero : ∀ i : Nat, (q.getLsbD i && p.getLsbD i) = false := by
    intro i
    have := congrArg (fun x => x.getLsbD i) hq
    simpa using this
  unfold Ctrl.enableOption Ctrl.isOptionEnabled
  constructor
  · have : (c.option ||| p) &&& p = p := by
      apply BitVec.eq_of_getLsbD_eq
      intro i _
      simp only [BitVec.getLsbD_and, BitVec.getLsbD_or]
      cases p.getLsbD i <;> simp
    simp only
    rw [this]; simpa using hp
  · have : (c.option ||| p) &&& q = c.option &&& q := by
      apply BitVec.eq_of_getLsbD_eq
      intro i _
      simp only [BitVec.getLsbD_and, BitVec.getLsbD_or]
      have := hzero i
      cases hqi : q.getLsbD i with
      | false => simp
      | true =>
        rw [hqi] at this
        have hpi : p.getLsbD i = false := by simpa using this
        simp [hpi]
    simp only
    rw [this]

example : (1 : BitVec 32) ≠ 0 ∧ (2 : BitVec 32) &&& 1 = 0 := by decide

/-! ## C68, C69: discovery end to end -/

/-- **C68 violated.** The notification a starting node multicasts (0xD5, see C64) does not make a controller
discover the node: as long as the sender is unknown, neither this nor any other frame that is not an answer with
0xD6 adds a node. -/
theorem C68_start_announcement_ignored_violated {e : Endian} {db : Db} {c c' : Ctrl} {h h' : Heap} {ev : List CEvent}
    (hc : CtrlReach e db c) (orc : Oracle) (loc : Option String) (a : String) (t : Byte × Byte) (d : List Byte)
    (hd : d.length ≤ 255) (hn : c.getNode (some a) = none)
    (hr : c.receive e db orc h loc (some a)
      (encode ⟨t, (0x0E, 0xF0, 0x01), (0x0E, 0xF0, 0x01), 0x73, .plain [(0xD5, d)]⟩) = .ok (c', h', ev)) :
    c'.nodes = c.nodes ∧ c'.getNode (some a) = none ∧ statuses ev = [] := by
  have hv := reach_cinv hc
  have hf : Frame.WF ⟨t, (0x0E, 0xF0, 0x01), (0x0E, 0xF0, 0x01), 0x73, .plain [(0xD5, d)]⟩ := by
    refine ⟨show ¬ IsSetGet 0x73 by decide, by simp, ?_⟩
    intro q hq; simp only [List.mem_singleton] at hq; subst hq; exact hd
  have hns : ∀ d', ¬ SearchAnswer ⟨t, (0x0E, 0xF0, 0x01), (0x0E, 0xF0, 0x01), 0x73, .plain [(0xD5, d)]⟩ d' := by
    intro d' h
    have := h.2
    simp at this
  rw [← List.append_nil (encode _)] at hr
  obtain ⟨n1, ns, st, _, rfl, hseen, hst⟩ := recv_seen e db orc hv hf hr
  cases hseen with
  | ignored => exact ⟨rfl, hn, by rw [hst]; simp⟩
  | known k1 => exact absurd k1 (hns _)
  | added k1 => exact absurd k1 (hns _)
  | report _ _ k3 => rw [hn] at k3; cases k3

/-- non-vacuity: a fresh controller knows nobody, and defined behaviour -/
example : kNew.getNode (some "10.0.0.3") = none ∧ (kRecv kNew "10.0.0.3"
    ⟨(0, 1), (0x0E, 0xF0, 0x01), (0x0E, 0xF0, 0x01), 0x73, .plain [(0xD5, [1, 0x02, 0x90, 0x01])]⟩) =
      .ok (kNew, kHeap, []) :=
  ⟨by with_unfolding_all rfl, by with_unfolding_all rfl⟩

theorem searchNew_eq : Message.searchNew = .ok { Message.new with
    esv := 0x62, seoj := (0x0E, 0xF0, 0x01), deoj := (0x0E, 0xF0, 0x01), opc := 1,
    ep := [{ Property.new with code := 0xD6 }] } := by
  with_unfolding_all rfl

/-- The frame of a search request. -/
def searchFrame (t : Byte × Byte) (dst : Byte × Byte × Byte) (esv : Byte) : Frame :=
  ⟨t, (0x0E, 0xF0, 0x01), dst, esv, .plain [(0xD6, [])]⟩

/-- **C69.** A search multicasts one read request for 0xD6 of the node profiles, with the next TID. -/
theorem C69_search_request (e : Endian) (c : Ctrl) (p : Obj) (hp : destObj c.node profileEoj = some p) :
    ∃ c' t, c.search e = .ok (c', [.node (sends none (searchFrame t (0x0E, 0xF0, 0x01) 0x62))]) ∧
      tidNat e t = succTid c.node.lastTid.toNat := by
  unfold Ctrl.search Ctrl.searchWithEsv Ctrl.announceMessage
  rw [searchNew_eq]
  simp only [Res.bind_ok]
  rw [announceMessage_eq e c.node (m := Message.setEsv _ Esv.readRequest) ⟨⟨rfl, rfl, rfl⟩, rfl, rfl⟩, hp]
  simp only [Res.bind_ok, Res.pure_eq, List.map_cons, List.map_nil]
  refine ⟨_, tidBytes e (nextT c.node.lastTid), rfl, tidNat_next e _⟩

theorem triples_flat : ∀ (xs : List (Byte × Byte × Byte)), triples (xs.flatMap fun x => [x.1, x.2.1, x.2.2]) = xs
  | [] => rfl
  | x :: xs => by
      simp only [List.flatMap_cons, List.cons_append, List.nil_append, triples, triples_flat xs]

theorem firsts_of_nodup {α : Type} [DecidableEq α] : ∀ {l : List α}, l.Nodup → firsts l = l
  | [], _ => rfl
  | x :: xs, h => by
      rw [List.nodup_cons] at h
      simp only [firsts, firsts_of_nodup h.2]
      rw [List.filter_eq_self.2]
      intro y hy
      simp only [decide_not, Bool.not_eq_true', decide_eq_false_iff_not]
      rintro rfl; exact h.1 hy

/-- **C69** (partial: at most 84 instances, so that the list fits into a property, see C29, and the sender is
not known yet). A node that receives the search of a controller answers it, and the controller that receives the
answer knows the node afterwards with exactly its profile and its instances. -/
theorem C69_search_discovers_partial {e e2 : Endian} {db db2 : Db} {n0 n n' : Node} {o p : Obj} {eff0 eff : List Effect}
    (hreach : NodeReach e db n0) (hadd : n0.addObject e o = .ok (n, eff0, true))
    (hic : (instances n).length ≤ 84) (hcc : (nodeClasses n).length < 65536) (hn : HandlersSet n)
    (hp : destObj n profileEoj = some p) (hacc : ∀ q, accepts p.observers 0x62 0xD6 q [] = true)
    (t : Byte × Byte) (loc : Option String) (a b : String)
    (hrecv : n.receive e loc (some a) (encode (searchFrame t (0x0E, 0xF0, 0x01) 0x62)) = .ok (n', eff)) :
    ∃ r : Frame, r.tid = t ∧ sends (some a) r ∈ eff ∧
      ∀ {c c' : Ctrl} {h h' : Heap} {ev : List CEvent} (orc : Oracle) (loc2 : Option String),
        CtrlReach e2 db2 c → c.getNode (some b) = none →
        c.receive e2 db2 orc h loc2 (some b) (encode r) = .ok (c', h', ev) →
        ∃ m, c'.getNode (some b) = some m ∧ eojs m = profileEoj :: instances n := by
  obtain ⟨p', hp', _, _, _, hd6, _⟩ := C28_profile_describes_node hreach hadd (by omega) hcc
  rw [hp] at hp'; cases hp'
  have hf : (searchFrame t (0x0E, 0xF0, 0x01) 0x62).WF := by
    refine ⟨show ¬ IsSetGet 0x62 by decide, by simp, ?_⟩
    intro q hq; simp only [List.mem_singleton] at hq; subst hq; simp
  have hreq : IsRequestEsv (searchFrame t (0x0E, 0xF0, 0x01) 0x62).esv := show IsRequestEsv 0x62 by decide
  have hdest : destObj n (searchFrame t (0x0E, 0xF0, 0x01) 0x62).deoj = some p := hp
  rw [← List.append_nil (encode _)] at hrecv
  have hout := (receive_outcome hf hn hdest hreq hrecv).1
  have hnode : p.hasNode = true := (reach_inv (NodeReach.addObject o hreach hadd)).node p (destObj_mem hp)
  unfold dataOf at hd6
  cases hq : p.getProperty 0xD6 with
  | none => rw [hq] at hd6; simp at hd6
  | some q =>
    rw [hq] at hd6
    simp only [Option.map_some, Option.some.injEq] at hd6
    have hall : AllGranted p (searchFrame t (0x0E, 0xF0, 0x01) 0x62) := by
      unfold AllGranted searchFrame
      simp only
      rw [if_neg (by decide)]
      intro x hx
      simp only [List.mem_singleton] at hx; subst hx
      simp only [granted, hq, hacc]
    have hone : AtMostOneEach (searchFrame t (0x0E, 0xF0, 0x01) 0x62) := by
      unfold AtMostOneEach searchFrame; simp
    have hesv : outEsv p (searchFrame t (0x0E, 0xF0, 0x01) 0x62) = some 0x72 := by
      simp only [outEsv, (allAccepted_iff hf).2 ⟨hone, hall⟩, responseEsv_true hreq]
      rfl
    simp only [hnode, if_true, hesv, Option.map_some] at hout
    refine ⟨respFrame p (searchFrame t (0x0E, 0xF0, 0x01) 0x62) 0x72, rfl, ?_, ?_⟩
    · obtain ⟨pre, h1, _⟩ := hout
      rw [h1]
      simp [respFrame]
    · have hbody : (respFrame p (searchFrame t (0x0E, 0xF0, 0x01) 0x62) 0x72).body =
          .plain [(0xD6, instanceListData (instances n))] := by
        simp only [respFrame, outBody, searchFrame]
        rw [runRes_read (by decide)]
        simp only [readSection, List.map_cons, List.map_nil, hq, hacc, if_true, hd6]
      have hlen := instanceListData_length (instances n)
      have hwf : (respFrame p (searchFrame t (0x0E, 0xF0, 0x01) 0x62) 0x72).WF := by
        unfold Frame.WF
        rw [hbody]
        refine ⟨show ¬ IsSetGet 0x72 by decide, by simp, ?_⟩
        intro x hx
        simp only [List.mem_singleton] at hx; subst hx
        simp only; rw [hlen]; omega
      have hs : SearchAnswer (respFrame p (searchFrame t (0x0E, 0xF0, 0x01) 0x62) 0x72)
          (instanceListData (instances n)) := ⟨.inl rfl, hbody⟩
      intro c c' h h' ev orc loc2 hc hnone hrc
      rw [← List.append_nil (encode _)] at hrc
      obtain ⟨⟨m, hm1, hm2⟩, _⟩ := C52_listed_instances hc orc loc2 b _ _ hwf hs (by simp [instanceListData]) _ hrc
      rw [hnone] at hm2
      refine ⟨m, hm1, ?_⟩
      simp only at hm2
      rw [hm2]
      have hlc : listedCodes (instanceListData (instances n)) = instances n := by
        unfold listedCodes instanceListData
        rw [List.drop_succ_cons, List.drop_zero, List.take_of_length_le (by omega), triples_flat]
      have hnd : (instances n).Nodup := by
        have := (reach_inv (NodeReach.addObject o hreach hadd)).codes
        exact List.Nodup.sublist List.filter_sublist this
      rw [hlc, firsts_of_nodup hnd]
      congr 1
      rw [List.filter_eq_self]
      intro x hx
      have := (List.mem_filter.1 hx).2
      simp only [decide_eq_true_eq, ne_eq] at this ⊢
      rintro rfl; exact this rfl

/-- non-vacuity: `yNode` is reachable by a successful addition, has one instance, all handlers are set and its
profile has no handler for 0xD6; handling the search is defined -/
example : (instances yNode).length ≤ 84 ∧ (nodeClasses yNode).length < 65536 ∧ HandlersSet yNode ∧
    (∃ p, destObj yNode profileEoj = some p ∧ p.observers = []) ∧
    ∃ n' eff, yNode.receive .little none (some "10.0.0.9")
      (encode (searchFrame (1, 0) (0x0E, 0xF0, 0x01) 0x62)) = .ok (n', eff) := by
  have h : instances yNode = [(0x01, 0x30, 0x01)] := by with_unfolding_all rfl
  have h2 : nodeClasses yNode = [(0x0E, 0xF0), (0x01, 0x30)] := by with_unfolding_all rfl
  have hobs : ∀ o ∈ yNode.objs, o.observers = [] := by
    have h3 : yNode.objs.map (·.observers) = [[], []] := by with_unfolding_all rfl
    intro o ho
    have := List.mem_map_of_mem (f := fun o : Obj => o.observers) ho
    rw [h3] at this; simpa using this
  have hset : HandlersSet yNode := by
    intro o ho x hx
    rw [hobs o ho] at hx; simp at hx
  rw [h, h2]
  refine ⟨by decide, by decide, hset, ?_, ?_⟩
  · cases hd : destObj yNode profileEoj with
    | none =>
      have : (destObj yNode profileEoj).isSome = true := by with_unfolding_all rfl
      rw [hd] at this; simp at this
    | some p => exact ⟨p, rfl, hobs p (destObj_mem hd)⟩
  · exact C66_receive_safe_partial .little yNode none "10.0.0.9" _ hset

/-! ## C70 -/

/-- **C70 violated.** A read that failed erases the cached value: the error response (0x52) to a read request has the
property with empty data, and the controller stores that. -/
theorem C70_failed_read_erases_violated {e : Endian} {db : Db} {c c' : Ctrl} {h h' : Heap} {ev : List CEvent}
    (hc : CtrlReach e db c) (orc : Oracle) (loc : Option String) (a : String) (t : Byte × Byte)
    (src dst : Byte × Byte × Byte) (k : Byte) (d : List Byte) (hdst : dst ∈ eojs c.node) (n : Node) (o : Obj)
    (hn : c.getNode (some a) = some n) (ho : destObj n src = some o) (hold : dataOf o k = some d)
    (hr : c.receive e db orc h loc (some a) (encode ⟨t, src, dst, 0x52, .plain [(k, [])]⟩) = .ok (c', h', ev)) :
    ∃ n' o', c'.getNode (some a) = some n' ∧ destObj n' src = some o' ∧ dataOf o' k = some [] := by
  have hf : Frame.WF ⟨t, src, dst, 0x52, .plain [(k, [])]⟩ := by
    refine ⟨show ¬ IsSetGet 0x52 by decide, by simp, ?_⟩
    intro q hq; simp only [List.mem_singleton] at hq; subst hq; simp
  rw [← List.append_nil (encode _)] at hr
  obtain ⟨⟨n', o', g1, g2, g3, _⟩, _⟩ := C53_cache_partial hc orc loc a _ hf (by simp [Reports])
    (fun d h => absurd h.1 (show ¬ ((0x52 : Byte) = 0x72 ∨ (0x52 : Byte) = 0x73 ∨ (0x52 : Byte) = 0x7A) by decide))
    hdst n o hn ho [] hr
  refine ⟨n', o', g1, g2, ?_⟩
  rw [g3 k (.inr (by simp [reported, hold]))]
  simp [reported, lastOf]

/-- non-vacuity: the cached 0xB0 of the example device, before and after -/
example :
    let c1 := kGet (kRecv kCtrl "10.0.0.2" (kInf [(0xB0, [0x41])]))
    let c2 := kGet (kRecv c1 "10.0.0.2" { kInf [(0xB0, [])] with esv := 0x52 })
    kData c1 0xB0 = some [0x41] ∧ kData c2 0xB0 = some [] :=
  ⟨by with_unfolding_all rfl, by with_unfolding_all rfl⟩

/-! ## C71 -/

/-- **C71** (partial: no null handlers in the local node; while the post pointers are set they point to live
messages). Whatever datagram arrives, handling it has defined behaviour. -/
theorem C71_receive_safe_partial {e : Endian} {db : Db} {c : Ctrl} (hc : CtrlReach e db c) (orc : Oracle) (h : Heap)
    (loc : Option String) (a : String) (data : List Byte) (hn : HandlersSet c.node)
    (hpost : ∀ r s, c.postReq = some r → c.postRes = some s →
      (∃ m, h r = some m) ∧ ∃ m, h s = some m ∧ Reachable e m) :
    ∃ c' h' ev, c.receive e db orc h loc (some a) data = .ok (c', h', ev) := by
  have hv := reach_cinv hc
  cases hd : decode data with
  | none => exact ⟨_, _, _, receive_bad e db orc c h loc a hd⟩
  | some x =>
    obtain ⟨f, rest⟩ := x
    obtain ⟨rfl, hf⟩ := decode_sound hd
    obtain ⟨n1, eff, g1⟩ := C66_receive_safe_partial e c.node loc a (encode f ++ rest) hn
    have hid := receive_ids e g1
    rw [receive_parsed e c.node loc a hf rest] at g1
    have hv1 : CInv { c with node := n1 } := ⟨hv.node, hv.addr, hv.nodup⟩
    have hpost1 : ∃ x, Ctrl.servePost e { c with node := n1 } h (reqMsg f (some a)) = .ok x := by
      unfold Ctrl.servePost
      split
      · unfold Ctrl.handlePost
        split
        · rename_i r s hr hs
          obtain ⟨⟨m1, h1⟩, m2, h2, h3⟩ := hpost r s hr hs
          simp only [h1, h2]
          split
          · have hreq : Inv (reqMsg f (some a)) := by
              have := inv_parsed inv_new hf
              exact ⟨⟨this.ep, this.epSet, this.epGet⟩, this.ehd1, this.ehd2⟩
            rw [setFrom_eq e (reachable_inv h3).toMsgWF hreq.toMsgWF]
            exact ⟨_, rfl⟩
          · exact ⟨_, rfl⟩
        · exact ⟨_, rfl⟩
      · exact ⟨_, rfl⟩
    obtain ⟨⟨h', s2⟩, hp⟩ := hpost1
    rw [receive_eq e db orc c h loc a hf rest, g1]
    simp only [Res.bind_ok]
    by_cases hs : ∃ d, SearchAnswer f d
    · obtain ⟨d, hs⟩ := hs
      rw [listener_search e db orc _ h hs, hp]
      simp only [Res.bind_ok]
      by_cases hdn : d = []
      · subst hdn
        rw [handleSearch_nil e db orc _ hs]
        exact ⟨_, _, _, rfl⟩
      · rcases handleSearch_spec e db orc hv1 hs hdn a with ⟨i, n, n', _, _, _, k, _⟩ | ⟨n', _, _, k, _⟩
        · rw [k]; exact ⟨_, _, _, rfl⟩
        · rw [k]; exact ⟨_, _, _, rfl⟩
    · have hs : ∀ d, ¬ SearchAnswer f d := fun d h => hs ⟨d, h⟩
      rw [listener_other e db orc _ h hf hs, hp]
      simp only [Res.bind_ok]
      by_cases hdst : f.deoj ∈ eojs n1
      · rw [if_pos hdst]
        rcases nodeIdx_spec hv1 a with ⟨_, j, _⟩ | ⟨i, n, _, j, j1, j2⟩
        · rw [j]; exact ⟨_, _, _, rfl⟩
        · rw [j]
          obtain ⟨n', u, k1, _⟩ := handleNode_spec e orc hv1 hf (i := i) (n := n) (a := a) j1 j2
          simp only [k1, Res.bind_ok]
          exact ⟨_, _, _, rfl⟩
      · rw [if_neg hdst]; exact ⟨_, _, _, rfl⟩

/-- non-vacuity: the example controller is not waiting; its node has no handlers -/
example : HandlersSet kCtrl.node ∧ kCtrl.postRes = none := by
  have h1 : kCtrl.node.objs.map (·.observers) = [[], []] := by with_unfolding_all rfl
  refine ⟨?_, by with_unfolding_all rfl⟩
  intro o ho x hx
  have := List.mem_map_of_mem (f := fun o : Obj => o.observers) ho
  rw [h1] at this
  simp at this
  rw [this] at hx; simp at hx

/-! ## C76 -/

theorem node_receive_bad (e : Endian) (n : Node) (loc : Option String) (a : String) {data : List Byte}
    (hd : decode data = none) : n.receive e loc (some a) data = .ok (n, []) := by
  have h' := parse_spec (m := Message.new) inv_new.toMsgWF data _ (Nat.le_refl _)
  rw [List.take_length, hd] at h'
  obtain ⟨m', h', _⟩ := h'
  unfold Node.receive Message.parsePacket
  rw [h']; rfl

/-- **C76.** Whatever datagram a controller receives, its local node ends up in the state, and hands to the network the
frames, of a node that receives that datagram; and the message listener of the controller is called once if
it is set and the datagram is a frame, otherwise never. -/
theorem C76_local_node {e : Endian} {db : Db} {c c' : Ctrl} {h h' : Heap} {ev : List CEvent} (orc : Oracle)
    (loc : Option String) (a : String) (data : List Byte)
    (hr : c.receive e db orc h loc (some a) data = .ok (c', h', ev)) :
    c.node.receive e loc (some a) data = .ok (c'.node, nodeEffects ev) ∧
    ev.count .message = if c.hasMsgListener = true ∧ decode data ≠ none then 1 else 0 := by
  cases hd : decode data with
  | none =>
    rw [receive_bad e db orc c h loc a hd] at hr
    simp only [Res.ok.injEq, Prod.mk.injEq] at hr
    obtain ⟨rfl, _, rfl⟩ := hr
    exact ⟨node_receive_bad e c.node loc a hd, by simp⟩
  | some x =>
    obtain ⟨f, rest⟩ := x
    obtain ⟨rfl, hf⟩ := decode_sound hd
    obtain ⟨n1, eff, s2, ev3, g1, g2, g3, rfl, g5⟩ := (recv e db orc hf hr).more
    have hs2 := servePost_events e g3
    refine ⟨?_, ?_⟩
    · rw [receive_parsed e c.node loc a hf rest, g1, g2]
      rw [nodeEffects_append, nodeEffects_append, nodeEffects_append, nodeEffects_node, nodeEffects_msgPart,
        nodeEffects_status g5]
      rcases hs2 with rfl | rfl <;> simp [nodeEffects]
    · have c1 : (eff.map CEvent.node).count .message = 0 := by
        rw [List.count_eq_zero]; intro hm; obtain ⟨_, _, hm⟩ := List.mem_map.1 hm; cases hm
      have c3 : ev3.count .message = 0 := by
        rw [List.count_eq_zero]; intro hm; obtain ⟨_, _, hm⟩ := g5 _ hm; cases hm
      have c2 : s2.count .message = 0 := by rcases hs2 with rfl | rfl <;> rfl
      simp only [List.count_append, c1, c2, c3]
      unfold msgPart
      cases c.hasMsgListener <;> simp

example : ∃ c' h' ev, kRecv (kCtrl.setMessageListener true) "10.0.0.2" kList = .ok (c', h', ev) ∧ ev.count .message = 1 :=
  ⟨_, _, _, by with_unfolding_all rfl, by with_unfolding_all rfl⟩

/-! ## C72 -/

/-- **C72 violated.** A search for an object goes to the destination 0x0000nn, where nn is the last byte of the
object code: the parameter is one byte wide. So no search ever reaches an object whose class group or class is
not zero. -/
theorem C72_search_object_violated (e : Endian) (c : Ctrl) (p : Obj) (hp : destObj c.node profileEoj = some p)
    (code esv : Byte) (hesv : ¬ IsSetGet esv) :
    ∃ c' t, c.searchObjectWithEsv e code esv = .ok (c', [.node (sends none (searchFrame t (0, 0, code) esv))]) := by
  unfold Ctrl.searchObjectWithEsv Ctrl.announceMessage
  rw [searchNew_eq]
  have hz : Message.eojOfCode (code.setWidth 32) = .ok (0, 0, code) := by
    have : (code.setWidth 32 : CInt) = BitVec.ofNat 32 (eojNat (0, 0, code)) := by
      apply BitVec.eq_of_toNat_eq
      have := code.isLt
      simp [eojNat]
    rw [this, eojOfCode_eq]
  simp only [Res.bind_ok, Message.setDestinationObjectCode, hz, Res.pure_eq]
  rw [announceMessage_eq e c.node ⟨⟨rfl, rfl, rfl⟩, rfl, rfl⟩, hp]
  simp only [Res.bind_ok, Res.pure_eq, List.map_cons, List.map_nil]
  refine ⟨{ c with node := c.node.nextTid }, tidBytes e (nextT c.node.lastTid), ?_⟩
  have : ∀ m : Message, m.esv = esv → m.ep = [{ Property.new with code := 0xD6 }] →
      toFrame m = ⟨(m.tid0, m.tid1), m.seoj, m.deoj, esv, .plain [(0xD6, [])]⟩ := by
    intro m h1 h2
    unfold toFrame
    rw [h1, if_neg hesv, h2]; rfl
  rw [this _ rfl rfl]
  rfl

/-- non-vacuity: the controller of the examples has a node profile -/
example : (destObj kCtrl.node profileEoj).isSome = true := by with_unfolding_all rfl

end Uecho.Props
