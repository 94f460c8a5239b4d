import Verif.Lemmas.Node
import Verif.Props.Listener
import Verif.Props.Message
/-!
# Properties C26–C29, C42–C44, C64: nodes

Specification: `Spec.NodeApi`.
-/
set_option linter.unusedSimpArgs false
namespace Uecho.Props
open Uecho Uecho.Spec Uecho.Lemmas

/-! ## A reachable node used in the examples

A new node (with an empty standard database) to which the device 0x013001 has been added. -/

def yDevice : Obj :=
  { Obj.new with
    grp := 0x01, cls := 0x30, ins := 0x01,
    props := [{ Property.new with code := 0x80, attr := 0x53, data := [0x30], hasParent := true }] }
def getNode : Res (Node × List Effect × Bool) → Node
  | .ok (n, _) => n
  | .ub => ⟨[], [], 0, none, [], false⟩
def yNode0 : Node := match Node.new .little [] (fun _ => 0) (fun _ => 0) 0 with
  | .ok (n, _) => n
  | .ub => ⟨[], [], 0, none, [], false⟩
def yNode : Node := getNode (yNode0.addObject .little yDevice)

theorem yNode0_reach : NodeReach .little [] yNode0 :=
  .new (eff := []) (fun _ => 0) (fun _ => 0) 0 (by with_unfolding_all rfl)
theorem yNode_add : yNode0.addObject .little yDevice = .ok (yNode, [], true) := by with_unfolding_all rfl
theorem yNode_reach : NodeReach .little [] yNode := .addObject _ yNode0_reach yNode_add

/-! ## C26 -/

/-- The objects of a node have pairwise distinct codes, after any history. -/
theorem C26_unique_codes {e : Endian} {db : Db} {n : Node} (h : NodeReach e db n) :
    (n.objs.map objEoj).Nodup := (reach_inv h).codes

/-- non-vacuity: a reachable node with two objects -/
example : NodeReach .little [] yNode ∧ yNode.objs.map objEoj = [(0x0E, 0xF0, 0x01), (0x01, 0x30, 0x01)] :=
  ⟨yNode_reach, by with_unfolding_all rfl⟩

/-- Adding an object whose code is already there returns false, changes nothing and sends nothing. -/
theorem C26_duplicate_refused (e : Endian) (n : Node) (o : Obj) (h : ∃ y ∈ n.objs, objEoj y = objEoj o) :
    n.addObject e o = .ok (n, [], false) := addObject_dup e h

/-- non-vacuity: the device is already in the node -/
example : ∃ y ∈ yNode.objs, objEoj y = objEoj yDevice :=
  ⟨{ yDevice with hasNode := true }, by
    have : yNode.objs[1]? = some { yDevice with hasNode := true } := by with_unfolding_all rfl
    exact List.mem_of_getElem? this, rfl⟩

/-- `uecho_node_setobject` with a code that is already there changes nothing (and returns true). -/
theorem C26_setobject_existing (e : Endian) (db : Db) (junk : Nat → Byte) (n : Node) (x : Byte × Byte × Byte)
    (h : ∃ y ∈ n.objs, objEoj y = x) :
    n.setObject e db junk (BitVec.ofNat 32 (eojNat x)) = .ok (n, [], true) := by
  unfold Node.setObject
  obtain ⟨y, hy, rfl⟩ := h
  have := (hasObject_iff n y).2 ⟨y, hy, rfl⟩
  rw [getCode_ofNat] at this
  rw [if_pos this]

/-- Adding an object with a new code to a node that has its profile succeeds: the object is appended and
all other objects stay, except that the profile's five list properties are refreshed. -/
theorem C26_add {e : Endian} {db : Db} {n : Node} (h : NodeReach e db n) {p : Obj}
    (hp : destObj n profileEoj = some p) (o : Obj) (ho : ∀ y ∈ n.objs, objEoj y ≠ objEoj o) :
    ∃ n' eff i p', n.addObject e o = .ok (n', eff, true) ∧
      n.objs[i]? = some p ∧ n'.objs = n.objs.set i p' ++ [{ o with hasNode := true }] ∧
      (∀ c, c ∉ [0xD3#8, 0xD4#8, 0xD5#8, 0xD6#8, 0xD7#8] → p'.getProperty c = p.getProperty c) ∧
      n'.objs.map objEoj = n.objs.map objEoj ++ [objEoj o] := by
  have hi := reach_inv h
  have hd : destObj (appended n o) profileEoj = some p := by
    unfold destObj appended at *
    simp only [List.find?_append, hp, Option.some_or]
  obtain ⟨i, p', eff, t, h1, h2, h3, h4, _, _, _, _, _, h5⟩ :=
    updateProfile_some e hd (hi.node p (destObj_mem hp))
  have hlt : i < n.objs.length := by
    rcases Nat.lt_or_ge i n.objs.length with h | h
    · exact h
    · exfalso
      have hm : p ∈ n.objs := destObj_mem hp
      obtain ⟨j, hj, hje⟩ := List.mem_iff_getElem.1 hm
      refine h2 j p (by omega) ?_ (destObj_code hp)
      unfold appended
      simp only
      rw [List.getElem?_append_left hj]
      exact List.getElem?_eq_some_iff.2 ⟨hj, hje⟩
  have h1' : n.objs[i]? = some p := by
    unfold appended at h1; simp only at h1
    rwa [List.getElem?_append_left hlt] at h1
  refine ⟨_, eff, i, p', by rw [addObject_new e ho]; exact h4, h1', ?_, h5, ?_⟩
  · simp only [appended]
    rw [List.set_append_left _ _ hlt]; rfl
  · have := (SameIds.set (t := t) h1 ⟨h3.eoj, h3.node⟩).eojs
    rw [this]; simp [appended, Obj.setParentNode, objEoj]

/-- non-vacuity: `yNode_add` is an instance: the profile is there, the device is new -/
example : (destObj yNode0 profileEoj).isSome = true ∧ yNode0.objs.map objEoj = [(0x0E, 0xF0, 0x01)] :=
  ⟨by with_unfolding_all rfl, by with_unfolding_all rfl⟩

/-- Looking up the code of an object of the node finds that object. -/
theorem C26_lookup {e : Endian} {db : Db} {n : Node} (h : NodeReach e db n) (o : Obj) (ho : o ∈ n.objs) :
    n.getObject o.getCode = some o := by
  rw [getCode_ofNat, getObject_dest]
  have hi := (reach_inv h).codes
  unfold destObj
  generalize n.objs = l at ho hi
  induction l with
  | nil => simp at ho
  | cons y ys ih =>
    rw [List.find?_cons]
    rcases List.mem_cons.1 ho with rfl | hm
    · simp
    · simp only [List.map_cons, List.nodup_cons] at hi
      have : (objEoj y == objEoj o) = false := by
        rw [beq_eq_false_iff_ne]; intro hc; rw [hc] at hi
        exact hi.1 (List.mem_map_of_mem hm)
      rw [this]; exact ih hm hi.2

/-! ## C27 -/

/-- The class list is the list of the classes of the objects, each once, in order of first appearance. -/
theorem C27_class_list {e : Endian} {db : Db} {n : Node} (h : NodeReach e db n) :
    n.classes.map (fun c => (c.grp, c.cls)) = nodeClasses n := (reach_inv h).classes

/-- `uecho_node_hasclassbycode` answers whether some object has that class. -/
theorem C27_has_class {e : Endian} {db : Db} {n : Node} (h : NodeReach e db n) (v : CInt) :
    n.hasClass v = true ↔ ∃ o ∈ n.objs, v.toNat = classNat o := by
  have hc := (reach_inv h).classes
  unfold Node.hasClass Class.find
  rw [List.find?_isSome]
  constructor
  · rintro ⟨c, hm, hv⟩
    have : (c.grp, c.cls) ∈ nodeClasses n := by rw [← hc]; exact List.mem_map.2 ⟨c, hm, rfl⟩
    unfold nodeClasses at this
    rw [firsts_mem] at this
    obtain ⟨o, ho, he⟩ := List.mem_map.1 this
    simp only [Prod.mk.injEq] at he
    refine ⟨o, ho, ?_⟩
    rw [beq_iff_eq] at hv
    rw [← hv, classGetCode_toNat, classNat, he.1, he.2]
  · rintro ⟨o, ho, hv⟩
    have : (o.grp, o.cls) ∈ nodeClasses n := by
      unfold nodeClasses; rw [firsts_mem]; exact List.mem_map.2 ⟨o, ho, rfl⟩
    rw [← hc] at this
    obtain ⟨c, hm, he⟩ := List.mem_map.1 this
    simp only [Prod.mk.injEq] at he
    refine ⟨c, hm, ?_⟩
    rw [beq_iff_eq]
    apply BitVec.eq_of_toNat_eq
    rw [classGetCode_toNat, hv, classNat, he.1, he.2]

/-- No class appears twice. -/
theorem C27_no_duplicates {e : Endian} {db : Db} {n : Node} (h : NodeReach e db n) :
    n.classes.Nodup ∧ n.classCount = (nodeClasses n).length := by
  have hc := (reach_inv h).classes
  constructor
  · have : (n.classes.map (fun c => (c.grp, c.cls))).Nodup := by rw [hc]; exact firsts_nodup _
    exact List.Pairwise.of_map _ (fun a b hab he => hab (by rw [he])) this
  · unfold Node.classCount; rw [← hc, List.length_map]

/-- non-vacuity: the example node has the classes 0x0EF0 and 0x0130 and no other -/
example : yNode.hasClass 0x0EF0 = true ∧ yNode.hasClass 0x0130 = true ∧ yNode.hasClass 0x0131 = false :=
  ⟨by with_unfolding_all rfl, by with_unfolding_all rfl, by with_unfolding_all rfl⟩

/-! ## C28 -/

/-- After every successful addition the node profile describes the node. (The class count includes the
class of the node profile itself, the class list does not; both lists stop at 255 entries.) -/
theorem C28_profile_describes_node {e : Endian} {db : Db} {n n' : Node} {o : Obj} {eff : List Effect}
    (h : NodeReach e db n) (ha : n.addObject e o = .ok (n', eff, true))
    (hic : (instances n').length < 16777216) (hcc : (nodeClasses n').length < 65536) :
    ∃ p, destObj n' profileEoj = some p ∧
      IsNumber 3 (instances n').length (dataOf p 0xD3) ∧
      IsNumber 2 (nodeClasses n').length (dataOf p 0xD4) ∧
      dataOf p 0xD5 = some (instanceListData (instances n')) ∧
      dataOf p 0xD6 = some (instanceListData (instances n')) ∧
      dataOf p 0xD7 = some (classListData ((nodeClasses n').filter fun x => x.1 ≠ 0x0E)) := by
  have hreach : NodeReach e db n' := .addObject o h ha
  have hids := addObject_ids e ha
  rcases hids with ⟨_, _, hr, _⟩ | ⟨hnew, hids⟩
  · simp at hr
  rw [addObject_new e hnew] at ha
  have hinv := appended_inv (reach_inv h) hnew
  cases hd : destObj (appended n o) profileEoj with
  | none => rw [updateProfile_none e hd] at ha; simp at ha
  | some p =>
    obtain ⟨i, p', eff', t, h1, h2, h3, h4, h5, h6, h7, h8, h9, _⟩ :=
      updateProfile_some e hd (hinv.node p (destObj_mem hd))
    rw [h4] at ha
    simp only [Res.ok.injEq, Prod.mk.injEq] at ha
    have hins : instances n' = instances (appended n o) := by unfold instances; rw [hids.eojs]
    have hcls : nodeClasses n' = (appended n o).classes.map (fun c => (c.grp, c.cls)) := by
      rw [hids.classOf, hinv.classes]
    refine ⟨p', ?_, ?_, ?_, ?_, ?_, ?_⟩
    · rw [← ha.1]
      unfold destObj
      simp only
      have hp' : objEoj p' = profileEoj := by rw [h3.eoj]; exact destObj_code hd
      have hi : i < (appended n o).objs.length := (List.getElem?_eq_some_iff.1 h1).1
      generalize (appended n o).objs = l at h1 h2 hi
      clear h4 ha h5 h6 h7 h8 h9
      induction l generalizing i with
      | nil => simp at hi
      | cons y ys ih =>
        cases i with
        | zero => simp [hp']
        | succ i =>
          have hy : (objEoj y == profileEoj) = false := by
            rw [beq_eq_false_iff_ne]; exact h2 0 y (by omega) (by simp)
          rw [List.set_cons_succ, List.find?_cons, hy]
          exact ih i (by simpa using h1) (fun j z hj hz => h2 (j + 1) z (by omega) (by simpa using hz))
            (by simpa using hi)
    · rw [hins] at hic ⊢; rwa [Nat.mod_eq_of_lt hic] at h6
    · rw [hcls, List.length_map] at hcc ⊢; rwa [Nat.mod_eq_of_lt hcc] at h5
    · rw [hins]; exact h9
    · rw [hins]; exact h8
    · rw [hcls]; exact h7

/-- non-vacuity: the profile of the example node -/
example : ∃ p, destObj yNode profileEoj = some p ∧ dataOf p 0xD6 = some [1, 0x01, 0x30, 0x01] ∧
    dataOf p 0xD3 = some [0, 0, 1] ∧ dataOf p 0xD4 = some [0, 2] ∧ dataOf p 0xD7 = some [1, 0x01, 0x30] := by
  cases h : destObj yNode profileEoj with
  | none =>
    have : (destObj yNode profileEoj).isSome = true := by with_unfolding_all rfl
    rw [h] at this; simp at this
  | some p =>
    refine ⟨p, rfl, ?_⟩
    have hm : ∀ c, (destObj yNode profileEoj).bind (dataOf · c) = dataOf p c := by intro c; rw [h]; rfl
    rw [← hm, ← hm, ← hm, ← hm]
    exact ⟨by with_unfolding_all rfl, by with_unfolding_all rfl, by with_unfolding_all rfl,
      by with_unfolding_all rfl⟩

/-! ## C29 -/

theorem instanceListData_length (xs : List (Byte × Byte × Byte)) :
    (instanceListData xs).length = 3 * min 255 xs.length + 1 := by
  unfold instanceListData
  rw [List.length_cons, flatMap_len _ 3 (fun _ => rfl), List.length_take]; omega

/-- With at most 84 instances a message carrying the instance list is parsed back to the same list. -/
theorem C29_list_fits_partial (e : Endian) (m m0 : Message) (hm : Reachable e m) (hm0 : Reachable e m0)
    (c : Byte) (xs : List (Byte × Byte × Byte)) (hx : xs.length ≤ 84) (hs : m.epSet = []) (hg : m.epGet = [])
    (hb : view m.ep = [(c, instanceListData xs)]) :
    ∃ bytes : List Byte, m.getBytes = .ok (bytes.map some) ∧
      ∃ m', m0.parse bytes bytes.length = .ok (true, m') ∧ toFrame m' = toFrame m := by
  have hd : DataFits m := by
    intro p hp
    rw [hs, hg] at hp
    rcases hp with hp | hp | hp
    · have : (p.code, p.data) ∈ view m.ep := List.mem_map.2 ⟨p, hp, rfl⟩
      rw [hb, List.mem_singleton] at this
      simp only [Prod.mk.injEq] at this
      rw [this.2, instanceListData_length]; omega
    · simp at hp
    · simp at hp
  obtain ⟨bytes, h1, m', h2, h3, _⟩ := C02_serialise_parse e m m0 hm hm0 hd
  exact ⟨bytes, h1, m', h2, h3⟩

/-- With 85 or more instances no receiver gets the list back: the one-byte length of the property
overflows. There is no byte string at all, in particular not the one `uecho_message_getbytes` gives, that
is parsed to the message with the whole list. -/
theorem C29_long_list_lost_violated (e : Endian) (m m0 : Message) (hm0 : Reachable e m0)
    (c : Byte) (xs : List (Byte × Byte × Byte)) (hx : 85 ≤ xs.length) (hns : ¬ IsSetGet m.esv)
    (hb : view m.ep = [(c, instanceListData xs)]) (bytes : List Byte) :
    ¬ ∃ m', m0.parse bytes bytes.length = .ok (true, m') ∧ toFrame m' = toFrame m := by
  rintro ⟨m', h1, h2⟩
  have hi0 := reachable_inv hm0
  have hs := parse_spec hi0.toMsgWF bytes _ (Nat.le_refl _)
  cases hd : decode (bytes.take bytes.length) with
  | none => rw [hd] at hs; obtain ⟨m2, hs, _⟩ := hs; rw [h1] at hs; simp at hs
  | some x =>
    obtain ⟨f, r⟩ := x
    rw [hd] at hs
    simp only at hs
    rw [h1] at hs
    simp only [Res.ok.injEq, Prod.mk.injEq, true_and] at hs
    obtain ⟨_, hf⟩ := decode_sound hd
    rw [hs, toFrame_parsed hf] at h2
    rw [h2] at hf
    unfold Frame.WF toFrame at hf
    rw [if_neg hns] at hf
    simp only [hb] at hf
    have := hf.2.2 (c, instanceListData xs) (by simp)
    rw [instanceListData_length] at this
    omega

/-- non-vacuity: a message with an instance list of any length -/
example (xs : List (Byte × Byte × Byte)) : ∃ m, Reachable .little m ∧ ¬ IsSetGet m.esv ∧ m.epSet = [] ∧
    m.epGet = [] ∧ view m.ep = [(0xD6#8, instanceListData xs)] ∧ ∃ bytes : List Byte, m.getBytes = .ok (bytes.map some) := by
  have h0 : Reachable .little Message.new := .new
  have hadd := addProperty_eq (m := Message.new) { Property.new with code := 0xD6, data := instanceListData xs }
    rfl (by change (0:Nat) < 255; omega)
  have hr := Reachable.setEsv (Reachable.addProperty h0 _ hadd) 0x73
  have hi := reachable_inv hr
  exact ⟨_, hr, show ¬ IsSetGet 0x73 by decide, rfl, rfl, rfl, _, getBytes_eq hi.toMsgWF⟩

/-! ## C42 -/

/-- Setting non-empty data of an announceable property that knows its object, of an object in a node that
has its profile: exactly one multicast 0x73 frame with the property and its new data, with the next TID. -/
theorem C42_announced_once_partial (e : Endian) (n : Node) (i : Nat) (o : Obj) (p : Property) (c : Byte)
    (d : List Byte) (hi : n.objs[i]? = some o) (hn : o.hasNode = true) (hp : (destObj n profileEoj).isSome = true)
    (hc : o.getProperty c = some p) (ha : CanAnnounce p) (hpar : p.hasParent = true) (hd : d ≠ []) :
    ∃ n' t deoj seoj, n.onObj e i (fun o => .ok (o.setPropertyData c d)) =
        .ok (n', [sends none ⟨t, seoj, deoj, 0x73, .plain [(c, d)]⟩]) ∧
      tidNat e t = succTid n.lastTid.toNat ∧ n'.lastTid.toNat = succTid n.lastTid.toNat ∧
      ∃ o', n'.objs = n.objs.set i o' ∧ o'.getProperty c = some { p with data := d } ∧
        ∀ k, k ≠ c → o'.getProperty k = o.getProperty k := by
  have hann : (o.setPropertyData c d).2 = [{ p with data := d }] := by
    simp only [Obj.setPropertyData, PropertyList.setData, getByCode_snd, ann_setData_eq]
    rw [target_some hc, if_pos ⟨hd, ha, hpar⟩]
  refine ⟨{ n with objs := n.objs.set i (o.setPropertyData c d).1, lastTid := nextT n.lastTid },
    tidBytes e (nextT n.lastTid), profileEoj, profileEoj, ?_, tidNat_next e _, nextT_toNat _,
    (o.setPropertyData c d).1, rfl, ?_, ?_⟩
  · unfold Node.onObj
    rw [hi]
    simp only [Res.bind_ok]
    rw [hann, announceAll_eq, destObj_set hi (by rfl)]
    have hn' : (o.setPropertyData c d).1.hasNode = true := hn
    rw [hn', hp]
    simp only [if_true, annEff, annFrame]
    rw [show p.code = c from find_code hc]
    rfl
  · rw [setPropertyData_get, if_pos rfl]
    rw [target_some hc]
  · intro k hk; rw [setPropertyData_get, if_neg hk]

/-- Any other data setting sends nothing. -/
theorem C42_otherwise_silent (e : Endian) (n n' : Node) (i : Nat) (o : Obj) (c : Byte) (d : List Byte)
    (eff : List Effect) (hi : n.objs[i]? = some o)
    (hno : d = [] ∨ o.hasNode = false ∨ o.getProperty c = none ∨ ∃ p, o.getProperty c = some p ∧ ¬ CanAnnounce p)
    (h : n.onObj e i (fun o => .ok (o.setPropertyData c d)) = .ok (n', eff)) :
    eff = [] ∧ n'.lastTid = n.lastTid := by
  unfold Node.onObj at h
  rw [hi] at h
  simp only [Res.bind_ok] at h
  rw [announceAll_eq, destObj_set hi (by rfl)] at h
  have hn' : (o.setPropertyData c d).1.hasNode = o.hasNode := rfl
  rw [hn'] at h
  cases hnode : o.hasNode with
  | false =>
    rw [hnode] at h; simp at h
    rw [← h.1]; exact ⟨h.2, rfl⟩
  | true =>
    have hann : (o.setPropertyData c d).2 = [] := by
      simp only [Obj.setPropertyData, PropertyList.setData, getByCode_snd, ann_setData_eq]
      rw [if_neg]
      rintro ⟨h1, h2, h3⟩
      rcases hno with h4 | h4 | h4 | ⟨p, h4, h5⟩
      · exact h1 h4
      · rw [hnode] at h4; simp at h4
      · rw [target_none h4] at h3; simp [Property.new, Property.setCode] at h3
      · rw [target_some h4] at h2; exact h5 h2
    rw [hnode, hann] at h
    simp [iterT, annEff] at h
    rw [← h.1]; exact ⟨h.2, rfl⟩

/-- A property that came into being through `uecho_object_setpropertyattribute` does not know its object:
although it is announceable and its object belongs to a node, setting its data announces nothing. -/
theorem C42_unparented_not_announced_violated (e : Endian) (n n' : Node) (i : Nat) (o : Obj) (c : Byte) (attr : CInt)
    (d : List Byte) (eff : List Effect) (hnew : o.getProperty c = none)
    (hi : n.objs[i]? = some (o.setPropertyAttribute c attr))
    (h : n.onObj e i (fun o => .ok (o.setPropertyData c d)) = .ok (n', eff)) :
    (∃ p, (o.setPropertyAttribute c attr).getProperty c = some p ∧ p.attr = attr) ∧ eff = [] := by
  have hg : (o.setPropertyAttribute c attr).getProperty c =
      some { target o.props c with attr := attr } := by
    have := find_setAttribute o.props c c attr
    rw [if_pos rfl] at this; exact this
  refine ⟨⟨_, hg, rfl⟩, ?_⟩
  unfold Node.onObj at h
  rw [hi] at h
  simp only [Res.bind_ok] at h
  rw [announceAll_eq] at h
  have hann : ((o.setPropertyAttribute c attr).setPropertyData c d).2 = [] := by
    simp only [Obj.setPropertyData, PropertyList.setData, getByCode_snd, ann_setData_eq]
    rw [if_neg]
    rintro ⟨_, _, h3⟩
    rw [target_some hg, target_none hnew] at h3
    simp [Property.new, Property.setCode] at h3
  rw [hann] at h
  split at h
  · simp [annEff] at h; exact h.2
  · simp at h; exact h.2

/-- non-vacuity for the three theorems: property 0x80 of the device (attribute 0x53) in the example node; 0x8A
is not announceable; 0xE5 does not exist -/
example : yNode.objs[1]? = some { yDevice with hasNode := true } ∧ (destObj yNode profileEoj).isSome = true ∧
    (∃ p, yDevice.getProperty 0x80 = some p ∧ CanAnnounce p ∧ p.hasParent = true) :=
  ⟨by with_unfolding_all rfl, by with_unfolding_all rfl, _, rfl, by decide, rfl⟩
example : ∃ p, xDevice.getProperty 0x8A = some p ∧ ¬ CanAnnounce p := ⟨_, rfl, by decide⟩
example : yDevice.getProperty 0xE5 = none ∧
    ∃ n' eff, (⟨[yDevice.setPropertyAttribute 0xE5 0x04], [], 0, none, [], false⟩ : Node).onObj .little 0
      (fun o => .ok (o.setPropertyData 0xE5 [1])) = .ok (n', eff) := ⟨rfl, _, _, rfl⟩

/-- A write request causes, between the calls of the listeners and the response, exactly one multicast 0x73
frame for each granted write of non-empty data to an announceable property that knows its object, in order,
with consecutive TIDs; and nothing else but at most one response is sent. The handlers consulted are those of
0x61 if the request is 0x6E (see C40). -/
theorem C42_write_request_announces (e : Endian) (n n' : Node) (loc : Option String) (a : String) (f : Frame)
    (rest : List Byte) (eff : List Effect) (o : Obj) (hf : f.WF) (hn : HandlersSet n) (hw : IsWriteEsv f.esv)
    (ho : destObj n f.deoj = some o) (hnode : o.hasNode = true) (hp : (destObj n profileEoj).isSome = true)
    (h : n.receive e loc (some a) (encode f ++ rest) = .ok (n', eff)) :
    ∃ pre ts resp seoj deoj,
      eff = pre ++ List.zipWith (fun t q => sends none ⟨t, seoj, deoj, 0x73, .plain [q]⟩) ts
        (announced o.observers (if f.esv = 0x6E then 0x61 else f.esv) o.getProperty (written f)) ++ resp ∧
      ts.map (tidNat e) = tidSeq (announced o.observers (if f.esv = 0x6E then 0x61 else f.esv) o.getProperty
        (written f)).length n.lastTid.toNat ∧
      (∀ to b, .send to b ∉ pre) ∧ resp.length ≤ 1 := by
  have hreq : IsRequestEsv f.esv := by
    unfold IsWriteEsv at hw; unfold IsRequestEsv
    rcases hw with h | h | h <;> simp [h]
  obtain ⟨i, hi, hj, hrec⟩ := receive_request e n loc a hf rest ho hreq (hn o (destObj_mem ho))
  rw [hrec] at h
  simp only [Res.ok.injEq, Prod.mk.injEq] at h
  obtain ⟨_, rfl⟩ := h
  have hann : (outAnn o f).map (fun p => (p.code, p.data)) =
      announced o.observers (if f.esv = 0x6E then 0x61 else f.esv) o.getProperty (written f) := by
    unfold outAnn written
    unfold Frame.WF at hf
    cases hb : f.body with
    | plain ps =>
      rw [hb] at hf
      have h6 : f.esv ≠ 0x6E := fun h => hf.1 (.inl h)
      simp only [if_neg h6, if_pos hw]
      rw [runAnn_write]
      unfold IsWriteEsv at hw
      rcases hw with h | h | h
      · rw [h]; rfl
      · rw [h]; rfl
      · exact absurd h h6
    | setGet s g =>
      rw [hb] at hf
      have h6 : f.esv = 0x6E := (setGet_request hreq).1 hf.1
      simp only [if_pos h6]
      exact runAnn_write rfl s o
  obtain ⟨ts, h1, h2⟩ := annEff_zip e (outAnn o f) n.lastTid
  refine ⟨calls n o, ts, respEff o f a, profileEoj, profileEoj, ?_, ?_, ?_, ?_⟩
  · rw [if_pos ⟨hnode, hp⟩, h2, hann]
  · rw [← hann, List.length_map]; exact h1
  · intro to b hx
    rcases sends_ne_calls hx with h | ⟨c, h⟩ <;> cases h
  · unfold respEff
    split
    · simp
    · split <;> simp

/-- non-vacuity: writing 0x80 and 0x8A of the example device announces 0x80 -/
example : announced xDevice.observers 0x61 xDevice.getProperty [(0x80, [0x31]), (0x8A, [1]), (0xE0, [1])] =
    [(0x80, [0x31])] := by
  have hx : ∀ p, xDevice.getProperty 0x8A = some p → ¬ CanAnnounce p := by
    intro p hp
    have : some p = some { Property.new with code := 0x8A, attr := 0x10, data := [0, 0, 1], hasParent := true } := by
      rw [← hp]; rfl
    simp only [Option.some.injEq] at this
    rw [this]; decide
  rw [← runAnn_write rfl]
  with_unfolding_all rfl

/-! ## C43 -/

/-- Whatever operation is performed on whatever object of a node, the source object of every status change
announcement is the node profile, not that object. -/
theorem C43_source_always_profile_violated (e : Endian) (n n' : Node) (i : Nat) (g : Obj → Res Obj.Out)
    (eff : List Effect) (h : n.onObj e i g = .ok (n', eff)) :
    ∀ x ∈ eff, ∃ t deoj q, x = sends none ⟨t, (0x0E, 0xF0, 0x01), deoj, 0x73, .plain [q]⟩ := by
  unfold Node.onObj at h
  cases hi : n.objs[i]? with
  | none => rw [hi] at h; simp at h
  | some o =>
    rw [hi] at h
    simp only at h
    rw [Res.bind_eq_ok] at h
    obtain ⟨⟨o', ann⟩, _, h⟩ := h
    rw [announceAll_eq] at h
    have : eff = [] ∨ ∃ t, eff = annEff e t ann := by
      split at h
      · simp only [Res.ok.injEq, Prod.mk.injEq] at h
        rw [← h.2]
        split
        · exact .inr ⟨_, rfl⟩
        · exact .inl rfl
      · simp at h; exact .inl h.2
    rcases this with rfl | ⟨t, rfl⟩
    · simp
    · intro x hx
      obtain ⟨p, _, t', rfl⟩ := annEff_mem hx
      exact ⟨t', profileEoj, (p.code, p.data), rfl⟩

/-- The same for `uecho_object_announcemessage`, which is given the message to announce by the device. -/
theorem C43_announced_message_source_violated (e : Endian) (n n' : Node) (i : Nat) (m m' : Message)
    (hm : Reachable e m) (eff : List Effect) (h : n.objAnnounceMessage e i m = .ok (n', m', eff)) :
    ∀ x ∈ eff, ∃ f : Frame, x = sends none f ∧ f.seoj = (0x0E, 0xF0, 0x01) := by
  unfold Node.objAnnounceMessage at h
  split at h
  · simp at h
  · rename_i o hi
    split at h
    · rw [Res.bind_eq_ok] at h
      obtain ⟨m1, h1, h⟩ := h
      rw [announceMessage_eq e n (reachable_inv (Reachable.setSrc hm _ h1))] at h
      simp only [Res.ok.injEq] at h
      split at h
      · simp at h; rw [h.2.2]; simp
      · simp only [Prod.mk.injEq] at h
        rw [← h.2.2]
        intro x hx
        simp only [List.mem_singleton] at hx
        exact ⟨_, hx, rfl⟩
    · simp at h; rw [h.2.2]; simp

/-- For the node profile itself (and only for it) the source object is right. -/
theorem C43_profile_partial (e : Endian) (n n' : Node) (i : Nat) (o : Obj) (g : Obj → Res Obj.Out)
    (eff : List Effect) (_hi : n.objs[i]? = some o) (ho : objEoj o = profileEoj) (h : n.onObj e i g = .ok (n', eff)) :
    ∀ x ∈ eff, ∃ t deoj q, x = sends none ⟨t, objEoj o, deoj, 0x73, .plain [q]⟩ := by
  rw [ho]
  exact C43_source_always_profile_violated e n n' i g eff h

/-- non-vacuity: the device 0x013001 announces, with source object 0x0EF001 -/
example : ∃ n' t, xNode.onObj .little 1 (fun o => .ok (o.setPropertyData 0x80 [0x31])) =
    .ok (n', [sends none ⟨t, (0x0E, 0xF0, 0x01), (0x0E, 0xF0, 0x01), 0x73, .plain [(0x80, [0x31])]⟩]) ∧
    xNode.objs[1]? = some xDevice ∧ objEoj xDevice = (0x01, 0x30, 0x01) :=
  ⟨_, (8, 0), by with_unfolding_all rfl, rfl, rfl⟩

/-! ## C44 -/

/-- The TIDs of the frames a node sends lie in 1..65535, and any 65535 consecutive messages (announced, sent,
or status change announcements) have pairwise distinct TIDs. -/
theorem C44_tids_distinct (e : Endian) (n n' : Node) (k : Nat) (fs : List Frame) (h : Outgoing e n k fs n') :
    (∀ f ∈ fs, 1 ≤ tidNat e f.tid ∧ tidNat e f.tid ≤ 65535) ∧
    (k ≤ 65535 → (fs.map fun f => tidNat e f.tid).Nodup) := by
  have hs := outgoing_sublist h
  constructor
  · intro f hf
    exact tidSeq_range _ _ _ (hs.subset (List.mem_map.2 ⟨f, hf, rfl⟩))
  · intro hk
    exact (tidSeq_nodup k _ hk).sublist hs

/-- non-vacuity: two announcements of the example node, and as many as one likes -/
example : ∃ n' fs, Outgoing .little xNode 2 fs n' ∧ fs.length = 2 := by
  refine ⟨_, _, .property (n1 := { xNode with lastTid := 8 })
    (gs := [⟨(8, 0), profileEoj, profileEoj, 0x73, .plain [(0x80, [1])]⟩]) 0
    { Property.new with code := 0x80, data := [1] } (by with_unfolding_all rfl)
    (.property (n1 := { xNode with lastTid := 9 })
      (gs := [⟨(9, 0), profileEoj, profileEoj, 0x73, .plain [(0x80, [2])]⟩]) 0
      { Property.new with code := 0x80, data := [2] } (by with_unfolding_all rfl) .done), rfl⟩

/-! ## C64 -/

/-- Starting a node whose profile has property 0xD5 multicasts exactly one notification, with its data. -/
theorem C64_start_announces (e : Endian) (n : Node) (bound : List String) (p : Obj) (d : List Byte)
    (hp : destObj n profileEoj = some p) (hd : dataOf p 0xD5 = some d) :
    ∃ n' t, n.start e bound = .ok (n', [sends none ⟨t, (0x0E, 0xF0, 0x01), (0x0E, 0xF0, 0x01), 0x73,
      .plain [(0xD5, d)]⟩]) ∧ tidNat e t = succTid n.lastTid.toNat ∧ n'.objs = n.objs := by
  unfold Node.start Node.announce
  have h1 : ({ n with bound := bound } : Node).getObject Node.profileCode = some p := by
    rw [profileCode_eq, getObject_dest]; exact hp
  rw [h1]
  unfold dataOf at hd
  change Option.map (·.data) (p.getProperty 0xD5#8) = some d at hd
  cases hq : p.getProperty 0xD5#8 with
  | none => rw [hq] at hd; simp at hd
  | some q =>
    rw [hq] at hd
    simp only [Option.map_some, Option.some.injEq] at hd
    have h2 : destObj { n with bound := bound } profileEoj = some p := hp
    have hqc : q.code = 0xD5#8 := by
      have := List.find?_some hq
      simpa using this
    simp only [hq, announceProperty_eq, h2]
    refine ⟨({ n with bound := bound } : Node).nextTid, tidBytes e (nextT n.lastTid), ?_, tidNat_next e _, rfl⟩
    simp only [annFrame, hqc, hd, profileEoj]
    rfl

/-- In particular, starting a node after adding its objects announces the list of its instances. -/
theorem C64_start_announces_instances {e : Endian} {db : Db} {n n1 : Node} {o : Obj} {eff : List Effect}
    (h : NodeReach e db n) (ha : n.addObject e o = .ok (n1, eff, true))
    (hic : (instances n1).length < 16777216) (hcc : (nodeClasses n1).length < 65536) (bound : List String) :
    ∃ n' t, n1.start e bound = .ok (n', [sends none ⟨t, (0x0E, 0xF0, 0x01), (0x0E, 0xF0, 0x01), 0x73,
      .plain [(0xD5, instanceListData (instances n1))]⟩]) ∧ tidNat e t = succTid n1.lastTid.toNat := by
  obtain ⟨p, hp, _, _, hd, _⟩ := C28_profile_describes_node h ha hic hcc
  obtain ⟨n', t, h1, h2, _⟩ := C64_start_announces e n1 bound p _ hp hd
  exact ⟨n', t, h1, h2⟩

/-- non-vacuity: `yNode_add` is an addition to a reachable node -/
example : (instances yNode).length < 16777216 ∧ (nodeClasses yNode).length < 65536 ∧
    instances yNode = [(0x01, 0x30, 0x01)] := by
  have h : instances yNode = [(0x01, 0x30, 0x01)] := by with_unfolding_all rfl
  have h2 : nodeClasses yNode = [(0x0E, 0xF0), (0x01, 0x30)] := by with_unfolding_all rfl
  rw [h, h2]; decide

end Uecho.Props
