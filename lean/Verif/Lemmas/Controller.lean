import Verif.Lemmas.Readable
import Verif.Props.Object
import Verif.Props.Listener
import Verif.Spec.ControllerApi
/-! # Lemmas about controllers -/
set_option linter.unusedSimpArgs false
namespace Uecho.Lemmas
open Uecho Uecho.Spec

/-! ### discovered nodes -/

/-- What holds of every discovered node. -/
structure DInv (n : Node) : Prop where
  inv : NInv n
  bound : n.bound = []
  read : ∀ o ∈ n.objs, Readable o

theorem profileUpdate_readable {cs : List Class} {os : List Obj} {o o' : Obj} {a : List Property}
    (h : Node.profileUpdate cs os o = .ok (o', a)) (hr : Readable o) : Readable o' := by
  unfold Node.profileUpdate NodeProfile.setClassCount NodeProfile.setInstanceCount at h
  obtain ⟨b4, h4, _⟩ := setPropertyIntegerData_eq o 0xD4#8 (BitVec.ofNat 32 cs.length) 2 (by omega)
  rw [h4] at h
  simp only [Res.bind_ok, setClassList_eq] at h
  obtain ⟨b3, h3, _⟩ := setPropertyIntegerData_eq ((o.setPropertyData 0xD4#8 b4).1.setPropertyData 0xD7#8
    (classListData ((cs.map fun c => (c.grp, c.cls)).filter fun x => x.1 ≠ 0x0E))).1 0xD3#8
    (BitVec.ofNat 32 (os.filter (fun o => !o.isProfile)).length) 3 (by omega)
  rw [h3] at h
  simp only [Res.bind_ok, setInstanceList_eq, Res.pure_eq, Res.ok.injEq, Prod.mk.injEq] at h
  rw [← h.1]
  exact setPropertyData_readable _ _ (setPropertyData_readable _ _ (setPropertyData_readable _ _
    (setPropertyData_readable _ _ (setPropertyData_readable _ _ hr))))

/-- updating the profile of a discovered node -/
theorem updateProfile_dinv (e : Endian) {n : Node} (h : DInv n) :
    ∃ n' eff r, n.updateProfile e = .ok (n', eff, r) ∧ SameIds n n' ∧ DInv n' ∧ n'.address = n.address ∧
      ∀ o ∈ n.objs, objEoj o ≠ profileEoj → o ∈ n'.objs := by
  cases hd : destObj n profileEoj with
  | none => exact ⟨n, [], false, updateProfile_none e hd, .refl _, h, rfl, fun o ho _ => ho⟩
  | some p =>
    have hp : p.hasNode = true := h.inv.node p (destObj_mem hd)
    obtain ⟨p', ann, h4, h5, _⟩ := profileUpdate_spec n.classes n.objs p
    have hf := findIdx_dest profileEoj n.objs
    have hd' := hd
    unfold destObj at hd'
    rw [hd'] at hf
    obtain ⟨i, h1, h2, h3⟩ := hf
    have hn : p'.hasNode = true := by rw [h5.node]; exact hp
    have hids : ∀ t, SameIds n { n with objs := n.objs.set i p', lastTid := t } := fun t =>
      .set h2 ⟨by rw [h5]; rfl, by rw [hn, hp]⟩ t
    refine ⟨{ n with objs := n.objs.set i p', lastTid := iterT ann.length n.lastTid }, ?_, true, ?_, hids _,
      ⟨(hids _).inv h.inv, h.bound, ?_⟩, rfl, ?_⟩
    rotate_left
    · unfold Node.updateProfile
      rw [profileCode_eq, h1]
      simp only [h2, hp, if_true, Node.onObj, h4, Res.bind_ok, announceAll_eq, hn]
      rfl
    · intro o ho
      rcases List.mem_or_eq_of_mem_set ho with ho | rfl
      · exact h.read o ho
      · exact profileUpdate_readable h4 (h.read p (destObj_mem hd))
    · intro o ho hne
      obtain ⟨j, hj⟩ := List.getElem?_of_mem ho
      apply List.mem_of_getElem? (i := j)
      simp only
      rw [List.getElem?_set]
      by_cases hij : i = j
      · subst hij
        rw [h2] at hj; cases hj
        exact absurd (destObj_code hd) hne
      · rw [if_neg hij]; exact hj

theorem setCode_new (db : Db) (junk : Nat → Byte) (x : Byte × Byte × Byte) :
    ∃ o a, Obj.new.setCode db junk (BitVec.ofNat 32 (eojNat x)) = .ok (o, a) ∧ objEoj o = x ∧ Readable o := by
  obtain ⟨⟨o, a⟩, h⟩ := Props.setCode_new_defined db junk (BitVec.ofNat 32 (eojNat x))
  refine ⟨o, a, h, ?_, ?_⟩
  · have := (Props.C08_object_code db junk _ o a _ (by rw [code_toNat]; have := eojNat_lt x; omega) h).1
    rw [getCode_ofNat] at this
    have h2 := congrArg BitVec.toNat this
    rw [code_toNat, code_toNat] at h2
    exact eojNat_inj h2
  · unfold Obj.setCode at h
    exact updatePropertyMaps_readable h

theorem addObject_dinv (e : Endian) {n : Node} {o : Obj} (h : DInv n) (hr : Readable o)
    (hx : ∀ y ∈ n.objs, objEoj y ≠ objEoj o) :
    ∃ n' eff r, n.addObject e o = .ok (n', eff, r) ∧ DInv n' ∧ n'.address = n.address ∧
      eojs n' = eojs n ++ [objEoj o] ∧ ∀ o ∈ n.objs, objEoj o ≠ profileEoj → o ∈ n'.objs := by
  have ha : DInv (appended n o) := by
    refine ⟨appended_inv h.inv hx, h.bound, ?_⟩
    intro y hy
    simp only [appended, List.mem_append, List.mem_singleton] at hy
    rcases hy with hy | rfl
    · exact h.read y hy
    · exact hr
  obtain ⟨n', eff, r, h1, h2, h3, h4, h5⟩ := updateProfile_dinv e ha
  refine ⟨n', eff, r, by rw [addObject_new e hx, h1], h3, h4, ?_, ?_⟩
  · unfold eojs
    rw [h2.eojs]
    simp [appended, Obj.setParentNode, objEoj]
  · intro y hy hne
    exact h5 y (by simp [appended, hy]) hne

theorem hasObject_ofNat (n : Node) (x : Byte × Byte × Byte) :
    n.hasObject (BitVec.ofNat 32 (eojNat x)) = decide (x ∈ eojs n) := by
  unfold Node.hasObject
  rw [getObject_dest]
  unfold destObj eojs
  rw [Bool.eq_iff_iff, List.find?_isSome]
  simp

theorem setObject_dinv (e : Endian) (db : Db) (junk : Nat → Byte) {n : Node} (h : DInv n)
    {x : Byte × Byte × Byte} (hx : x ∉ eojs n) :
    ∃ n' eff r, n.setObject e db junk (BitVec.ofNat 32 (eojNat x)) = .ok (n', eff, r) ∧ DInv n' ∧
      n'.address = n.address ∧
      eojs n' = eojs n ++ [x] ∧ ∀ o ∈ n.objs, objEoj o ≠ profileEoj → o ∈ n'.objs := by
  obtain ⟨o, a, h1, h2, h3⟩ := setCode_new db junk x
  have hx' : ∀ y ∈ n.objs, objEoj y ≠ objEoj o := by
    intro y hy he
    exact hx (List.mem_map.2 ⟨y, hy, he.trans h2⟩)
  obtain ⟨n', eff, r, g1, g2, g3, g4, g5⟩ := addObject_dinv e h h3 hx'
  refine ⟨n', eff, r, ?_, g2, g3, by rw [g4, h2], g5⟩
  unfold Node.setObject
  rw [hasObject_ofNat]
  simp only [hx, decide_false, Bool.false_eq_true, if_false, h1, Res.bind_ok, g1]

theorem addMissing_readable : ∀ (qs : List Property) {o : Obj}, Readable o → Readable (o.addMissing qs)
  | [], _, h => h
  | q :: qs, o, h => by
      rw [Obj.addMissing]
      split
      · exact addMissing_readable qs h
      · rename_i hq
        refine addMissing_readable qs ?_
        obtain ⟨p, hp, hr⟩ := h
        have hnone : PropertyList.find o.props q.code = none := by
          simpa [Obj.hasProperty, Obj.getProperty] using hq
        have hcopy : (q.copy.setParent true).code = q.code := by rw [copy_prop]; rfl
        unfold Readable Obj.addProperty
        rw [add_of_none (by rw [hcopy]; exact hnone)]
        exact ⟨p, by simp [hp], hr⟩

theorem addMissing_frame : ∀ (qs : List Property) (o : Obj),
    objEoj (o.addMissing qs) = objEoj o ∧ (o.addMissing qs).hasNode = o.hasNode
  | [], _ => ⟨rfl, rfl⟩
  | q :: qs, o => by
      rw [Obj.addMissing]
      split
      · exact addMissing_frame qs o
      · exact addMissing_frame qs (o.addProperty q.copy)

theorem profileNew (db : Db) (junk rnd : Nat → Byte) :
    ∃ o, NodeProfile.new db junk rnd = .ok o ∧ objEoj o = profileEoj ∧ Readable o := by
  obtain ⟨o, a, h1, h2, h3⟩ := setCode_new db junk profileEoj
  rw [← profileCode_eq] at h1
  unfold NodeProfile.new
  rw [show (0x0EF001#32 : CInt) = Node.profileCode from rfl, h1]
  simp only [Res.bind_ok]
  unfold NodeProfile.addMandatory
  cases db.getObject 0x0E#8 0xF0#8 with
  | none => exact ⟨o, rfl, h2, h3⟩
  | some s =>
    have h4 : ∀ o : Obj, ∃ d, NodeProfile.setDefaultId o rnd = .ok (o.setPropertyData 0x83#8 d) := fun o => ⟨_, rfl⟩
    obtain ⟨d, hd⟩ := h4 (NodeProfile.setVersion (NodeProfile.setOperatingStatus (o.addMissing s.props) true).1 1#32 13#32).1
    simp only [hd, Res.bind_ok, Res.pure_eq]
    refine ⟨_, rfl, ?_, ?_⟩
    · exact (addMissing_frame s.props o).1.trans h2
    · exact setPropertyData_readable _ _ (setPropertyData_readable _ _ (setPropertyData_readable _ _
        (addMissing_readable s.props h3)))

theorem nodeNew (e : Endian) (db : Db) (junk rnd : Nat → Byte) (t : BitVec 32) :
    ∃ n eff, Node.new e db junk rnd t = .ok (n, eff) ∧ DInv n ∧ eojs n = [profileEoj] ∧ n.address = none := by
  obtain ⟨o, h1, h2, h3⟩ := profileNew db junk rnd
  have h0 : DInv ⟨[], [], t, none, [], false⟩ := ⟨⟨by simp, by simp, rfl⟩, rfl, by simp⟩
  obtain ⟨n, eff, r, g1, g2, g3, g4, _⟩ := addObject_dinv e h0 h3 (by simp)
  refine ⟨n.setLastTid 0#32, eff, ?_, ?_, ?_, g3⟩
  · unfold Node.new
    simp only [h1, Res.bind_ok, g1]; rfl
  · exact ⟨⟨g2.inv.codes, g2.inv.node, g2.inv.classes⟩, g2.bound, g2.read⟩
  · change eojs n = _
    rw [g4, h2]; rfl

/-! ### the instance list -/

theorem rdN_three (data : List Byte) (idx : Nat) (h : idx + 2 < data.length) :
    ∃ a b c, data.drop idx = a :: b :: c :: data.drop (idx + 3) ∧ rdN data idx 3 = .ok [a, b, c] := by
  have h1 : data.drop idx = data[idx] :: data[idx + 1] :: data[idx + 2] :: data.drop (idx + 3) := by
    rw [List.drop_eq_getElem_cons (by omega), List.drop_eq_getElem_cons (by omega : idx + 1 < data.length),
      List.drop_eq_getElem_cons (by omega : idx + 1 + 1 < data.length)]
  refine ⟨_, _, _, h1, ?_⟩
  unfold rdN
  rw [if_pos (by omega), h1]
  rfl

theorem triples_short {l : List Byte} (h : l.length ≤ 2) : triples l = [] := by
  match l, h with
  | [], _ => rfl
  | [_], _ => rfl
  | [_, _], _ => rfl

/-- the first occurrences that are new -/
def newCodes (old xs : List (Byte × Byte × Byte)) : List (Byte × Byte × Byte) :=
  (firsts xs).filter (· ∉ old)

theorem newCodes_cons_old {old xs : List (Byte × Byte × Byte)} {x} (h : x ∈ old) :
    newCodes old (x :: xs) = newCodes old xs := by
  unfold newCodes
  simp only [firsts, List.filter_cons, h, not_true_eq_false, decide_false, Bool.false_eq_true, if_false,
    List.filter_filter]
  apply List.filter_congr
  intro y _
  by_cases hy : y ∈ old
  · simp [hy]
  · have : y ≠ x := fun e => hy (e ▸ h)
    simp [hy, this]

theorem newCodes_cons_new {old xs : List (Byte × Byte × Byte)} {x} (h : x ∉ old) :
    newCodes old (x :: xs) = x :: newCodes (old ++ [x]) xs := by
  unfold newCodes
  simp only [firsts, List.filter_cons, h, not_false_eq_true, decide_true, if_true, List.filter_filter]
  congr 1
  apply List.filter_congr
  intro y _
  by_cases hy : y = x
  · simp [hy]
  · simp [hy]

theorem searchLoop_spec (e : Endian) (db : Db) (orc : Oracle) (data : List Byte) :
    ∀ (fuel idx k : Nat) (n : Node) (upd : Bool), DInv n → data.length ≤ idx + fuel →
    ∃ n', Ctrl.searchLoop e db orc data fuel idx k n upd =
        .ok (n', upd || decide (newCodes (eojs n) (triples (data.drop idx)) ≠ [])) ∧
      DInv n' ∧ n'.address = n.address ∧
      eojs n' = eojs n ++ newCodes (eojs n) (triples (data.drop idx)) ∧
      (newCodes (eojs n) (triples (data.drop idx)) = [] → n' = n) ∧
      ∀ o ∈ n.objs, objEoj o ≠ profileEoj → o ∈ n'.objs
  | 0, idx, k, n, upd, hD, hl => by
      have : data.drop idx = [] := List.drop_eq_nil_of_le (by omega)
      rw [this]
      exact ⟨n, by simp [Ctrl.searchLoop, triples, newCodes, firsts], hD, rfl,
        by simp [triples, newCodes, firsts], fun _ => rfl, fun o ho _ => ho⟩
  | fuel + 1, idx, k, n, upd, hD, hl => by
      unfold Ctrl.searchLoop
      by_cases hi : idx + 2 < data.length
      · rw [if_pos hi]
        obtain ⟨a, b, c, h1, h2⟩ := rdN_three data idx hi
        have h3 : byte2integer [a, b, c] = .ok (BitVec.ofNat 32 (eojNat (a, b, c))) := codeOfEoj_eq (a, b, c)
        rw [h1, h2]
        simp only [Res.bind_ok, h3, hasObject_ofNat, triples]
        by_cases hx : (a, b, c) ∈ eojs n
        · simp only [hx, decide_true, if_true, newCodes_cons_old hx]
          exact searchLoop_spec e db orc data fuel (idx + 3) (k + 1) n upd hD (by omega)
        · obtain ⟨n1, eff, r, g1, g2, g3, g4, g5⟩ := setObject_dinv e db (orc.junk k) hD hx
          obtain ⟨n', j1, j2, j3, j4, j5, j6⟩ :=
            searchLoop_spec e db orc data fuel (idx + 3) (k + 1) n1 true g2 (by omega)
          simp only [hx, decide_false, Bool.false_eq_true, if_false, g1, Res.bind_ok, newCodes_cons_new hx]
          refine ⟨n', ?_, j2, j3.trans g3, ?_, by simp, ?_⟩
          · rw [j1]; simp
          · rw [j4, g4]; simp
          · intro o ho hne
            exact j6 o (g5 o ho hne) hne
      · rw [if_neg hi]
        rw [triples_short (by simp; omega)]
        exact ⟨n, by simp [newCodes, firsts], hD, rfl, by simp [newCodes, firsts], fun _ => rfl, fun o ho _ => ho⟩

/-! ### the node table -/

structure CInv (c : Ctrl) : Prop where
  node : ∀ n ∈ c.nodes, DInv n
  addr : ∀ n ∈ c.nodes, n.address ≠ none
  nodup : (c.nodes.map (·.address)).Nodup

theorem isAddress_eq {n : Node} (h : n.bound = []) (a : String) :
    n.isAddress (some a) = (n.address == some a) := by
  unfold Node.isAddress; simp [h]

theorem getNode_eq {c : Ctrl} (h : CInv c) (a : String) :
    c.getNode (some a) = c.nodes.find? (fun n => n.address == some a) := by
  unfold Ctrl.getNode
  have : ∀ l : List Node, (∀ n ∈ l, n.bound = []) →
      l.find? (fun n => n.isAddress (some a)) = l.find? (fun n => n.address == some a) := by
    intro l hl
    induction l with
    | nil => rfl
    | cons n ns ih =>
      rw [List.find?_cons, List.find?_cons, isAddress_eq (hl n (by simp)), ih (fun m hm => hl m (by simp [hm]))]
  exact this _ (fun n hn => (h.node n hn).bound)

theorem nodeIdx_spec {c : Ctrl} (h : CInv c) (a : String) :
    (c.getNode (some a) = none ∧ c.nodeIdx (some a) = none ∧ ∀ n ∈ c.nodes, n.address ≠ some a) ∨
    ∃ i n, c.getNode (some a) = some n ∧ c.nodeIdx (some a) = some i ∧ c.nodes[i]? = some n ∧
      n.address = some a := by
  have key : ∀ l : List Node, (∀ n ∈ l, n.bound = []) →
      (l.find? (fun n => n.isAddress (some a)) = none ∧ l.findIdx? (fun n => n.isAddress (some a)) = none ∧
        ∀ n ∈ l, n.address ≠ some a) ∨
      ∃ i n, l.find? (fun n => n.isAddress (some a)) = some n ∧
        l.findIdx? (fun n => n.isAddress (some a)) = some i ∧ l[i]? = some n ∧ n.address = some a := by
    intro l hl
    induction l with
    | nil => exact .inl (by simp)
    | cons n ns ih =>
      rw [List.find?_cons, List.findIdx?_cons, isAddress_eq (hl n (by simp))]
      by_cases hn : n.address = some a
      · refine .inr ⟨0, n, ?_, ?_, rfl, hn⟩ <;> simp [hn]
      · have hb : (n.address == some a) = false := by simpa using hn
        rw [hb]
        simp only
        rcases ih (fun m hm => hl m (by simp [hm])) with ⟨h1, h2, h3⟩ | ⟨i, m, h1, h2, h3, h4⟩
        · refine .inl ⟨h1, by simp [h2], ?_⟩
          intro m hm
          rcases List.mem_cons.1 hm with rfl | hm
          · exact hn
          · exact h3 m hm
        · exact .inr ⟨i + 1, m, h1, by simp [h2], by simpa using h3, h4⟩
  exact key _ (fun n hn => (h.node n hn).bound)

/-- the table after a node has been replaced by one with the same address -/
theorem CInv.set {c : Ctrl} (h : CInv c) {i : Nat} {n n' : Node} (hi : c.nodes[i]? = some n) (hd : DInv n')
    (ha : n'.address = n.address) : CInv { c with nodes := c.nodes.set i n' } := by
  have hm : (c.nodes.set i n').map (·.address) = c.nodes.map (·.address) := by
    rw [List.map_set, ha]
    apply List.ext_getElem?
    intro j
    rw [List.getElem?_set]
    by_cases hj : i = j
    · subst hj
      have : i < c.nodes.length := (List.getElem?_eq_some_iff.1 hi).1
      simp only [if_true, List.length_map, this, List.getElem?_map, hi, Option.map_some]
    · simp [hj]
  refine ⟨?_, ?_, by simp only; rw [hm]; exact h.nodup⟩
  · intro m hmem
    rcases List.mem_or_eq_of_mem_set hmem with hmem | rfl
    · exact h.node m hmem
    · exact hd
  · intro m hmem
    rcases List.mem_or_eq_of_mem_set hmem with hmem | rfl
    · exact h.addr m hmem
    · rw [ha]; exact h.addr n (List.mem_of_getElem? hi)

theorem CInv.append {c : Ctrl} (h : CInv c) {n : Node} {a : String} (hd : DInv n) (ha : n.address = some a)
    (hn : ∀ m ∈ c.nodes, m.address ≠ some a) : CInv { c with nodes := c.nodes ++ [n] } := by
  refine ⟨?_, ?_, ?_⟩
  · intro m hm
    rcases List.mem_append.1 hm with hm | hm
    · exact h.node m hm
    · rw [List.mem_singleton.1 hm]; exact hd
  · intro m hm
    rcases List.mem_append.1 hm with hm | hm
    · exact h.addr m hm
    · rw [List.mem_singleton.1 hm, ha]; simp
  · simp only [List.map_append, List.map_cons, List.map_nil]
    rw [List.nodup_append]
    refine ⟨h.nodup, by simp, ?_⟩
    intro x hx y hy
    obtain ⟨m, hm, rfl⟩ := List.mem_map.1 hx
    rw [List.mem_singleton.1 hy, ha]; exact hn m hm

/-! ### messages -/

theorem isSearch_true {f : Frame} {d : List Byte} (h : SearchAnswer f d) (src : Option String) :
    (reqMsg f src).isSearchResponse = .ok true := by
  obtain ⟨he, hb⟩ := h
  have h1 : (reqMsg f src).opc = 1#8 := by simp [reqMsg, parsed, hb]
  have h2 : (reqMsg f src).ep = [mkProp (0xD6, d)] := by simp [reqMsg, parsed, hb]
  have h3 : (reqMsg f src).esv = f.esv := rfl
  unfold Message.isSearchResponse Message.getProperty Message.propGet
  rw [h1, h2, h3]
  rcases he with he | he | he <;> rw [he] <;> rfl

theorem isSearch_false {f : Frame} (hf : f.WF) (h : ∀ d, ¬ SearchAnswer f d) (src : Option String) :
    (reqMsg f src).isSearchResponse = .ok false := by
  have h3 : (reqMsg f src).esv = f.esv := rfl
  unfold Message.isSearchResponse
  rw [h3]
  by_cases he : f.esv = 0x72#8 ∨ f.esv = 0x73#8 ∨ f.esv = 0x7A#8
  · have he' : ¬ (f.esv ≠ Esv.readResponse ∧ f.esv ≠ Esv.notification ∧ f.esv ≠ Esv.notificationResponse) := by
      rcases he with he | he | he <;> rw [he] <;> decide
    rw [if_neg he']
    unfold Frame.WF at hf
    cases hb : f.body with
    | setGet s g =>
      rw [hb] at hf
      have hs := hf.1
      rcases he with he | he | he <;> rw [he] at hs <;> exact absurd hs (by decide)
    | plain ps =>
      rw [hb] at hf
      have h1 : (reqMsg f src).opc = BitVec.ofNat 8 ps.length := by simp [reqMsg, parsed, hb]
      have h2 : (reqMsg f src).ep = ps.map mkProp := by simp [reqMsg, parsed, hb]
      match ps, hb, hf, h1, h2 with
      | [], hb, hf, h1, h2 => rw [if_pos (by rw [h1]; decide)]; rfl
      | [q], hb, hf, h1, h2 =>
        unfold Message.getProperty Message.propGet
        rw [h1, h2]
        have hq : q.1 ≠ 0xD6#8 := fun hq => h q.2 ⟨he, by rw [hb, show (0xD6 : Byte) = q.1 from hq.symm]⟩
        have : (q.1 == 0xD6#8) = false := by simpa using hq
        simpa [rd, mkProp, fill] using hq
      | q :: q2 :: qs, hb, hf, h1, h2 =>
        rw [if_pos]
        · rfl
        · rw [h1]
          intro hc
          have := congrArg BitVec.toNat hc
          rw [ofNat8_toNat hf.2.1] at this
          simp at this
  · simp only [not_or] at he
    rw [if_pos he]; rfl

def msgPart (c : Ctrl) : List CEvent := if c.hasMsgListener then [.message] else []

theorem receive_bad (e : Endian) (db : Db) (orc : Oracle) (c : Ctrl) (h : Heap) (loc : Option String) (a : String)
    {data : List Byte} (hd : decode data = none) :
    c.receive e db orc h loc (some a) data = .ok (c, h, []) := by
  have h' := parse_spec (m := Message.new) inv_new.toMsgWF data _ (Nat.le_refl _)
  rw [List.take_length, hd] at h'
  obtain ⟨m', h', _⟩ := h'
  unfold Ctrl.receive Message.parsePacket
  rw [h']; rfl

theorem receive_eq (e : Endian) (db : Db) (orc : Oracle) (c : Ctrl) (h : Heap) (loc : Option String) (a : String)
    {f : Frame} (hf : f.WF) (rest : List Byte) :
    c.receive e db orc h loc (some a) (encode f ++ rest) =
      (c.node.messageListener e (reqMsg f (some a)) >>= fun x =>
        Ctrl.listener e db orc { c with node := x.1 } h (reqMsg f (some a)) >>= fun y =>
        .ok (y.1, y.2.1, x.2.map .node ++ y.2.2)) := by
  unfold Ctrl.receive Message.parsePacket
  have h' := parse_spec (m := Message.new) inv_new.toMsgWF (encode f ++ rest) _ (Nat.le_refl _)
  rw [List.take_length, decode_complete hf] at h'
  simp only at h'
  rw [h']
  have : ((parsed Message.new f).setSourceAddress loc).setSourceAddress (some a) = reqMsg f (some a) := by
    unfold Message.setSourceAddress reqMsg; cases loc <;> rfl
  simp [this, if_true]

theorem listener_search (e : Endian) (db : Db) (orc : Oracle) (c : Ctrl) (h : Heap) {f : Frame} {d : List Byte}
    (hs : SearchAnswer f d) (src : Option String) :
    Ctrl.listener e db orc c h (reqMsg f src) =
      (Ctrl.servePost e c h (reqMsg f src) >>= fun x => Ctrl.handleSearch e db orc c (reqMsg f src) >>= fun y =>
        .ok (y.1, x.1, msgPart c ++ x.2 ++ y.2)) := by
  unfold Ctrl.listener
  simp only [isSearch_true hs, Res.bind_ok, if_true, Res.pure_eq]
  rfl

theorem listener_other (e : Endian) (db : Db) (orc : Oracle) (c : Ctrl) (h : Heap) {f : Frame} (hf : f.WF)
    (hs : ∀ d, ¬ SearchAnswer f d) (src : Option String) :
    Ctrl.listener e db orc c h (reqMsg f src) =
      (Ctrl.servePost e c h (reqMsg f src) >>= fun x =>
        match (if f.deoj ∈ eojs c.node then c.nodeIdx src else none) with
        | none => .ok (c, x.1, msgPart c ++ x.2)
        | some i => Ctrl.handleNode e orc c i (reqMsg f src) >>= fun y =>
            .ok (y.1, x.1, msgPart c ++ x.2 ++ y.2)) := by
  unfold Ctrl.listener
  have h1 : (reqMsg f src).getDestinationObjectCode = .ok (BitVec.ofNat 32 (eojNat f.deoj)) := codeOfEoj_eq f.deoj
  have h2 : (reqMsg f src).fromAddr = src := rfl
  simp only [isSearch_false hf hs, Res.bind_ok, Bool.false_eq_true, if_false, Res.pure_eq, h1, h2, hasObject_ofNat]
  change (Ctrl.servePost e c h (reqMsg f src) >>= fun x => _) = _
  congr 1
  funext x
  by_cases hd : f.deoj ∈ eojs c.node
  · simp only [hd, decide_true, if_true]
    cases c.nodeIdx src <;> rfl
  · simp only [hd, decide_false, Bool.false_eq_true, if_false]
    rfl

end Uecho.Lemmas
