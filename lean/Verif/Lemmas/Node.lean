import Verif.Lemmas.Reply
import Verif.Lemmas.Attr
import Verif.Spec.NodeApi
import Verif.Props.Values
/-!
# Lemmas about nodes
-/
set_option linter.unusedSimpArgs false
namespace Uecho.Lemmas
open Uecho Uecho.Spec

/-! ### class codes -/

theorem classcode_toNat (v : CInt) : (objectcode2classcode v).toNat = v.toNat / 256 % 65536 := by
  have : objectcode2classcode v = (v.extractLsb' 8 16).setWidth 32 := by
    apply BitVec.eq_of_getLsbD_eq
    intro i hi
    have m : (0xFFFF : BitVec 32).getLsbD i = decide (i < 16) := by
      have : ∀ i : Fin 32, (0xFFFF : BitVec 32).getLsbD i = decide (i.val < 16) := by decide
      exact this ⟨i, hi⟩
    unfold objectcode2classcode
    simp only [BitVec.getLsbD_setWidth, BitVec.getLsbD_sshiftRight, BitVec.getLsbD_and, m,
      BitVec.getLsbD_extractLsb']
    by_cases h : i < 16
    · have : ¬ 32 ≤ i := by omega
      have : 8 + i < 32 := by omega
      simp [*]
    · simp [h]
  rw [this, BitVec.toNat_setWidth, BitVec.extractLsb'_toNat, Nat.shiftRight_eq_div_pow]
  omega

theorem classCode_eq (o : Obj) : Class.setCode (objectcode2classcode o.getCode) = ⟨o.grp, o.cls⟩ := by
  have h := code_bytes (objectcode2classcode o.getCode)
  have hv := classcode_toNat o.getCode
  rw [getCode_toNat] at hv
  have := o.grp.isLt; have := o.cls.isLt; have := o.ins.isLt
  unfold Class.setCode
  congr 1
  · apply BitVec.eq_of_toNat_eq; rw [h.2.1, hv]; omega
  · apply BitVec.eq_of_toNat_eq; rw [h.2.2, hv]; omega

theorem classGetCode_toNat (c : Class) : c.getCode.toNat = c.grp.toNat * 256 + c.cls.toNat := by
  have h2 : ∀ g : Byte, ((g.setWidth 32) <<< 8) &&& 0xFF00#32 = BitVec.ofNat 32 (2 ^ 8 * g.toNat) := by
    decide +kernel
  have h3 : ∀ g : Byte, (g.setWidth 32) &&& 0x00FF#32 = BitVec.ofNat 32 g.toNat := by
    decide +kernel
  unfold Class.getCode
  rw [h2, h3]
  have := c.grp.isLt; have := c.cls.isLt
  simp only [BitVec.toNat_or, BitVec.toNat_ofNat]
  rw [Nat.mod_eq_of_lt (show 2 ^ 8 * c.grp.toNat < 2 ^ 32 by omega),
    Nat.mod_eq_of_lt (show c.cls.toNat < 2 ^ 32 by omega),
    ← Nat.two_pow_add_eq_or_of_lt (show c.cls.toNat < 2 ^ 8 by omega)]
  omega

theorem class_code_inj {a b : Class} (h : a.getCode = b.getCode) : a = b := by
  have h := congrArg BitVec.toNat h
  rw [classGetCode_toNat, classGetCode_toNat] at h
  obtain ⟨g, c⟩ := a
  obtain ⟨g', c'⟩ := b
  have := g.isLt; have := c.isLt; have := g'.isLt; have := c'.isLt
  simp only at h
  have h1 : g = g' := BitVec.eq_of_toNat_eq (by omega)
  have h2 : c = c' := BitVec.eq_of_toNat_eq (by omega)
  rw [h1, h2]

/-- Adding a class: only if it is not yet there. -/
theorem listSet_eq (cs : List Class) (o : Obj) :
    Class.listSet cs (objectcode2classcode o.getCode) =
      if (⟨o.grp, o.cls⟩ : Class) ∈ cs then cs else cs ++ [⟨o.grp, o.cls⟩] := by
  have hc : objectcode2classcode o.getCode = (⟨o.grp, o.cls⟩ : Class).getCode := by
    apply BitVec.eq_of_toNat_eq
    rw [classcode_toNat, getCode_toNat, classGetCode_toNat]
    have := o.grp.isLt; have := o.cls.isLt; have := o.ins.isLt
    simp only; omega
  unfold Class.listSet
  by_cases hm : (⟨o.grp, o.cls⟩ : Class) ∈ cs
  · have : (Class.find cs (objectcode2classcode o.getCode)).isSome := by
      unfold Class.find
      rw [List.find?_isSome]
      exact ⟨_, hm, by rw [hc]; simp⟩
    cases hf : Class.find cs (objectcode2classcode o.getCode) with
    | none => rw [hf] at this; simp at this
    | some _ => simp [hm]
  · have : Class.find cs (objectcode2classcode o.getCode) = none := by
      unfold Class.find
      rw [List.find?_eq_none]
      intro x hx he
      rw [hc, beq_iff_eq] at he
      exact hm (class_code_inj he ▸ hx)
    rw [this]; simp [hm, classCode_eq]

/-! ### profile data -/

theorem listData_eq (c : Byte) (entries : List Byte) (k : Nat) (h : k ≤ entries.length) :
    NodeProfile.listData c entries (k + 1) = .ok (c :: entries.take k) := by
  unfold NodeProfile.listData wr rdN
  have : (0 + (k + 1) ≤ (some c :: entries.map some).length) = True := by
    simp; omega
  simp only [List.length_cons, Nat.zero_lt_succ, if_true, List.set_cons_zero, Res.bind_ok]
  rw [if_pos (by simp; omega)]
  simp only [Res.bind_ok, List.drop_zero, List.take_succ_cons, ← List.map_take]
  exact initialised_map_some (c :: entries.take k)

theorem take_flatMap {α : Type} (f : α → List Byte) (m : Nat) (hf : ∀ a, (f a).length = m) :
    ∀ (l : List α) (k : Nat), (l.flatMap f).take (k * m) = (l.take k).flatMap f
  | [], k => by simp
  | a :: l, 0 => by simp
  | a :: l, k + 1 => by
      rw [List.flatMap_cons, List.take_append, hf, Nat.add_mul, Nat.one_mul, Nat.add_sub_cancel,
        take_flatMap f m hf l k, List.take_succ_cons, List.flatMap_cons]
      congr 1
      apply List.take_of_length_le
      rw [hf]; omega

theorem flatMap_len {α : Type} (f : α → List Byte) (m : Nat) (hf : ∀ a, (f a).length = m) (l : List α) :
    (l.flatMap f).length = l.length * m := by
  induction l with
  | nil => simp
  | cons a l ih => rw [List.flatMap_cons, List.length_append, hf, ih, List.length_cons, Nat.add_mul]; omega

theorem setClassList_eq (o : Obj) (cs : List Class) :
    NodeProfile.setClassList o (cs.filter (fun c => !c.isProfile)).length (Node.classEntries cs) =
      .ok (o.setPropertyData 0xD7#8 (classListData ((cs.map fun c => (c.grp, c.cls)).filter fun x => x.1 ≠ 0x0E))) := by
  unfold NodeProfile.setClassList Node.classEntries classListData
  have hm : (cs.map fun c => (c.grp, c.cls)).filter (fun x => x.1 ≠ 0x0E) =
      (cs.filter (fun c => !c.isProfile)).map fun c => (c.grp, c.cls) := by
    rw [List.filter_map]; congr 1
    apply List.filter_congr
    intro x _
    simp only [Function.comp, Class.isProfile, isProfileGroup]
    by_cases h : x.grp = 0x0E#8 <;> simp [h]
  rw [hm]
  generalize cs.filter (fun c => !c.isProfile) = l
  have hmin : (if 255 < l.length then 255 else l.length) = min 255 l.length := by
    split <;> omega
  simp only [hmin]
  rw [listData_eq _ _ _ (by rw [flatMap_len _ 2 (fun _ => rfl)]; apply Nat.mul_le_mul_right; omega)]
  rw [take_flatMap _ 2 (fun _ => rfl)]
  simp only [Res.bind_ok, Res.pure_eq, List.length_map, ← List.map_take, List.flatMap_map]
  congr 4
  rw [List.take_eq_take_iff]; omega

theorem setInstanceList_eq (o : Obj) (os : List Obj) :
    NodeProfile.setInstanceList o (os.filter (fun o => !o.isProfile)).length (Node.instanceEntries os) =
      let d := instanceListData ((os.map objEoj).filter fun x => x.1 ≠ 0x0E)
      let r := o.setPropertyData 0xD6#8 d
      let s := r.1.setPropertyData 0xD5#8 d
      .ok (s.1, r.2 ++ s.2) := by
  unfold NodeProfile.setInstanceList Node.instanceEntries instanceListData
  have hm : (os.map objEoj).filter (fun x => x.1 ≠ 0x0E) =
      (os.filter (fun c => !c.isProfile)).map objEoj := by
    rw [List.filter_map]; congr 1
    apply List.filter_congr
    intro x _
    simp only [Function.comp, Obj.isProfile, isProfileGroup, objEoj]
    by_cases h : x.grp = 0x0E#8 <;> simp [h]
  rw [hm]
  generalize os.filter (fun c => !c.isProfile) = l
  have hmin : (if 255 < l.length then 255 else l.length) = min 255 l.length := by
    split <;> omega
  simp only [hmin]
  rw [listData_eq _ _ _ (by rw [flatMap_len _ 3 (fun _ => rfl)]; apply Nat.mul_le_mul_right; omega)]
  rw [take_flatMap _ 3 (fun _ => rfl)]
  simp only [Res.bind_ok, Res.pure_eq, List.length_map, ← List.map_take, List.flatMap_map]
  have : l.take (min 255 l.length) = l.take 255 := by rw [List.take_eq_take_iff]; omega
  rw [this]; rfl

theorem setPropertyData_frame (o : Obj) (c : Byte) (d : List Byte) : SameFrame o (o.setPropertyData c d).1 := rfl

theorem setPropertyData_get (o : Obj) (c k : Byte) (d : List Byte) :
    (o.setPropertyData c d).1.getProperty k =
      if k = c then some { target o.props c with data := d } else o.getProperty k :=
  find_setData o.props c k d

theorem setPropertyData_data (o : Obj) (c k : Byte) (d : List Byte) :
    dataOf (o.setPropertyData c d).1 k = if k = c then some d else dataOf o k := by
  unfold dataOf
  rw [setPropertyData_get]
  split <;> rfl

theorem setPropertyIntegerData_eq (o : Obj) (c : Byte) (v : CInt) (k : Nat) (hk : k ≤ 4) :
    ∃ bs, o.setPropertyIntegerData c v k = .ok (o.setPropertyData c bs) ∧
      bs.length = k ∧ beValue bs = v.toNat % 256 ^ k := by
  obtain ⟨bs, h1, h2, h3⟩ := Props.beValue_integer2byte v k hk
  refine ⟨bs, ?_, h2, h3⟩
  simp [Obj.setPropertyIntegerData, PropertyList.setIntegerData, h1, Obj.setPropertyData]

theorem profileUpdate_spec (cs : List Class) (os : List Obj) (o : Obj) :
    ∃ o' ann, Node.profileUpdate cs os o = .ok (o', ann) ∧ SameFrame o o' ∧
      IsNumber 2 (cs.length % 65536) (dataOf o' 0xD4) ∧
      IsNumber 3 (((os.map objEoj).filter fun x => x.1 ≠ 0x0E).length % 16777216) (dataOf o' 0xD3) ∧
      dataOf o' 0xD7 = some (classListData ((cs.map fun c => (c.grp, c.cls)).filter fun x => x.1 ≠ 0x0E)) ∧
      dataOf o' 0xD6 = some (instanceListData ((os.map objEoj).filter fun x => x.1 ≠ 0x0E)) ∧
      dataOf o' 0xD5 = some (instanceListData ((os.map objEoj).filter fun x => x.1 ≠ 0x0E)) ∧
      ∀ c, c ∉ [0xD3#8, 0xD4#8, 0xD5#8, 0xD6#8, 0xD7#8] → o'.getProperty c = o.getProperty c := by
  unfold Node.profileUpdate NodeProfile.setClassCount NodeProfile.setInstanceCount
  obtain ⟨b4, h4, l4, v4⟩ := setPropertyIntegerData_eq o 0xD4#8 (BitVec.ofNat 32 cs.length) 2 (by omega)
  rw [h4]
  simp only [Res.bind_ok, setClassList_eq]
  obtain ⟨b3, h3, l3, v3⟩ := setPropertyIntegerData_eq ((o.setPropertyData 0xD4#8 b4).1.setPropertyData 0xD7#8
    (classListData ((cs.map fun c => (c.grp, c.cls)).filter fun x => x.1 ≠ 0x0E))).1 0xD3#8
    (BitVec.ofNat 32 (os.filter (fun o => !o.isProfile)).length) 3 (by omega)
  rw [h3]
  simp only [Res.bind_ok, setInstanceList_eq, Res.pure_eq]
  have hlen : ((os.map objEoj).filter fun x => x.1 ≠ 0x0E).length = (os.filter (fun o => !o.isProfile)).length := by
    rw [List.filter_map, List.length_map]; congr 1
    apply List.filter_congr
    intro x _
    simp only [Function.comp, Obj.isProfile, isProfileGroup, objEoj]
    by_cases h : x.grp = 0x0E#8 <;> simp [h]
  refine ⟨_, _, rfl, rfl, ?_, ?_, ?_, ?_, ?_, ?_⟩
  · refine ⟨b4, ?_, l4, ?_⟩
    · simp [setPropertyData_data]
    · rw [v4, BitVec.toNat_ofNat]; omega
  · refine ⟨b3, ?_, l3, ?_⟩
    · simp [setPropertyData_data]
    · rw [v3, BitVec.toNat_ofNat, hlen]; omega
  · simp [setPropertyData_data]
  · simp [setPropertyData_data]
  · simp [setPropertyData_data]
  · intro c hc
    simp only [List.mem_cons, List.not_mem_nil, or_false, not_or] at hc
    simp [setPropertyData_get, hc]

theorem findIdx_dest (x : Byte × Byte × Byte) : ∀ (l : List Obj),
    match l.find? (fun o => objEoj o == x) with
    | none => l.findIdx? (fun o => o.getCode == BitVec.ofNat 32 (eojNat x)) = none
    | some o => ∃ i, l.findIdx? (fun o => o.getCode == BitVec.ofNat 32 (eojNat x)) = some i ∧ l[i]? = some o ∧
        ∀ j y, j < i → l[j]? = some y → objEoj y ≠ x
  | [] => by simp
  | y :: ys => by
      have ih := findIdx_dest x ys
      rw [List.find?_cons, List.findIdx?_cons, isCode_iff]
      by_cases h : objEoj y == x
      · simp [h]
      · have h' : (objEoj y == x) = false := Bool.eq_false_iff.2 h
        simp only [h']
        cases hf : ys.find? (fun o => objEoj o == x) with
        | none => rw [hf] at ih; simp only at ih; simp [ih]
        | some o =>
          rw [hf] at ih
          obtain ⟨i, h1, h2, h3⟩ := ih
          refine ⟨i + 1, by simp [h1], by simpa using h2, ?_⟩
          intro j z hj hz
          cases j with
          | zero => simp at hz; subst hz; simpa using h'
          | succ j => exact h3 j z (by omega) (by simpa using hz)

/-- the profile update of a node whose profile belongs to a node -/
theorem updateProfile_some (e : Endian) {n : Node} {p : Obj} (h : destObj n profileEoj = some p)
    (hp : p.hasNode = true) :
    ∃ i p' eff t, n.objs[i]? = some p ∧ (∀ j y, j < i → n.objs[j]? = some y → objEoj y ≠ profileEoj) ∧
      SameFrame p p' ∧
      n.updateProfile e = .ok ({ n with objs := n.objs.set i p', lastTid := t }, eff, true) ∧
      IsNumber 2 (n.classes.length % 65536) (dataOf p' 0xD4) ∧
      IsNumber 3 ((instances n).length % 16777216) (dataOf p' 0xD3) ∧
      dataOf p' 0xD7 = some (classListData ((n.classes.map fun c => (c.grp, c.cls)).filter fun x => x.1 ≠ 0x0E)) ∧
      dataOf p' 0xD6 = some (instanceListData (instances n)) ∧
      dataOf p' 0xD5 = some (instanceListData (instances n)) ∧
      ∀ c, c ∉ [0xD3#8, 0xD4#8, 0xD5#8, 0xD6#8, 0xD7#8] → p'.getProperty c = p.getProperty c := by
  have hd := findIdx_dest profileEoj n.objs
  unfold destObj at h
  rw [h] at hd
  obtain ⟨i, h1, h2, h3⟩ := hd
  obtain ⟨p', ann, h4, h5, h6⟩ := profileUpdate_spec n.classes n.objs p
  have hn : p'.hasNode = true := by rw [h5.node]; exact hp
  refine ⟨i, p', ?_, ?_, h2, h3, h5, ?_, h6⟩
  rotate_left 2
  · unfold Node.updateProfile
    rw [profileCode_eq, h1]
    simp only [h2, hp, if_true, Node.onObj, h4, Res.bind_ok, announceAll_eq, hn]
    rfl

theorem updateProfile_none (e : Endian) {n : Node} (h : destObj n profileEoj = none) :
    n.updateProfile e = .ok (n, [], false) := by
  have hd := findIdx_dest profileEoj n.objs
  unfold destObj at h
  rw [h] at hd
  unfold Node.updateProfile
  rw [profileCode_eq, hd]

theorem updateProfile_detached (e : Endian) {n : Node} {p : Obj} (h : destObj n profileEoj = some p)
    (hp : p.hasNode = false) : n.updateProfile e = .ok (n, [], false) := by
  have hd := findIdx_dest profileEoj n.objs
  unfold destObj at h
  rw [h] at hd
  obtain ⟨i, h1, h2, h3⟩ := hd
  unfold Node.updateProfile
  rw [profileCode_eq, h1]
  simp [h2, hp]

theorem hasObject_iff (n : Node) (o : Obj) :
    n.hasObject o.getCode = true ↔ ∃ y ∈ n.objs, objEoj y = objEoj o := by
  unfold Node.hasObject
  rw [getCode_ofNat, getObject_dest]
  unfold destObj
  rw [List.find?_isSome]
  simp

/-- the node with the object appended, before the profile is updated -/
def appended (n : Node) (o : Obj) : Node :=
  { n with
    objs := n.objs ++ [o.setParentNode true]
    classes := if (⟨o.grp, o.cls⟩ : Class) ∈ n.classes then n.classes else n.classes ++ [⟨o.grp, o.cls⟩] }

theorem addObject_new (e : Endian) {n : Node} {o : Obj} (h : ∀ y ∈ n.objs, objEoj y ≠ objEoj o) :
    n.addObject e o = (appended n o).updateProfile e := by
  unfold Node.addObject
  have : ¬ n.hasObject o.getCode = true := by
    rw [hasObject_iff]; rintro ⟨y, hy, he⟩; exact h y hy he
  rw [if_neg this, listSet_eq]; rfl

theorem addObject_dup (e : Endian) {n : Node} {o : Obj} (h : ∃ y ∈ n.objs, objEoj y = objEoj o) :
    n.addObject e o = .ok (n, [], false) := by
  unfold Node.addObject
  rw [if_pos ((hasObject_iff n o).2 h)]

/-! ### histories -/

/-- codes, membership and classes are the same -/
structure SameIds (n n' : Node) : Prop where
  objs : n'.objs.map (fun o => (objEoj o, o.hasNode)) = n.objs.map (fun o => (objEoj o, o.hasNode))
  classes : n'.classes = n.classes

theorem SameIds.refl (n : Node) : SameIds n n := ⟨rfl, rfl⟩
theorem SameIds.trans {a b c : Node} (h : SameIds a b) (g : SameIds b c) : SameIds a c :=
  ⟨g.objs.trans h.objs, g.classes.trans h.classes⟩

theorem SameIds.set {n : Node} {i : Nat} {o o' : Obj} (hi : n.objs[i]? = some o)
    (h : objEoj o' = objEoj o ∧ o'.hasNode = o.hasNode) (t : BitVec 32) :
    SameIds n { n with objs := n.objs.set i o', lastTid := t } := by
  refine ⟨?_, rfl⟩
  simp only [List.map_set, h.1, h.2]
  apply List.ext_getElem?
  intro j
  by_cases hj : i = j
  · subst hj
    rw [List.getElem?_set]
    simp only [if_true, List.getElem?_map, hi, Option.map_some]
    split
    · rfl
    · rename_i hl; exact absurd (by simpa using (List.getElem?_eq_some_iff.1 hi).1) hl
  · rw [List.getElem?_set_ne hj]

theorem announceAll_ids (e : Endian) {n n' : Node} {o : Obj} {ps : List Property} {eff : List Effect}
    (h : n.announceAll e o ps = .ok (n', eff)) : SameIds n n' := by
  rw [announceAll_eq] at h
  split at h <;> simp only [Res.ok.injEq, Prod.mk.injEq] at h <;> rw [← h.1] <;> exact ⟨rfl, rfl⟩

theorem onObj_ids (e : Endian) {n n' : Node} {i : Nat} {f : Obj → Res Obj.Out} {eff : List Effect}
    (hf : KeepsIdentity f) (h : n.onObj e i f = .ok (n', eff)) : SameIds n n' := by
  unfold Node.onObj at h
  cases hi : n.objs[i]? with
  | none => rw [hi] at h; simp at h
  | some o =>
    rw [hi] at h
    simp only at h
    rw [Res.bind_eq_ok] at h
    obtain ⟨⟨o', a⟩, h1, h2⟩ := h
    exact (SameIds.set hi (hf o o' a h1) n.lastTid).trans (announceAll_ids e h2)

theorem announceMessage_ids (e : Endian) {n n' : Node} {m m' : Message} {eff : List Effect}
    (h : n.announceMessage e m = .ok (n', m', eff)) : n' = n.nextTid := by
  unfold Node.announceMessage at h
  simp only at h
  split at h
  · simp at h; exact h.1.symm
  · simp only [Res.bind_eq_ok, Res.pure_eq, Res.ok.injEq, Prod.mk.injEq] at h
    obtain ⟨_, _, _, _, _, _, _, _, h, _⟩ := h
    exact h.symm

theorem sendMessage_ids (e : Endian) {n n' : Node} {m m' : Message} {a : Option String} {eff : List Effect}
    (h : n.sendMessage e a m = .ok (n', m', eff)) : n' = n.nextTid := by
  unfold Node.sendMessage at h
  simp only at h
  split at h
  · simp at h; exact h.1.symm
  · simp only [Res.bind_eq_ok, Res.pure_eq, Res.ok.injEq, Prod.mk.injEq] at h
    obtain ⟨_, _, _, _, _, _, _, _, h, _⟩ := h
    exact h.symm

theorem setManufacturerCode_keeps (v : CInt) : KeepsIdentity (fun o => o.setManufacturerCode v) := by
  intro o o' a h
  change o.setPropertyIntegerData 0x8A#8 v 3 = _ at h
  obtain ⟨bs, h1, _⟩ := setPropertyIntegerData_eq o 0x8A#8 v 3 (by omega)
  rw [h1] at h
  simp only [Res.ok.injEq] at h
  rw [show o' = (o.setPropertyData 0x8A#8 bs).1 by rw [h]]
  exact ⟨rfl, rfl⟩

theorem setManufacturerCode_ids (e : Endian) (v : CInt) : ∀ (is : List Nat) (n n' : Node) (eff : List Effect),
    Node.setManufacturerCode e v is n = .ok (n', eff) → SameIds n n'
  | [], n, n', eff, h => by
      simp only [Node.setManufacturerCode, Res.ok.injEq, Prod.mk.injEq] at h
      rw [← h.1]; exact .refl _
  | i :: is, n, n', eff, h => by
      unfold Node.setManufacturerCode at h
      simp only [Res.bind_eq_ok, Res.pure_eq, Res.ok.injEq, Prod.mk.injEq] at h
      obtain ⟨⟨n1, e1⟩, h1, ⟨n2, e2⟩, h2, h3, _⟩ := h
      rw [← h3]
      exact (onObj_ids e (setManufacturerCode_keeps v) h1).trans (setManufacturerCode_ids e v is _ _ _ h2)

theorem start_ids (e : Endian) {n n' : Node} {b : List String} {eff : List Effect}
    (h : n.start e b = .ok (n', eff)) : SameIds n n' := by
  unfold Node.start Node.announce at h
  split at h
  · simp at h; rw [← h.1]; exact ⟨rfl, rfl⟩
  · split at h
    · simp at h; rw [← h.1]; exact ⟨rfl, rfl⟩
    · rw [announceProperty_eq] at h
      simp only [Res.ok.injEq, Prod.mk.injEq] at h
      rw [← h.1]; exact ⟨rfl, rfl⟩

theorem handleOne_frame {esv : Byte} {add : Message → Property → Res Message} {s s' : Node.Req} {p : Property}
    (h : Node.handleOne esv add s p = .ok s') : SameFrame s.obj s'.obj := by
  unfold Node.handleOne at h
  simp only at h
  split at h
  · simp only [Res.bind_eq_ok] at h
    obtain ⟨acc, _, h⟩ := h
    split at h
    · simp only [Res.bind_eq_ok, Res.pure_eq, Res.ok.injEq] at h
      obtain ⟨_, _, h⟩ := h
      rw [← h]; rfl
    · simp only [Res.bind_eq_ok, Res.pure_eq, Res.ok.injEq] at h
      obtain ⟨_, _, h⟩ := h
      rw [← h]; rfl
  · simp only [Res.bind_eq_ok, Res.pure_eq, Res.ok.injEq] at h
    obtain ⟨_, _, h⟩ := h
    rw [← h]; rfl

theorem handleAll_frame {esv : Byte} {add : Message → Property → Res Message} :
    ∀ {ps : List Property} {s s' : Node.Req}, Node.handleAll esv add s ps = .ok s' → SameFrame s.obj s'.obj
  | [], s, s', h => by simp [Node.handleAll] at h; rw [h]; rfl
  | p :: ps, s, s', h => by
      unfold Node.handleAll at h
      rw [Res.bind_eq_ok] at h
      obtain ⟨s1, h1, h2⟩ := h
      exact (handleOne_frame h1).trans (handleAll_frame h2)

theorem handleRequest_frame {o o' : Obj} {esv opc : Byte} {ep : List Property}
    {add : Message → Property → Res Message} {res res' : Message} {a : List Property} {k : Nat}
    (h : Node.handleRequest o esv opc ep add res = .ok (o', res', a, k)) : SameFrame o o' := by
  unfold Node.handleRequest at h
  simp only [Res.bind_eq_ok, Res.pure_eq, Res.ok.injEq, Prod.mk.injEq] at h
  obtain ⟨_, _, s, h1, h2, _⟩ := h
  rw [← h2]; exact handleAll_frame h1

theorem process_frame {o o' : Obj} {req res res' : Message} {a : List Property} {k : Nat}
    (h : Node.process o req res = .ok (o', res', a, k)) : SameFrame o o' := by
  unfold Node.process at h
  split at h
  · simp only [Res.bind_eq_ok, Res.pure_eq, Res.ok.injEq, Prod.mk.injEq] at h
    obtain ⟨⟨o1, r1, a1, k1⟩, h1, ⟨o2, r2, a2, k2⟩, h2, h3, _⟩ := h
    rw [← h3]; exact (handleRequest_frame h1).trans (handleRequest_frame h2)
  · exact handleRequest_frame h

theorem putObject_ids {n : Node} {c : CInt} {o o' : Obj} (h : n.getObject c = some o)
    (hs : SameFrame o o') : SameIds n (n.putObject c o') := by
  unfold Node.getObject at h
  unfold Node.putObject
  have : ∀ l : List Obj, l.find? (fun o => o.getCode == c) = some o →
      ∃ i, l.findIdx? (fun o => o.getCode == c) = some i ∧ l[i]? = some o := by
    intro l
    induction l with
    | nil => simp
    | cons y ys ih =>
      intro h
      rw [List.find?_cons] at h
      rw [List.findIdx?_cons]
      split at h
      · rename_i hy; simp only [Option.some.injEq] at h; exact ⟨0, by simp [hy], by simp [h]⟩
      · rename_i hy
        obtain ⟨i, h1, h2⟩ := ih h
        exact ⟨i + 1, by simp [hy, h1], by simpa using h2⟩
  obtain ⟨i, h1, h2⟩ := this _ h
  rw [h1]
  exact SameIds.set h2 ⟨hs.eoj, hs.node⟩ n.lastTid

theorem receive_ids (e : Endian) {n n' : Node} {loc a : Option String} {d : List Byte} {eff : List Effect}
    (h : n.receive e loc a d = .ok (n', eff)) : SameIds n n' := by
  unfold Node.receive at h
  rw [Res.bind_eq_ok] at h
  obtain ⟨⟨ok, m⟩, _, h⟩ := h
  cases ok with
  | false => simp at h; rw [← h.1]; exact .refl _
  | true =>
    simp only [if_true] at h
    unfold Node.messageListener at h
    simp only [Res.bind_eq_ok] at h
    obtain ⟨dst, _, h⟩ := h
    split at h
    · simp at h; rw [← h.1]; exact .refl _
    · rename_i o ho
      split at h
      · simp only [Res.bind_eq_ok, Res.pure_eq, Res.ok.injEq, Prod.mk.injEq] at h
        obtain ⟨_, _, _, _, _, _, ⟨o', r, an, k⟩, h1, ⟨n1, e3⟩, h2, _, _, h3, _⟩ := h
        rw [← h3]
        exact (putObject_ids ho (process_frame h1)).trans (announceAll_ids e h2)
      · simp at h; rw [← h.1]; exact .refl _

theorem updateProfile_ids (e : Endian) {n n' : Node} {eff : List Effect} {r : Bool}
    (h : n.updateProfile e = .ok (n', eff, r)) : SameIds n n' := by
  cases hd : destObj n profileEoj with
  | none =>
    rw [updateProfile_none e hd] at h; simp at h; rw [← h.1]; exact .refl _
  | some p =>
    cases hp : p.hasNode with
    | false => rw [updateProfile_detached e hd hp] at h; simp at h; rw [← h.1]; exact .refl _
    | true =>
      obtain ⟨i, p', eff', t, h1, _, h3, h4, _⟩ := updateProfile_some e hd hp
      rw [h4] at h
      simp only [Res.ok.injEq, Prod.mk.injEq] at h
      rw [← h.1]; exact SameIds.set h1 ⟨h3.eoj, h3.node⟩ t

theorem addObject_ids (e : Endian) {n n' : Node} {o : Obj} {eff : List Effect} {r : Bool}
    (h : n.addObject e o = .ok (n', eff, r)) :
    (n' = n ∧ eff = [] ∧ r = false ∧ ∃ y ∈ n.objs, objEoj y = objEoj o) ∨
    ((∀ y ∈ n.objs, objEoj y ≠ objEoj o) ∧ SameIds (appended n o) n') := by
  by_cases hd : ∃ y ∈ n.objs, objEoj y = objEoj o
  · rw [addObject_dup e hd] at h; simp at h; exact .inl ⟨h.1.symm, h.2.1, h.2.2, hd⟩
  · have hd : ∀ y ∈ n.objs, objEoj y ≠ objEoj o := fun y hy he => hd ⟨y, hy, he⟩
    rw [addObject_new e hd] at h
    exact .inr ⟨hd, updateProfile_ids e h⟩

/-- what holds of every reachable node -/
structure NInv (n : Node) : Prop where
  codes : (n.objs.map objEoj).Nodup
  node : ∀ o ∈ n.objs, o.hasNode = true
  classes : n.classes.map (fun c => (c.grp, c.cls)) = nodeClasses n

theorem SameIds.eojs {n n' : Node} (h : SameIds n n') : n'.objs.map objEoj = n.objs.map objEoj := by
  have := congrArg (List.map Prod.fst) h.objs
  simpa [List.map_map, Function.comp_def] using this

theorem SameIds.classOf {n n' : Node} (h : SameIds n n') : nodeClasses n' = nodeClasses n := by
  unfold nodeClasses
  have := congrArg (List.map (fun x : Byte × Byte × Byte => (x.1, x.2.1))) h.eojs
  simp only [List.map_map] at this
  exact congrArg firsts this

theorem SameIds.inv {n n' : Node} (h : SameIds n n') (hi : NInv n) : NInv n' := by
  refine ⟨by rw [h.eojs]; exact hi.codes, ?_, by rw [h.classes, h.classOf]; exact hi.classes⟩
  intro o ho
  have : (objEoj o, o.hasNode) ∈ n'.objs.map (fun o => (objEoj o, o.hasNode)) := List.mem_map_of_mem ho
  rw [h.objs] at this
  obtain ⟨y, hy, he⟩ := List.mem_map.1 this
  simp only [Prod.mk.injEq] at he
  rw [← he.2]; exact hi.node y hy

theorem firsts_mem {α : Type} [DecidableEq α] (x : α) : ∀ l : List α, x ∈ firsts l ↔ x ∈ l
  | [] => by simp [firsts]
  | y :: ys => by
      simp only [firsts, List.mem_cons, List.mem_filter, firsts_mem x ys, decide_eq_true_eq]
      constructor
      · rintro (h | h)
        · exact .inl h
        · exact .inr h.1
      · rintro (h | h)
        · exact .inl h
        · by_cases hx : x = y
          · exact .inl hx
          · exact .inr ⟨h, hx⟩

theorem firsts_nodup {α : Type} [DecidableEq α] : ∀ l : List α, (firsts l).Nodup
  | [] => by simp [firsts]
  | y :: ys => by
      simp only [firsts, List.nodup_cons, List.mem_filter, decide_eq_true_eq]
      exact ⟨fun h => h.2 rfl, (firsts_nodup ys).filter _⟩

theorem firsts_append_one {α : Type} [DecidableEq α] (x : α) : ∀ l : List α,
    firsts (l ++ [x]) = if x ∈ l then firsts l else firsts l ++ [x]
  | [] => by simp [firsts]
  | y :: ys => by
      simp only [List.cons_append, firsts, firsts_append_one x ys, List.mem_cons]
      by_cases hy : x = y
      · subst hy
        simp only [true_or, if_true]
        split
        · rfl
        · simp
      · by_cases hm : x ∈ ys
        · simp [hm, hy]
        · simp [hm, hy]

theorem appended_inv {n : Node} {o : Obj} (hi : NInv n) (h : ∀ y ∈ n.objs, objEoj y ≠ objEoj o) :
    NInv (appended n o) := by
  refine ⟨?_, ?_, ?_⟩
  · simp only [appended, List.map_append, List.map_cons, List.map_nil]
    rw [List.nodup_append]
    refine ⟨hi.codes, by simp, ?_⟩
    intro a ha b hb
    obtain ⟨y, hy, rfl⟩ := List.mem_map.1 ha
    simp only [List.mem_singleton] at hb
    subst hb; exact h y hy
  · intro y hy
    simp only [appended, List.mem_append, List.mem_singleton] at hy
    rcases hy with hy | hy
    · exact hi.node y hy
    · rw [hy]; rfl
  · unfold nodeClasses
    simp only [appended, List.map_append, List.map_cons, List.map_nil]
    have : (o.setParentNode true).grp = o.grp ∧ (o.setParentNode true).cls = o.cls := ⟨rfl, rfl⟩
    rw [this.1, this.2, firsts_append_one]
    have hc := hi.classes
    have hm : (⟨o.grp, o.cls⟩ : Class) ∈ n.classes ↔ (o.grp, o.cls) ∈ n.objs.map (fun o => (o.grp, o.cls)) := by
      rw [← firsts_mem (o.grp, o.cls)]
      change _ ↔ _ ∈ nodeClasses n
      rw [← hc, List.mem_map]
      constructor
      · intro h; exact ⟨_, h, rfl⟩
      · rintro ⟨⟨g, c⟩, h, he⟩
        simp only [Prod.mk.injEq] at he
        rw [← he.1, ← he.2]; exact h
    by_cases hh : (⟨o.grp, o.cls⟩ : Class) ∈ n.classes
    · rw [if_pos hh, if_pos (hm.1 hh)]; exact hc
    · rw [if_neg hh, if_neg (fun h => hh (hm.2 h)), List.map_append, hc]; rfl

theorem addObject_inv (e : Endian) {n n' : Node} {o : Obj} {eff : List Effect} {r : Bool} (hi : NInv n)
    (h : n.addObject e o = .ok (n', eff, r)) : NInv n' := by
  rcases addObject_ids e h with ⟨h, _⟩ | ⟨h1, h2⟩
  · rw [h]; exact hi
  · exact h2.inv (appended_inv hi h1)

theorem reach_inv {e : Endian} {db : Db} {n : Node} (h : NodeReach e db n) : NInv n := by
  have hcongr : ∀ {n n' : Node}, n'.objs = n.objs → n'.classes = n.classes → NInv n → NInv n' :=
    fun h1 h2 hi => SameIds.inv ⟨by rw [h1], h2⟩ hi
  induction h with
  | new junk rnd tid0 h =>
    unfold Node.new at h
    simp only [Res.bind_eq_ok, Res.pure_eq, Res.ok.injEq, Prod.mk.injEq] at h
    obtain ⟨o, _, ⟨n1, e1, r1⟩, h2, h3, _⟩ := h
    rw [← h3]
    exact hcongr (n := n1) rfl rfl (addObject_inv e ⟨by simp, by simp, rfl⟩ h2)
  | addObject o _ h ih => exact addObject_inv e ih h
  | setObject junk c _ h ih =>
    unfold Node.setObject at h
    split at h
    · simp at h; rw [← h.1]; exact ih
    · simp only [Res.bind_eq_ok] at h
      obtain ⟨⟨o, a⟩, _, h⟩ := h
      exact addObject_inv e ih h
  | clear _ ih => exact ⟨by simp [Node.clear], by simp [Node.clear], rfl⟩
  | setAddress a _ ih => refine SameIds.inv ?_ ih; exact ⟨rfl, rfl⟩
  | setMessageListener b _ ih => refine SameIds.inv ?_ ih; exact ⟨rfl, rfl⟩
  | setLastTid t _ ih => refine SameIds.inv ?_ ih; exact ⟨rfl, rfl⟩
  | nextTid _ ih => refine SameIds.inv ?_ ih; exact ⟨rfl, rfl⟩
  | edit i f _ hf h ih => exact (onObj_ids e hf h).inv ih
  | setManufacturerCode v is _ h ih => exact (setManufacturerCode_ids e v is _ _ _ h).inv ih
  | announceMessage m _ h ih => rw [announceMessage_ids e h]; refine SameIds.inv ?_ ih; exact ⟨rfl, rfl⟩
  | sendMessage a m _ h ih => rw [sendMessage_ids e h]; refine SameIds.inv ?_ ih; exact ⟨rfl, rfl⟩
  | start b _ h ih => exact (start_ids e h).inv ih
  | receive loc a d _ h ih => exact (receive_ids e h).inv ih

/-! ### transaction ids -/

theorem nextT_toNat (t : BitVec 32) : (nextT t).toNat = succTid t.toNat := by
  unfold nextT succTid
  have h : (65535#32 ≤ t) = (65535 ≤ t.toNat) := by rw [BitVec.le_def]; rfl
  simp only [h]
  split
  · rfl
  · rw [BitVec.toNat_add]; have : (2:Nat)^32 = 4294967296 := by decide
    simp; omega

theorem succTid_range (t : Nat) : 1 ≤ succTid t ∧ succTid t ≤ 65535 := by
  unfold succTid; split <;> omega

theorem tidNat_tidBytes (e : Endian) (v : BitVec 32) (h : v.toNat ≤ 65535) :
    tidNat e (tidBytes e v) = v.toNat := by
  have := Props.C07_wire_bytes_partial Message.new v h
  unfold tidNat tidBytes
  cases e with
  | little => simp only [this.2.1.1, this.2.1.2]; omega
  | big => simp only [this.1.1, this.1.2]; omega

theorem tidNat_next (e : Endian) (t : BitVec 32) : tidNat e (tidBytes e (nextT t)) = succTid t.toNat := by
  rw [tidNat_tidBytes, nextT_toNat]
  rw [nextT_toNat]; exact (succTid_range _).2

theorem sendMessage_eq (e : Endian) (n : Node) (a : String) {m : Message} (h : Inv m) :
    n.sendMessage e (some a) m = .ok
      (match destObj n profileEoj with
       | none => (n.nextTid, m.setTid e (nextT n.lastTid), [])
       | some _ =>
         let m' : Message := { m.setTid e (nextT n.lastTid) with seoj := profileEoj }
         (n.nextTid, m', [sends (some a) (toFrame m')])) := by
  unfold Node.sendMessage
  simp only
  rw [profileCode_eq, getObject_dest]
  have ht : destObj n.nextTid profileEoj = destObj n profileEoj := rfl
  rw [ht]
  cases hp : destObj n profileEoj with
  | none => rfl
  | some o =>
    simp only
    have : o.getCode = BitVec.ofNat 32 (eojNat profileEoj) := by
      rw [getCode_ofNat, destObj_code hp]
    simp only [Message.setSourceObjectCode, this, eojOfCode_eq, Res.bind_ok, Res.pure_eq]
    have hi : Inv { m.setTid e n.nextTid.lastTid with seoj := profileEoj } :=
      ⟨⟨h.ep, h.epSet, h.epGet⟩, h.ehd1, h.ehd2⟩
    have := send_inv hi a
    rw [getBytes_eq hi.toMsgWF, size_eq hi.toMsgWF] at this ⊢
    simp only [Res.bind_ok] at this ⊢
    rw [this]
    rfl

theorem encode_tid {f g : Frame} (h : encode f = encode g) : f.tid = g.tid := by
  have h2 := congrArg (fun l => l[2]?) h
  have h3 := congrArg (fun l => l[3]?) h
  simp [encode] at h2 h3
  exact Prod.ext h2 h3

theorem sends_tid {to : Option String} {gs : List Frame} {f : Frame}
    (h : gs.map (sends to) = [sends to f]) : gs.map (·.tid) = [f.tid] := by
  cases gs with
  | nil => simp at h
  | cons g gs =>
    cases gs with
    | cons g' gs => simp at h
    | nil =>
      simp only [List.map_cons, List.map_nil, List.cons.injEq, and_true] at h
      unfold sends at h
      simp only [Effect.send.injEq, true_and] at h
      simp [encode_tid (map_some_inj h)]

theorem outgoing_sublist {e : Endian} {n n' : Node} {k : Nat} {fs : List Frame} (h : Outgoing e n k fs n') :
    (fs.map fun f => tidNat e f.tid).Sublist (tidSeq k n.lastTid.toNat) := by
  have step : ∀ {n n1 : Node} {k : Nat} {gs fs : List Frame}, n1 = n.nextTid →
      (gs.map (·.tid) = [] ∨ gs.map (·.tid) = [tidBytes e (nextT n.lastTid)]) →
      (fs.map fun f => tidNat e f.tid).Sublist (tidSeq k n1.lastTid.toNat) →
      ((gs ++ fs).map fun f => tidNat e f.tid).Sublist (tidSeq (k + 1) n.lastTid.toNat) := by
    intro n n1 k gs fs h1 h2 h3
    rw [h1, nextTid_eq] at h3
    simp only [nextT_toNat] at h3
    have hg : gs.map (fun f => tidNat e f.tid) = (gs.map (·.tid)).map (tidNat e) := by
      rw [List.map_map]; rfl
    rw [List.map_append, hg]
    unfold tidSeq
    rcases h2 with h2 | h2
    · rw [h2]; exact h3.cons _
    · rw [h2]; simp only [List.map_cons, List.map_nil, tidNat_next, List.singleton_append]
      exact h3.cons_cons _
  induction h with
  | done => simp
  | @announce n n1 n' m m' k fs gs hm ha _ ih =>
    refine step (announceMessage_ids e ha) ?_ ih
    rw [announceMessage_eq e n (reachable_inv hm)] at ha
    simp only [Res.ok.injEq] at ha
    split at ha
    · simp at ha; left; simp [ha.2.2]
    · simp only [Prod.mk.injEq] at ha
      right; rw [sends_tid ha.2.2.symm]
      simp [toFrame, setTid_eq]
  | @send n n1 n' m m' k fs gs a hm ha _ ih =>
    refine step (sendMessage_ids e ha) ?_ ih
    rw [sendMessage_eq e n a (reachable_inv hm)] at ha
    simp only [Res.ok.injEq] at ha
    split at ha
    · simp at ha; left; simp [ha.2.2]
    · simp only [Prod.mk.injEq] at ha
      right; rw [sends_tid ha.2.2.symm]
      simp [toFrame, setTid_eq]
  | @property n n1 n' k fs gs c p ha _ ih =>
    rw [announceProperty_eq] at ha
    simp only [Res.ok.injEq, Prod.mk.injEq] at ha
    refine step ha.1.symm ?_ ih
    split at ha
    · simp at ha; left; simp [ha.2]
    · right; rw [sends_tid ha.2.symm]; rfl

theorem tidSeq_get : ∀ (k t j : Nat), j < k → (tidSeq k t)[j]? = some ((succTid t - 1 + j) % 65535 + 1)
  | k + 1, t, 0, _ => by
      have := succTid_range t
      simp only [tidSeq, List.getElem?_cons_zero]
      congr 1; omega
  | k + 1, t, j + 1, h => by
      simp only [tidSeq, List.getElem?_cons_succ]
      rw [tidSeq_get k (succTid t) j (by omega)]
      have := succTid_range t
      congr 1
      generalize succTid t = u at this
      have hu : succTid u = if 65535 ≤ u then 1 else u + 1 := rfl
      rw [hu]
      split <;> omega

theorem tidSeq_length : ∀ k t, (tidSeq k t).length = k
  | 0, _ => rfl
  | k + 1, t => by simp [tidSeq, tidSeq_length k]

theorem tidSeq_nodup (k t : Nat) (h : k ≤ 65535) : (tidSeq k t).Nodup := by
  unfold List.Nodup
  rw [List.pairwise_iff_getElem]
  intro i j hi hj hij
  rw [tidSeq_length] at hi hj
  have h1 := tidSeq_get k t i hi
  have h2 := tidSeq_get k t j hj
  rw [List.getElem?_eq_some_iff] at h1 h2
  obtain ⟨_, h1⟩ := h1
  obtain ⟨_, h2⟩ := h2
  rw [h1, h2]
  have := succTid_range t
  omega

theorem tidSeq_range (k t x : Nat) (h : x ∈ tidSeq k t) : 1 ≤ x ∧ x ≤ 65535 := by
  induction k generalizing t with
  | zero => simp [tidSeq] at h
  | succ k ih =>
    simp only [tidSeq, List.mem_cons] at h
    rcases h with rfl | h
    · exact succTid_range t
    · exact ih _ h

/-! ### announcements of writes -/

theorem ann_setData_eq (p : Property) (d : List Byte) :
    PropertyList.ann (p.setData d) =
      if d ≠ [] ∧ CanAnnounce p ∧ p.hasParent = true then [{ p with data := d }] else [] := by
  unfold PropertyList.ann
  have h1 := (Props.C13_announce p d).1
  rw [announceable_iff] at h1
  have h2 : (p.setData d).1 = { p with data := d } := setData_fst p d
  rw [h2]
  by_cases hd : d ≠ [] ∧ CanAnnounce p
  · have := h1.2 hd
    by_cases hp : p.hasParent = true
    · simp [this, hp, hd.1, hd.2]
    · simp [this, hp]
  · have : (p.setData d).2 = false := Bool.eq_false_iff.2 (fun h => hd (h1.1 h))
    rw [this]
    have hn : ¬ (d ≠ [] ∧ CanAnnounce p ∧ p.hasParent = true) := fun ⟨h1, h2, _⟩ => hd ⟨h1, h2⟩
    rw [if_neg hn]; rfl

theorem target_some {o : Obj} {c : Byte} {p : Property} (h : o.getProperty c = some p) :
    target o.props c = p := by
  unfold target; change (match o.getProperty c with | some p => p | none => _) = p; rw [h]

theorem target_none {o : Obj} {c : Byte} (h : o.getProperty c = none) :
    target o.props c = Property.new.setCode c := by
  unfold target; change (match o.getProperty c with | some p => p | none => _) = _; rw [h]

theorem annEff_zip (e : Endian) : ∀ (ps : List Property) (t : BitVec 32),
    ∃ ts, ts.map (tidNat e) = tidSeq ps.length t.toNat ∧
      annEff e t ps = List.zipWith (fun t q => sends none ⟨t, profileEoj, profileEoj, 0x73, .plain [q]⟩) ts
        (ps.map fun p => (p.code, p.data))
  | [], t => ⟨[], rfl, rfl⟩
  | p :: ps, t => by
      obtain ⟨ts, h1, h2⟩ := annEff_zip e ps (nextT t)
      refine ⟨tidBytes e (nextT t) :: ts, ?_, ?_⟩
      · simp only [List.map_cons, tidNat_next, h1, List.length_cons, tidSeq, nextT_toNat]
      · simp only [annEff, h2, annFrame, List.map_cons, List.zipWith_cons_cons]
        rfl

theorem iterT_toNat : ∀ (k : Nat) (t : BitVec 32), iterT k t = t ∧ k = 0 ∨
    (tidSeq k t.toNat).getLast? = some (iterT k t).toNat
  | 0, t => .inl ⟨rfl, rfl⟩
  | k + 1, t => by
      right
      unfold iterT tidSeq
      rw [← nextT_toNat]
      rcases iterT_toNat k (nextT t) with ⟨h, rfl⟩ | h
      · rw [h]; rfl
      · rw [List.getLast?_cons, h]; rfl

theorem runAnn_write {esv : Byte} (h : isW esv = true) : ∀ (qs : List Prop8) (o : Obj),
    (runAnn esv o qs).map (fun p => (p.code, p.data)) = announced o.observers esv o.getProperty qs
  | [], _ => rfl
  | q :: qs, o => by
      unfold runAnn announced
      rw [List.map_append, runAnn_write h qs, (stepObj_frame esv o q).obs, stepObj_get h]
      congr 1
      unfold stepAnn
      rw [h, Bool.and_true]
      by_cases hg : granted o.observers esv o.getProperty q = true
      · rw [if_pos hg]
        cases hp : o.getProperty q.1 with
        | none => simp [granted, hp] at hg
        | some p =>
          simp only [ann_setData_eq]
          have hc : p.code = q.1 := find_code hp
          by_cases hx : q.2 ≠ [] ∧ CanAnnounce p ∧ p.hasParent = true
          · rw [if_pos hx, if_pos ⟨hg, hx.1, p, rfl, hx.2⟩]
            simp [hc]
          · rw [if_neg hx, if_neg]
            · rfl
            · rintro ⟨_, h1, p', h2, h3⟩
              simp only [Option.some.injEq] at h2
              subst h2; exact hx ⟨h1, h3⟩
      · rw [if_neg hg, if_neg (fun h => hg h.1)]; rfl

end Uecho.Lemmas
