import Verif.Lemmas.Object
import Verif.Lemmas.Attr
import Verif.Spec.ObjectApi
import Verif.Spec.PropertyMap
/-!
# Properties C08 (objects), C20–C25, C65: objects and their properties
-/
set_option linter.unusedSimpArgs false
namespace Uecho.Props
open Uecho Uecho.Spec Uecho.Lemmas

/-! ## C08: object codes -/

theorem updatePropertyMaps_codes {junk : Nat → Byte} {o o' : Obj} {a : List Property}
    (h : o.updatePropertyMaps junk = .ok (o', a)) :
    o'.grp = o.grp ∧ o'.cls = o.cls ∧ o'.ins = o.ins ∧ o'.name = o.name ∧
      o'.observers = o.observers ∧ o'.hasNode = o.hasNode ∧ o'.hasListener = o.hasListener := by
  rw [updatePropertyMaps_eq] at h
  simp only at h
  split at h
  · cases h
  · cases h; exact ⟨rfl, rfl, rfl, rfl, rfl, rfl, rfl⟩

/-- **C08** (objects). Whenever `setcode` with a 24-bit code is defined, `getcode` returns that code, the
group, class and instance bytes agree with it, and `iscode` holds for it only. -/
theorem C08_object_code (db : Db) (junk : Nat → Byte) (o o' : Obj) (a : List Property) (c : CInt)
    (hc : c.toNat ≤ 0xFFFFFF) (h : o.setCode db junk c = .ok (o', a)) :
    o'.getCode = c ∧ o'.grp.toNat = c.toNat / 65536 ∧ o'.cls.toNat = c.toNat / 256 % 256 ∧
      o'.ins.toNat = c.toNat % 256 ∧ ∀ d, o'.isCode d = true ↔ d = c := by
  have hb := code_bytes c
  unfold Obj.setCode at h
  have h1 := updatePropertyMaps_codes h
  have h2 := addStandard_codes db { o with
    grp := ((c &&& 0xFF0000#32).sshiftRight 16).setWidth 8
    cls := ((c &&& 0x00FF00#32).sshiftRight 8).setWidth 8
    ins := (c &&& 0x0000FF#32).setWidth 8 }
  have hg : o'.grp.toNat = c.toNat / 65536 := by rw [h1.1, h2.1]; simp only; omega
  have hk : o'.cls.toNat = c.toNat / 256 % 256 := by rw [h1.2.1, h2.2.1]; exact hb.2.1
  have hi : o'.ins.toNat = c.toNat % 256 := by rw [h1.2.2.1, h2.2.2.1]; exact hb.2.2
  have hcode : o'.getCode = c := by
    apply BitVec.eq_of_toNat_eq; rw [getCode_toNat]; omega
  refine ⟨hcode, hg, hk, hi, fun d => ?_⟩
  unfold Obj.isCode; rw [hcode, beq_iff_eq]; exact eq_comm

/-- `setcode` on a new object is defined whatever the database and the heap content. -/
theorem setCode_new_defined (db : Db) (junk : Nat → Byte) (c : CInt) :
    (Obj.new.setCode db junk c).Defined := by
  unfold Obj.setCode
  rw [updatePropertyMaps_eq]
  simp only
  have h2 := addStandard_codes db { Obj.new with
    grp := ((c &&& 0xFF0000#32).sshiftRight 16).setWidth 8
    cls := ((c &&& 0x00FF00#32).sshiftRight 8).setWidth 8
    ins := (c &&& 0x0000FF#32).setWidth 8 }
  rw [if_neg (by rw [h2.2.2.2]; simp [Obj.new])]
  exact Res.defined_ok _

/-- hypotheses of `C08_object_code` are met by every 24-bit code on a new object -/
example : ∃ o' a, Obj.new.setCode [] (fun _ => 0) 0x013001#32 = .ok (o', a) ∧
    (0x013001#32).toNat ≤ 0xFFFFFF := by
  obtain ⟨x, hx⟩ := setCode_new_defined [] (fun _ => 0) 0x013001#32
  exact ⟨x.1, x.2, hx, by decide⟩

/-! ## C21: unique codes -/

theorem setProperty_uniq {junk : Nat → Byte} {o o' : Obj} {c : Byte} {attr : CInt}
    {a : List Property} (h : o.setProperty junk c attr = .ok (o', a))
    (hu : (o.props.map (·.code)).Nodup) : (o'.props.map (·.code)).Nodup := by
  unfold Obj.setProperty at h
  simp only [Res.pure_eq] at h
  rw [Res.bind_eq_ok] at h
  obtain ⟨⟨o1, a1⟩, h1, h2⟩ := h
  cases h2
  apply updatePropertyMaps_uniq h1
  simp only
  rw [modifyFirst_codes c (fun p => p.setParent true) (fun _ => rfl)]
  exact uniq_set hu _ _ _

/-- **C21.** An object reached by any history of API calls has at most one property per code, so a
lookup by code finds a property iff it is in the list. -/
theorem C21_unique_codes (db : Db) (o : Obj) (h : ObjReach db o) :
    (o.props.map (·.code)).Nodup ∧
    ∀ c p, o.getProperty c = some p ↔ (p ∈ o.props ∧ p.code = c) := by
  have hu : (o.props.map (·.code)).Nodup := by
    induction h with
    | new => simp [Obj.new]
    | setCode junk v _ h ih => exact updatePropertyMaps_uniq h (uniq_addStandard _ _ ih)
    | setGroupCode v _ ih => exact uniq_addStandard _ _ ih
    | setClassCode v _ ih => exact uniq_addStandard _ _ ih
    | setInstanceCode v _ ih => exact ih
    | addProperty p _ ih => exact uniq_add ih _
    | setProperty junk c attr _ h ih => exact setProperty_uniq h ih
    | setPropertyData c d _ ih => exact uniq_setData ih _ _
    | setPropertyIntegerData c v size _ h ih =>
      unfold Obj.setPropertyIntegerData PropertyList.setIntegerData at h
      simp only [Res.pure_eq] at h
      rw [Res.bind_eq_ok] at h
      obtain ⟨⟨ps, a1⟩, h1, h2⟩ := h
      rw [Res.bind_eq_ok] at h1
      obtain ⟨bs, h3, h4⟩ := h1
      cases h4; cases h2
      exact uniq_setData ih _ _
    | setPropertyByteData c b _ ih => exact uniq_setData ih _ _
    | setPropertyAttribute c attr _ ih => exact uniq_setAttribute ih _ _
    | getPropertyDataSize c _ ih => exact uniq_getByCode ih c
    | getPropertyData c _ ih => exact uniq_getByCode ih c
    | getPropertyIntegerData c _ h ih =>
      unfold Obj.getPropertyIntegerData PropertyList.getIntegerData at h
      simp only [Res.pure_eq] at h
      rw [Res.bind_eq_ok] at h
      obtain ⟨⟨ps, a1⟩, h1, h2⟩ := h
      rw [Res.bind_eq_ok] at h1
      obtain ⟨bs, h3, h4⟩ := h1
      cases h4; cases h2
      exact uniq_getByCode ih _
    | getPropertyByteData c _ h ih =>
      unfold Obj.getPropertyByteData PropertyList.getByteData at h
      simp only [Res.pure_eq] at h
      rw [Res.bind_eq_ok] at h
      obtain ⟨⟨ps, a1⟩, h1, h2⟩ := h
      rw [Res.bind_eq_ok] at h1
      obtain ⟨bs, h3, h4⟩ := h1
      cases h4; cases h2
      exact uniq_getByCode ih _
    | clearProperties _ ih => simp [Obj.clearProperties, Obj.clearMapCaches]
    | updatePropertyMaps junk _ h ih => exact updatePropertyMaps_uniq h ih
    | setName n _ ih => exact ih
    | setParentNode b _ ih => exact ih
    | setMessageListener b _ ih => exact ih
    | setRequestHandler esv c h _ ih => exact ih
  exact ⟨hu, fun c p => find_mem_iff hu⟩

/-- a reachable object with two properties -/
example : ObjReach [] ((Obj.new.setPropertyData 0x80 [0x30]).1.setPropertyByteData 0x81 1).1 :=
  .setPropertyByteData _ _ (.setPropertyData _ _ .new)

/-! ## C22: data setters -/

/-- What a data setter did: the property `c` now holds `d`, keeps its attributes (a property that did
not exist is created readable and writable), and nothing else in the object changed. -/
def WroteOnly (o o' : Obj) (c : Byte) (d : List Byte) : Prop :=
  (o'.getPropertyData c).2 = d ∧
  (∀ p, o.getProperty c = some p → o'.getProperty c = some { p with data := d }) ∧
  (o.getProperty c = none → ∃ p, o'.getProperty c = some p ∧ p.code = c ∧ p.data = d ∧
    p.attr = Attr.readWrite) ∧
  (∀ c', c' ≠ c → o'.getProperty c' = o.getProperty c') ∧
  { o' with props := o.props } = o

theorem wroteOnly_setData (o : Obj) (c : Byte) (d : List Byte) :
    WroteOnly o { o with props := (PropertyList.setData o.props c d).1 } c d := by
  have hf := find_setData o.props c
  refine ⟨?_, ?_, ?_, ?_, rfl⟩
  · simp only [Obj.getPropertyData, PropertyList.getData]
    rw [getByCode_snd, target, hf, if_pos rfl]
  · intro p hp
    simp only [Obj.getProperty] at hp ⊢
    rw [hf, if_pos rfl, target, hp]
  · intro hp
    simp only [Obj.getProperty] at hp ⊢
    rw [hf, if_pos rfl, target, hp]
    exact ⟨_, rfl, rfl, rfl, rfl⟩
  · intro c' h
    simp only [Obj.getProperty]
    rw [hf, if_neg h]

/-- **C22.** Setting the data of one property of any object makes reading that property return the data
and changes nothing else; the same for the byte setter, and for the integer setter whenever it is
defined (it stores the big-endian bytes `uecho_integer2byte` yields, see C14). -/
theorem C22_set_frame (o : Obj) (c : Byte) :
    (∀ d, WroteOnly o (o.setPropertyData c d).1 c d) ∧
    (∀ b, WroteOnly o (o.setPropertyByteData c b).1 c [b]) ∧
    (∀ v size o' a, o.setPropertyIntegerData c v size = .ok (o', a) →
      ∃ bs, integer2byte v size = .ok bs ∧ WroteOnly o o' c bs) := by
  refine ⟨fun d => wroteOnly_setData o c d, fun b => wroteOnly_setData o c [b], ?_⟩
  intro v size o' a h
  unfold Obj.setPropertyIntegerData PropertyList.setIntegerData at h
  simp only [Res.pure_eq] at h
  rw [Res.bind_eq_ok] at h
  obtain ⟨⟨ps, a1⟩, h1, h2⟩ := h
  rw [Res.bind_eq_ok] at h1
  obtain ⟨bs, h3, h4⟩ := h1
  cases h4; cases h2
  exact ⟨bs, h3, wroteOnly_setData o c bs⟩

/-- an integer setter call that is defined -/
example : ∃ o' a, Obj.new.setPropertyIntegerData 0x8A 0x000077#32 3 = .ok (o', a) := ⟨_, _, rfl⟩

/-! ## C23: getters -/

/-- **C23, violated.** Reading the data of a property the object lacks adds that property. -/
theorem C23_violated : ∃ (o : Obj) (c : Byte),
    o.hasProperty c = false ∧ (o.getPropertyData c).1.hasProperty c = true :=
  ⟨Obj.new, 0x80, by decide, by decide⟩

/-- **C23, what holds.** The four getters leave an object unchanged when it has the property; otherwise
they add an empty one with that code and change nothing else. Missing: no change at all in the
second case (false). -/
theorem C23_get_partial (o : Obj) (c : Byte) :
    let same (o' : Obj) : Prop :=
      (o.hasProperty c = true → o' = o) ∧
      (∀ c', c' ≠ c → o'.getProperty c' = o.getProperty c') ∧
      (o.hasProperty c = false → ∃ p, o'.getProperty c = some p ∧ p.data = []) ∧
      { o' with props := o.props } = o
    same (o.getPropertyDataSize c).1 ∧ same (o.getPropertyData c).1 ∧
    (∀ o' v, o.getPropertyIntegerData c = .ok (o', v) → same o') ∧
    (∀ o' v, o.getPropertyByteData c = .ok (o', v) → same o') := by
  have key : let o' : Obj := { o with props := (PropertyList.getByCode o.props c).1 }
      (o.hasProperty c = true → o' = o) ∧
      (∀ c', c' ≠ c → o'.getProperty c' = o.getProperty c') ∧
      (o.hasProperty c = false → ∃ p, o'.getProperty c = some p ∧ p.data = []) ∧
      { o' with props := o.props } = o := by
    refine ⟨?_, ?_, ?_, rfl⟩
    · intro h
      unfold Obj.hasProperty Obj.getProperty at h
      unfold PropertyList.getByCode
      cases hf : PropertyList.find o.props c with
      | none => simp [hf] at h
      | some p => rfl
    · intro c' h; exact find_getByCode_other _ h
    · intro h
      unfold Obj.hasProperty Obj.getProperty at h
      refine ⟨_, find_getByCode_self _ _, ?_⟩
      rw [getByCode_snd, target]
      cases hf : PropertyList.find o.props c with
      | none => rfl
      | some p => simp [hf] at h
  refine ⟨key, key, ?_, ?_⟩
  · intro o' v h
    unfold Obj.getPropertyIntegerData PropertyList.getIntegerData at h
    simp only [Res.pure_eq] at h
    rw [Res.bind_eq_ok] at h
    obtain ⟨⟨ps, a1⟩, h1, h2⟩ := h
    rw [Res.bind_eq_ok] at h1
    obtain ⟨bs, h3, h4⟩ := h1
    cases h4; cases h2
    exact key
  · intro o' v h
    unfold Obj.getPropertyByteData PropertyList.getByteData at h
    simp only [Res.pure_eq] at h
    rw [Res.bind_eq_ok] at h
    obtain ⟨⟨ps, a1⟩, h1, h2⟩ := h
    rw [Res.bind_eq_ok] at h1
    obtain ⟨bs, h3, h4⟩ := h1
    cases h4; cases h2
    exact key

/-! ## C24: standard properties -/

/-- `x` is the first element of `l` with the property. -/
def FirstWith {α : Type} (P : α → Prop) (l : List α) (x : α) : Prop := ∃ pre post, l = pre ++ x :: post ∧ P x ∧ ∀ y ∈ pre, ¬ P y

/-- `d` is what the database says of the class `k` of the group `g`. -/
def StdEntry (db : Db) (g k : Byte) (d : DbObj) : Prop := FirstWith (fun x : DbObj => x.grp = g ∧ x.cls = k) db d

/-- `s` is the property `c` of an entry of the database. -/
def EntryProp (d : DbObj) (c : Byte) (s : Property) : Prop := FirstWith (fun p : Property => p.code = c) d.props s

/-- The database's property with code `c` for the class of `v`: from the super class 0x0000, else from
the class itself. -/
def StdProp (db : Db) (v : CInt) (c : Byte) (s : Property) : Prop :=
  (∃ sup, StdEntry db 0x00#8 0x00#8 sup ∧ EntryProp sup c s) ∨
  ((∀ sup, StdEntry db 0x00#8 0x00#8 sup → ¬ ∃ s', EntryProp sup c s') ∧
    ∃ cl, StdEntry db (BitVec.ofNat 8 (v.toNat / 65536)) (BitVec.ofNat 8 (v.toNat / 256)) cl ∧ EntryProp cl c s)

theorem find_first {α : Type} {p : α → Bool} {l : List α} {x : α} : l.find? p = some x ↔ FirstWith (fun y => p y = true) l x := by
  rw [List.find?_eq_some_iff_append]
  unfold FirstWith
  constructor
  · rintro ⟨h1, pre, post, h2, h3⟩
    exact ⟨pre, post, h2, h1, fun y hy => by have := h3 y hy; simpa using this⟩
  · rintro ⟨pre, post, h2, h1, h3⟩
    exact ⟨h1, pre, post, h2, fun y hy => by have := h3 y hy; simpa using this⟩

theorem getObject_iff {db : Db} {g k : Byte} {d : DbObj} : db.getObject g k = some d ↔ StdEntry db g k d := by
  unfold Db.getObject StdEntry
  rw [find_first]
  simp only [Bool.and_eq_true, beq_iff_eq]

theorem propFind_iff {d : DbObj} {c : Byte} {s : Property} : PropertyList.find d.props c = some s ↔ EntryProp d c s := by
  unfold PropertyList.find EntryProp
  rw [find_first]
  simp only [beq_iff_eq]

theorem stdProp_iff {db : Db} {v : CInt} {c : Byte} {s : Property} : StdProp db v c s ↔
    (∃ sup, db.getObject 0 0 = some sup ∧ PropertyList.find sup.props c = some s) ∨
    ((∀ sup, db.getObject 0 0 = some sup → PropertyList.find sup.props c = none) ∧
      ∃ g k cl, g = BitVec.ofNat 8 (v.toNat / 65536) ∧ k = BitVec.ofNat 8 (v.toNat / 256) ∧
        db.getObject g k = some cl ∧ PropertyList.find cl.props c = some s) := by
  have hn : ∀ sup : DbObj, PropertyList.find sup.props c = none ↔ ¬ ∃ s', EntryProp sup c s' := by
    intro sup
    rw [Option.eq_none_iff_forall_ne_some]
    simp only [← propFind_iff, not_exists, ne_eq]
  unfold StdProp
  simp only [hn, getObject_iff, propFind_iff]
  constructor
  · rintro (h | ⟨h1, cl, h2, h3⟩)
    · exact Or.inl h
    · exact Or.inr ⟨h1, _, _, cl, rfl, rfl, h2, h3⟩
  · rintro (h | ⟨h1, g, k, cl, rfl, rfl, h2, h3⟩)
    · exact Or.inl h
    · exact Or.inr ⟨h1, cl, h2, h3⟩

/-- **C24.** Adding the standard properties reports whether the database knows both the super class and the class of the object. -/
theorem C24_reports (db : Db) (o : Obj) :
    (o.addStandard db).2 = true ↔ (∃ d, StdEntry db 0x00#8 0x00#8 d) ∧ ∃ d, StdEntry db o.grp o.cls d := by
  have hm : ∀ (ps : List Property) (o : Obj), (o.addMissing ps).grp = o.grp ∧ (o.addMissing ps).cls = o.cls := by
    intro ps
    induction ps with
    | nil => intro o; exact ⟨rfl, rfl⟩
    | cons p ps ih =>
      intro o
      unfold Obj.addMissing
      split
      · exact ih o
      · have := ih (o.addProperty p.copy); exact this
  have h1 : ∀ (o : Obj) (g c : Byte), (o.addStandardWithCode db g c).2 = true ↔ ∃ d, StdEntry db g c d := by
    intro o g c
    simp only [← getObject_iff]
    unfold Obj.addStandardWithCode
    cases db.getObject g c <;> simp
  have h2 : ∀ (o : Obj) (g c : Byte), (o.addStandardWithCode db g c).1.grp = o.grp ∧ (o.addStandardWithCode db g c).1.cls = o.cls := by
    intro o g c
    unfold Obj.addStandardWithCode
    cases db.getObject g c with
    | none => exact ⟨rfl, rfl⟩
    | some s =>
      have hs : ∀ x, (o.setName x).grp = o.grp ∧ (o.setName x).cls = o.cls := by
        intro x; cases x <;> exact ⟨rfl, rfl⟩
      exact ⟨(hm _ _).1.trans (hs _).1, (hm _ _).2.trans (hs _).2⟩
  unfold Obj.addStandard
  simp only [Bool.and_eq_true, h1, h2]

/-- **C24.** For every database, object and code: after `setcode`, any property other than the three
maps that the object had is unchanged; one it lacked is present iff the database has it for the
super class or the class, with the database's name, attributes and data. -/
theorem C24_standard_properties (db : Db) (junk : Nat → Byte) (o o' : Obj) (a : List Property)
    (v : CInt) (h : o.setCode db junk v = .ok (o', a)) (c : Byte)
    (h1 : c ≠ 0x9D#8) (h2 : c ≠ 0x9E#8) (h3 : c ≠ 0x9F#8) :
    (∀ p, o.getProperty c = some p → o'.getProperty c = some p) ∧
    (o.getProperty c = none →
      (∀ s, StdProp db v c s → ∃ p, o'.getProperty c = some p ∧ p.code = c ∧ p.attr = s.attr ∧
        p.name = s.name ∧ p.data = s.data ∧ p.hasParent = true) ∧
      ((¬ ∃ s, StdProp db v c s) → o'.getProperty c = none)) := by
  unfold Obj.setCode at h
  have hf := updatePropertyMaps_find h c h1 h2 h3
  rw [find_addStandard] at hf
  have hb := code_bytes v
  have hg : (((v &&& 0xFF0000#32).sshiftRight 16).setWidth 8 : Byte) =
      BitVec.ofNat 8 (v.toNat / 65536) := by
    apply BitVec.eq_of_toNat_eq; rw [hb.1]; simp
  have hk : (((v &&& 0x00FF00#32).sshiftRight 8).setWidth 8 : Byte) =
      BitVec.ofNat 8 (v.toNat / 256) := by
    apply BitVec.eq_of_toNat_eq; rw [hb.2.1]; simp
  simp only [hg, hk] at hf
  have ho : ∀ x y z : Byte, ({ o with grp := x, cls := y, ins := z } : Obj).getProperty c =
    o.getProperty c := fun _ _ _ => rfl
  rw [ho] at hf
  constructor
  · intro p hp
    rw [hf, hp]; rfl
  · intro hp
    rw [hp, Option.none_or] at hf
    constructor
    · intro s hs
      rw [stdProp_iff] at hs
      have hfind : ((db.getObject 0x00#8 0x00#8).bind (fun s => PropertyList.find s.props c)).or
          ((db.getObject (BitVec.ofNat 8 (v.toNat / 65536)) (BitVec.ofNat 8 (v.toNat / 256))).bind
            (fun s => PropertyList.find s.props c)) = some s := by
        rcases hs with ⟨sup, e1, e2⟩ | ⟨hn, g, k, cl, rfl, rfl, e1, e2⟩
        · rw [show db.getObject 0x00#8 0x00#8 = some sup from e1]
          simp [e2]
        · rw [e1]
          have : (db.getObject 0x00#8 0x00#8).bind (fun s => PropertyList.find s.props c) = none := by
            cases hd : db.getObject 0x00#8 0x00#8 with
            | none => rfl
            | some sup => exact hn sup hd
          rw [this]
          simpa using e2
      rw [hfind] at hf
      have hsc : s.code = c := by
        rcases hs with ⟨sup, e1, e2⟩ | ⟨hn, g, k, cl, rfl, rfl, e1, e2⟩ <;> exact find_code e2
      refine ⟨_, hf, ?_⟩
      simp only [copy_prop]
      exact ⟨hsc, rfl, rfl, rfl, rfl⟩
    · intro hs
      rw [hf]
      cases he : ((db.getObject 0x00#8 0x00#8).bind (fun s => PropertyList.find s.props c)).or
          ((db.getObject (BitVec.ofNat 8 (v.toNat / 65536)) (BitVec.ofNat 8 (v.toNat / 256))).bind
            (fun s => PropertyList.find s.props c)) with
      | none => rfl
      | some s =>
        exfalso
        apply hs
        refine ⟨s, stdProp_iff.mpr ?_⟩
        cases e1 : (db.getObject 0x00#8 0x00#8).bind (fun s => PropertyList.find s.props c) with
        | some s' =>
          rw [e1] at he
          simp at he
          subst he
          rw [Option.bind_eq_some_iff] at e1
          obtain ⟨sup, e2, e3⟩ := e1
          exact Or.inl ⟨sup, e2, e3⟩
        | none =>
          rw [e1, Option.none_or, Option.bind_eq_some_iff] at he
          obtain ⟨cl, e2, e3⟩ := he
          refine Or.inr ⟨?_, _, _, cl, rfl, rfl, e2, e3⟩
          intro sup hsup
          rw [show db.getObject 0x00#8 0x00#8 = some sup from hsup] at e1
          simpa using e1

/-- `setcode` on a new object with a small database: the property 0x80 comes from the super class. -/
example : ∃ o' a, Obj.new.setCode
      [⟨none, 0, 0, [{ Property.new with code := 0x80 }]⟩] (fun _ => 0) 0x013001#32 = .ok (o', a) ∧
    StdProp [⟨none, 0, 0, [{ Property.new with code := 0x80 }]⟩] 0x013001#32 0x80
      { Property.new with code := 0x80 } := by
  obtain ⟨x, hx⟩ := setCode_new_defined [⟨none, 0, 0, [{ Property.new with code := 0x80 }]⟩]
    (fun _ => 0) 0x013001#32
  exact ⟨x.1, x.2, hx, stdProp_iff.mpr (Or.inl ⟨_, rfl, rfl⟩)⟩

/-! ## C20, C25: property maps follow the attributes -/

theorem mapLists_mapData (codes : List Byte) (h : codes.length ≤ 255) (c : Byte) :
    MapLists (mapData codes) c ↔
      (c ∈ codes ∧ (codes.length ≤ 15 ∨ (0x80 ≤ c.toNat ∧ c.toNat < 0xC0))) := by
  have hlen : (BitVec.ofNat 8 codes.length).toNat = codes.length := by simp; omega
  unfold MapLists mapData
  constructor
  · rintro ⟨n, rest, e, hh⟩
    simp only [List.cons.injEq] at e
    obtain ⟨rfl, rfl⟩ := e
    rw [hlen] at hh
    rcases hh with ⟨h1, h2⟩ | ⟨h1, i, j, b, hi, hj, hb, hbit, rfl⟩
    · rw [if_pos h1, List.take_length] at h2
      exact ⟨h2, Or.inl h1⟩
    · rw [if_neg (by omega)] at hb
      obtain ⟨b', hb', hbit'⟩ := rowsOf_bit codes hi hj
      rw [hb] at hb'
      cases hb'
      rw [hbit] at hbit'
      have h2 : j < 4 ∧ mapCode i j ∈ codes := by simpa using hbit'.symm
      rw [mapCode_toNat hi hj]
      exact ⟨h2.2, Or.inr ⟨by omega, by omega⟩⟩
  · rintro ⟨hc, hh⟩
    refine ⟨_, _, rfl, ?_⟩
    rw [hlen]
    by_cases h15 : codes.length ≤ 15
    · left
      rw [if_pos h15, List.take_length]
      exact ⟨h15, hc⟩
    · right
      obtain ⟨h1, h2⟩ := hh.resolve_left h15
      obtain ⟨i, j, hi, hj, _, e⟩ := format2_high c (by omega)
      rw [bitToCode_eq] at e
      have hj4 : j < 4 := by rw [e, mapCode_toNat hi hj] at h2; omega
      obtain ⟨b', hb', hbit'⟩ := rowsOf_bit codes hi hj
      rw [if_neg h15]
      refine ⟨by omega, i, j, b', hi, hj, hb', ?_, e⟩
      rw [hbit']; simp [hj4, ← e, hc]

theorem mapCount_mapData (codes : List Byte) (h : codes.length ≤ 255) :
    MapCount (mapData codes) codes.length :=
  ⟨_, _, rfl, by simp; omega⟩

theorem mem_codesWith (f : Property → Bool) (ps : List Property) (c : Byte) :
    c ∈ codesWith f ps ↔ ∃ p ∈ ps, p.code = c ∧ f p = true := by
  simp only [codesWith, List.mem_map, List.mem_filter]
  constructor
  · rintro ⟨p, ⟨h1, h2⟩, h3⟩; exact ⟨p, h1, h3, h2⟩
  · rintro ⟨p, h1, h3, h2⟩; exact ⟨p, ⟨h1, h2⟩, h3⟩

/-- The map property `mc` of `o'` announces and lists exactly the properties in `ps` that satisfy
`f` — with the exception that a map of more than 15 codes lists only those in 0x80..0xBF. -/
def MapReflects (o' : Obj) (mc : Byte) (ps : List Property) (f : Property → Bool) : Prop :=
  ∃ p n, o'.getProperty mc = some p ∧ n = (ps.filter f).length ∧ MapCount p.data n ∧
    ∀ c : Byte, MapLists p.data c ↔
      ((∃ q ∈ ps, q.code = c ∧ f q = true) ∧
        (n ≤ 15 ∨ (0x80 ≤ c.toNat ∧ c.toNat < 0xC0)))

theorem mapProps_data (ps : List Property) (mc : Byte) (codes : List Byte) :
    ∃ p, PropertyList.find (mapProps ps mc codes).1 mc = some p ∧ p.data = mapData codes := by
  rw [find_mapProps, if_pos rfl]
  exact ⟨_, rfl, rfl⟩

theorem reflects_of_data {o' : Obj} {mc : Byte} {ps : List Property} {f : Property → Bool}
    {p : Property} (h1 : o'.getProperty mc = some p) (h2 : p.data = mapData (codesWith f ps))
    (h3 : (codesWith f ps).length ≤ 255) : MapReflects o' mc ps f := by
  have hn : (ps.filter f).length = (codesWith f ps).length := by simp [codesWith]
  refine ⟨p, _, h1, hn.symm, ?_, ?_⟩
  · rw [h2]; exact mapCount_mapData _ h3
  · intro c; rw [h2, mapLists_mapData _ h3, mem_codesWith]

/-- Maps as written by one rebuild, relative to the attributes when it starts. The Set and
Announcement maps are right for every object; the Get map only at the first rebuild. -/
theorem C20_update_partial (junk : Nat → Byte) (o o' : Obj) (a : List Property)
    (h : o.updatePropertyMaps junk = .ok (o', a)) (hlen : o.props.length ≤ 255) :
    MapReflects o' 0x9E#8 o.props Property.isWritable ∧
    MapReflects o' 0x9D#8 o.props Property.isAnnounceable ∧
    (o.getMap.size = 0 → MapReflects o' 0x9F#8 o.props Property.isReadable) := by
  have hl : ∀ f, (codesWith f o.props).length ≤ 255 := fun f => by
    simp only [codesWith, List.length_map]
    exact Nat.le_trans (List.length_filter_le _ _) hlen
  rw [updatePropertyMaps_eq] at h
  simp only at h
  split at h
  · cases h
  · cases h
    refine ⟨?_, ?_, fun hk => ?_⟩
    · obtain ⟨p, e1, e2⟩ := mapProps_data (mapProps o.props 0x9F#8
        ((List.range o.getMap.size).map junk ++ codesWith Property.isReadable o.props)).1 0x9E#8
        (codesWith Property.isWritable o.props)
      refine reflects_of_data (p := p) ?_ e2 (hl _)
      simp only [Obj.getProperty]
      rw [find_mapProps, if_neg (by decide)]
      exact e1
    · obtain ⟨p, e1, e2⟩ := mapProps_data (mapProps (mapProps o.props 0x9F#8
        ((List.range o.getMap.size).map junk ++ codesWith Property.isReadable o.props)).1 0x9E#8
        (codesWith Property.isWritable o.props)).1 0x9D#8 (codesWith Property.isAnnounceable o.props)
      exact reflects_of_data (p := p) e1 e2 (hl _)
    · obtain ⟨p, e1, e2⟩ := mapProps_data o.props 0x9F#8
        ((List.range o.getMap.size).map junk ++ codesWith Property.isReadable o.props)
      refine reflects_of_data (p := p) ?_ ?_ (hl _)
      · simp only [Obj.getProperty]
        rw [find_mapProps, if_neg (by decide), find_mapProps, if_neg (by decide)]
        exact e1
      · rw [e2, hk]; rfl

theorem length_getByCode (ps : List Property) (c : Byte) :
    ps.length ≤ (PropertyList.getByCode ps c).1.length := by
  unfold PropertyList.getByCode
  cases h : PropertyList.find ps c with
  | some p => simp
  | none => simp only; rw [add_of_none (by exact h)]; simp

theorem length_modifyFirst (c : Byte) (f : Property → Property) (ps : List Property) :
    (Message.modifyFirst c f ps).length = ps.length := by
  induction ps with
  | nil => rfl
  | cons q qs ih => simp only [Message.modifyFirst]; split <;> simp [ih]

theorem length_mapProps (ps : List Property) (mc : Byte) (codes : List Byte) :
    ps.length ≤ (mapProps ps mc codes).1.length := by
  unfold mapProps
  split
  · simp only [PropertyList.set, length_modifyFirst]; exact length_getByCode ps mc
  · simp only [PropertyList.setData, length_modifyFirst]; exact length_getByCode ps mc

theorem length_update {junk : Nat → Byte} {o o' : Obj} {a : List Property}
    (h : o.updatePropertyMaps junk = .ok (o', a)) : o.props.length ≤ o'.props.length := by
  rw [updatePropertyMaps_eq] at h
  simp only at h
  split at h
  · cases h
  · cases h
    exact Nat.le_trans (length_mapProps _ _ _)
      (Nat.le_trans (length_mapProps _ _ _) (length_mapProps _ _ _))

/-- Every map rebuild is `updatePropertyMaps` on some intermediate object. -/
theorem refresh_update {db : Db} {o o' : Obj} (h : Refresh db o o')
    (hu : (o.props.map (·.code)).Nodup) :
    ∃ (b : Obj) (junk : Nat → Byte) (a : List Property), b.updatePropertyMaps junk = .ok (o', a) ∧ (b.props.map (·.code)).Nodup ∧
      b.getMap.size = o.getMap.size := by
  cases h with
  | setCode junk v h =>
    refine ⟨_, junk, _, h, uniq_addStandard _ _ hu, ?_⟩
    rw [(addStandard_codes _ _).2.2.2]
  | update junk h => exact ⟨o, junk, _, h, hu, rfl⟩
  | setProperty junk c attr h =>
    unfold Obj.setProperty at h
    simp only [Res.pure_eq] at h
    rw [Res.bind_eq_ok] at h
    obtain ⟨⟨o1, a1⟩, h1, h2⟩ := h
    cases h2
    refine ⟨_, junk, _, h1, ?_, rfl⟩
    simp only
    rw [modifyFirst_codes c (fun p => p.setParent true) (fun _ => rfl)]
    exact uniq_set hu _ _ _

/-- **C20, what holds.** After any call that rebuilds the maps, on any object reached by API calls, the
Set and Announcement maps list a property other than the maps themselves iff it is writable,
respectively announceable, except that a map with more than 15 codes lists only codes in
0x80..0xBF. For the Get map this holds at the first rebuild of the object. Missing: later rebuilds
of the Get map, codes from 0xC0 on, and the entries of the three map properties. -/
theorem C20_maps_reflect_partial (db : Db) (o o' : Obj) (hr : ObjReach db o) (h : Refresh db o o')
    (hlen : o'.props.length ≤ 255) :
    let reflects (mc : Byte) (f : Property → Prop) : Prop :=
      ∃ p n, o'.getProperty mc = some p ∧ MapCount p.data n ∧
        ∀ c : Byte, c ≠ 0x9D#8 → c ≠ 0x9E#8 → c ≠ 0x9F#8 →
          (MapLists p.data c ↔
            ((∃ q, o'.getProperty c = some q ∧ f q) ∧
              (n ≤ 15 ∨ (0x80 ≤ c.toNat ∧ c.toNat < 0xC0))))
    reflects 0x9E#8 CanWrite ∧ reflects 0x9D#8 CanAnnounce ∧
    (o.getMap.size = 0 → reflects 0x9F#8 CanRead) := by
  intro reflects
  obtain ⟨b, junk, a, hb, hub, hbs⟩ := refresh_update h (C21_unique_codes db o hr).1
  have hlb : b.props.length ≤ 255 := Nat.le_trans (length_update hb) hlen
  have conv : ∀ mc (f : Property → Bool) (g : Property → Prop), (∀ q, f q = true ↔ g q) →
      MapReflects o' mc b.props f → reflects mc g := by
    rintro mc f g hfg ⟨p, n, h1, _, h3, h4⟩
    refine ⟨p, n, h1, h3, fun c c1 c2 c3 => ?_⟩
    rw [h4, updatePropertyMaps_find hb c c1 c2 c3]
    have : (∃ q ∈ b.props, q.code = c ∧ f q = true) ↔ ∃ q, b.getProperty c = some q ∧ g q := by
      constructor
      · rintro ⟨q, hq, hc, hf⟩; exact ⟨q, (find_mem_iff hub).mpr ⟨hq, hc⟩, (hfg q).1 hf⟩
      · rintro ⟨q, hq, hf⟩
        have := (find_mem_iff hub).mp hq
        exact ⟨q, this.1, this.2, (hfg q).2 hf⟩
    rw [this]
  obtain ⟨u1, u2, u3⟩ := C20_update_partial junk b o' a hb hlb
  exact ⟨conv _ _ _ writable_iff u1, conv _ _ _ announceable_iff u2,
    fun hk => conv _ _ _ readable_iff (u3 (hbs.trans hk))⟩

/-- a property with the given code, attribute and data -/
def mkP (c : Byte) (attr : CInt) (d : List Byte) (parent : Bool) : Property :=
  { Property.new with code := c, attr := attr, data := d, hasParent := parent }

/-- new object after `setproperty(0x80, read)` -/
def readOnce : Obj := { Obj.new with
  props := [mkP 0x80 Attr.read [] true, mkP 0x9F Attr.read [1, 0x80] false,
    mkP 0x9E Attr.read [0] false, mkP 0x9D Attr.read [0] false]
  getMap := ⟨1, some [0x80]⟩ }

/-- `readOnce` after the same call again -/
def readTwice (junk : Nat → Byte) : Obj := { Obj.new with
  props := [mkP 0x80 Attr.read [] true, mkP 0x9F Attr.read [5, junk 0, 0x80, 0x9F, 0x9E, 0x9D] false,
    mkP 0x9E Attr.read [0] false, mkP 0x9D Attr.read [0] false]
  getMap := ⟨5, some [junk 0, 0x80, 0x9F, 0x9E, 0x9D]⟩ }

/-- new object after `setproperty(0x80, read and write)` -/
def rwOnce : Obj := { Obj.new with
  props := [mkP 0x80 Attr.readWrite [] true, mkP 0x9F Attr.read [1, 0x80] false,
    mkP 0x9E Attr.read [1, 0x80] false, mkP 0x9D Attr.read [0] false]
  getMap := ⟨1, some [0x80]⟩
  setMap := ⟨1, some [0x80]⟩ }

theorem readOnce_eq (junk : Nat → Byte) :
    Obj.new.setProperty junk 0x80#8 Attr.read = .ok (readOnce, []) := by
  with_unfolding_all rfl
theorem readTwice_eq (junk : Nat → Byte) :
    readOnce.setProperty junk 0x80#8 Attr.read = .ok (readTwice junk, []) := by
  with_unfolding_all rfl
theorem rwOnce_eq (junk : Nat → Byte) :
    Obj.new.setProperty junk 0x80#8 Attr.readWrite = .ok (rwOnce, []) := by
  with_unfolding_all rfl

/-- New object, one `setproperty`: hypotheses met, including the one for the Get map. -/
example : ObjReach [] Obj.new ∧ Refresh [] Obj.new rwOnce ∧ rwOnce.props.length ≤ 255 ∧
    Obj.new.getMap.size = 0 :=
  ⟨.new, .setProperty (fun _ => 0) 0x80#8 Attr.readWrite (rwOnce_eq _), by decide, rfl⟩

/-- **C20, violated.** Two calls of `setproperty` on a new object: whatever the heap content, the Get map
then announces five codes while the object has four readable properties — the size of the Get
cache is never reset. (Already after the first call it misses the readable map properties.) -/
theorem C20_violated : ∀ junk : Nat → Byte, ∃ o1 a1 o2 a2,
    Obj.new.setProperty junk 0x80#8 Attr.read = .ok (o1, a1) ∧
    o1.setProperty junk 0x80#8 Attr.read = .ok (o2, a2) ∧
    (o2.props.filter (CanRead ·)).length = 4 ∧
    ∃ p, o2.getProperty 0x9F#8 = some p ∧ MapCount p.data 5 ∧
      p.data = [5#8, junk 0, 0x80#8, 0x9F#8, 0x9E#8, 0x9D#8] ∧
      ∃ p1, o1.getProperty 0x9F#8 = some p1 ∧ ¬ MapLists p1.data 0x9F#8 ∧ CanRead p1 := by
  intro junk
  refine ⟨_, _, _, _, readOnce_eq junk, readTwice_eq junk, by with_unfolding_all rfl,
    _, rfl, ⟨_, _, rfl, rfl⟩, rfl, _, rfl, ?_, by decide⟩
  rintro ⟨n, rest, e, hh⟩
  have e' : [1#8, 0x80#8] = n :: rest := e
  cases e'
  rcases hh with ⟨_, h2⟩ | ⟨h1, _⟩
  · revert h2; decide
  · revert h1; decide

/-- **C25, violated.** A writable property is made read-only by `setpropertyattribute`; the Set map
still lists it. -/
theorem C25_violated : ∀ junk : Nat → Byte, ∃ o1 a1,
    Obj.new.setProperty junk 0x80#8 Attr.readWrite = .ok (o1, a1) ∧
    (∃ q, (o1.setPropertyAttribute 0x80#8 Attr.read).getProperty 0x80#8 = some q ∧
      ¬ CanWrite q) ∧
    ∃ p, (o1.setPropertyAttribute 0x80#8 Attr.read).getProperty 0x9E#8 = some p ∧
      MapLists p.data 0x80#8 := by
  intro junk
  refine ⟨_, _, rwOnce_eq junk, ⟨_, rfl, by decide⟩, _, rfl, ?_⟩
  exact ⟨1#8, [0x80#8], rfl, Or.inl ⟨by decide, by decide⟩⟩

/-- **C25, what holds.** `setpropertyattribute` changes the attribute of that property only and leaves
the data of all properties alone (so the maps are stale); the next rebuild makes the Set
and Announcement maps agree with the new attribute (within the limits of C20). Missing: agreement
before a rebuild (false), and the Get map. -/
theorem C25_attribute_partial (db : Db) (o o' : Obj) (c : Byte) (attr : CInt) (hr : ObjReach db o)
    (junk : Nat → Byte) (a : List Property)
    (h : (o.setPropertyAttribute c attr).updatePropertyMaps junk = .ok (o', a))
    (hlen : (o.setPropertyAttribute c attr).props.length ≤ 255) :
    (∀ c', c' ≠ c → (o.setPropertyAttribute c attr).getProperty c' = o.getProperty c') ∧
    (∃ q, (o.setPropertyAttribute c attr).getProperty c = some q ∧ q.attr = attr ∧
      ∀ p, o.getProperty c = some p → q = { p with attr := attr }) ∧
    (0x80 ≤ c.toNat → c.toNat < 0xC0 →
      (∃ p, o'.getProperty 0x9E#8 = some p ∧
        (MapLists p.data c ↔ (attr &&& 0x22#32) ≠ 0)) ∧
      (∃ p, o'.getProperty 0x9D#8 = some p ∧
        (MapLists p.data c ↔ (attr &&& 0x44#32) ≠ 0))) := by
  have hu := (C21_unique_codes db _ (ObjReach.setPropertyAttribute c attr hr)).1
  have hfind : (o.setPropertyAttribute c attr).getProperty c =
      some { target o.props c with attr := attr } := by
    simp only [Obj.setPropertyAttribute, Obj.getProperty]
    rw [find_setAttribute, if_pos rfl]
  refine ⟨?_, ?_, ?_⟩
  · intro c' hc
    simp only [Obj.setPropertyAttribute, Obj.getProperty]
    rw [find_setAttribute, if_neg hc]
  · refine ⟨_, hfind, rfl, ?_⟩
    intro p hp
    simp only [Obj.getProperty] at hp
    simp only [target, hp]
  · intro h1 h2
    obtain ⟨⟨p, n, e1, _, _, e4⟩, ⟨p2, n2, f1, _, _, f4⟩, _⟩ := C20_update_partial junk _ o' a h hlen
    have conv : ∀ f : Property → Bool,
        (∃ q ∈ (o.setPropertyAttribute c attr).props, q.code = c ∧ f q = true) ↔
        f { target o.props c with attr := attr } = true := by
      intro f
      constructor
      · rintro ⟨q, hq, hc, hf⟩
        have := (find_mem_iff hu).mpr ⟨hq, hc⟩
        have h3 : PropertyList.find (o.setPropertyAttribute c attr).props c =
          some { target o.props c with attr := attr } := hfind
        rw [h3] at this
        cases this
        exact hf
      · intro hf
        have := (find_mem_iff hu).mp hfind
        exact ⟨_, this.1, this.2, hf⟩
    refine ⟨⟨p, e1, ?_⟩, ⟨p2, f1, ?_⟩⟩
    · rw [e4, conv]
      have e22 : Attr.write ||| Attr.writeRequired = 0x22#32 := by decide
      simp [h1, h2, Property.isWritable, e22]
    · rw [f4, conv]
      have e44 : Attr.anno ||| Attr.annoRequired = 0x44#32 := by decide
      simp [h1, h2, Property.isAnnounceable, e44]

/-- hypotheses met -/
example : ∃ o' a, ObjReach [] Obj.new ∧
    (Obj.new.setPropertyAttribute 0x80 Attr.write).updatePropertyMaps (fun _ => 0) = .ok (o', a) ∧
    (Obj.new.setPropertyAttribute 0x80 Attr.write).props.length ≤ 255 :=
  ⟨_, _, .new, rfl, by decide⟩

/-! ## C65: object operations and memory safety -/

/-- **C65, violated.** new; `setproperty` readable; `clearproperties`; `setproperty` write-only: the Get
map is rebuilt from a NULL cache whose recorded size is not zero. -/
theorem C65_violated : ∀ junk : Nat → Byte, ∃ o, ObjReach [] o ∧
    o.setProperty junk 0x80#8 Attr.write = .ub := by
  intro junk
  refine ⟨_, .clearProperties (.setProperty junk 0x80#8 Attr.read .new (readOnce_eq junk)), ?_⟩
  rfl

/-- **C65, what holds.** A map rebuild is undefined only in that situation: no readable property and an
earlier rebuild that saw one. In particular it is defined for every object that has a readable
property, and for every object whose maps were never built. -/
theorem C65_update_partial (junk : Nat → Byte) (o : Obj) :
    ((∃ p ∈ o.props, CanRead p) ∨ o.getMap.size = 0) ↔
      (o.updatePropertyMaps junk).Defined := by
  simp only [← readable_iff]
  rw [updatePropertyMaps_eq]
  simp only
  have : codesWith Property.isReadable o.props = [] ↔ ∀ p ∈ o.props, p.isReadable = false := by
    simp [codesWith]
  constructor
  · intro h
    rw [if_neg]
    · exact Res.defined_ok _
    · rintro ⟨h1, h2⟩
      rcases h with ⟨p, hp, hr⟩ | h
      · rw [this.mp h1 p hp] at hr; cases hr
      · exact h2 h
  · intro h
    by_cases hc : codesWith Property.isReadable o.props = [] ∧ o.getMap.size ≠ 0
    · rw [if_pos hc] at h
      obtain ⟨x, hx⟩ := h
      cases hx
    · by_cases h2 : o.getMap.size = 0
      · exact Or.inr h2
      · left
        have h3 : ¬ codesWith Property.isReadable o.props = [] := fun e => hc ⟨e, h2⟩
        rw [this] at h3
        apply Classical.byContradiction
        intro hn
        apply h3
        intro p hp
        cases hr : p.isReadable with
        | false => rfl
        | true => exact absurd ⟨p, hp, hr⟩ hn

end Uecho.Props
