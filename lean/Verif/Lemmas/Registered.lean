import Verif.Lemmas.Node
import Verif.Props.Object
import Verif.Spec.Registered
/-! # Lemmas for C145 -/
namespace Uecho.Lemmas
open Uecho Uecho.Spec Uecho.Props

/-- What is registered with an object. -/
def reg (o : Obj) : (Byte × Byte × Byte) × List Observer × Bool := (objEoj o, o.observers, o.hasListener)

theorem SameFrame.reg {a b : Obj} (h : SameFrame a b) : reg b = reg a := by
  unfold Lemmas.reg; rw [h]; rfl

/-- Codes, handlers and listeners are the same. -/
structure SameRegs (n n' : Node) : Prop where
  objs : n'.objs.map reg = n.objs.map reg
  lis : n'.hasListener = n.hasListener

theorem SameRegs.refl (n : Node) : SameRegs n n := ⟨rfl, rfl⟩
theorem SameRegs.trans {a b c : Node} (h : SameRegs a b) (g : SameRegs b c) : SameRegs a c := ⟨g.objs.trans h.objs, g.lis.trans h.lis⟩

theorem set_map {α β : Type} (f : α → β) {l : List α} {i : Nat} {x y : α} (h : l[i]? = some x) (e : f y = f x) : (l.set i y).map f = l.map f := by
  rw [List.map_set, e]
  apply List.ext_getElem?
  intro j
  by_cases hj : i = j
  · subst hj
    obtain ⟨hl, hx⟩ := List.getElem?_eq_some_iff.1 h
    rw [List.getElem?_set_self (by simpa using hl), List.getElem?_map, h]; rfl
  · rw [List.getElem?_set_ne hj]

theorem SameRegs.set {n : Node} {i : Nat} {o o' : Obj} (hi : n.objs[i]? = some o) (h : reg o' = reg o) (t : BitVec 32) :
    SameRegs n { n with objs := n.objs.set i o', lastTid := t } := ⟨set_map reg hi h, rfl⟩

theorem announceAll_regs (e : Endian) {n n' : Node} {o : Obj} {ps : List Property} {eff : List Effect}
    (h : n.announceAll e o ps = .ok (n', eff)) : SameRegs n n' := by
  rw [announceAll_eq] at h
  split at h <;> simp only [Res.ok.injEq, Prod.mk.injEq] at h <;> rw [← h.1] <;> exact ⟨rfl, rfl⟩

theorem setManufacturerCode_regs (e : Endian) (v : CInt) : ∀ (is : List Nat) (n n' : Node) (eff : List Effect),
    Node.setManufacturerCode e v is n = .ok (n', eff) → SameRegs n n'
  | [], n, n', eff, h => by
      simp only [Node.setManufacturerCode, Res.ok.injEq, Prod.mk.injEq] at h
      rw [← h.1]; exact .refl _
  | i :: is, n, n', eff, h => by
      unfold Node.setManufacturerCode at h
      simp only [Res.bind_eq_ok, Res.pure_eq, Res.ok.injEq, Prod.mk.injEq] at h
      obtain ⟨⟨n1, e1⟩, h1, ⟨n2, e2⟩, h2, h3, _⟩ := h
      rw [← h3]
      refine SameRegs.trans ?_ (setManufacturerCode_regs e v is _ _ _ h2)
      unfold Node.onObj at h1
      cases hi : n.objs[i]? with
      | none => rw [hi] at h1; simp at h1
      | some o =>
        rw [hi] at h1
        simp only [Res.bind_eq_ok] at h1
        obtain ⟨⟨o', a⟩, k1, k2⟩ := h1
        change o.setPropertyIntegerData 0x8A#8 v 3 = _ at k1
        obtain ⟨bs, k3, _⟩ := setPropertyIntegerData_eq o 0x8A#8 v 3 (by omega)
        rw [k3] at k1
        simp only [Res.ok.injEq] at k1
        have hf : SameFrame o o' := by rw [show o' = (o.setPropertyData 0x8A#8 bs).1 by rw [k1]]; rfl
        exact (SameRegs.set hi hf.reg n.lastTid).trans (announceAll_regs e k2)

theorem start_regs (e : Endian) {n n' : Node} {b : List String} {eff : List Effect} (h : n.start e b = .ok (n', eff)) : SameRegs n n' := by
  unfold Node.start Node.announce at h
  split at h
  · simp at h; rw [← h.1]; exact ⟨rfl, rfl⟩
  · split at h
    · simp at h; rw [← h.1]; exact ⟨rfl, rfl⟩
    · rw [announceProperty_eq] at h
      simp only [Res.ok.injEq, Prod.mk.injEq] at h
      rw [← h.1]; exact ⟨rfl, rfl⟩

theorem putObject_regs {n : Node} {c : CInt} {o o' : Obj} (h : n.getObject c = some o) (hs : SameFrame o o') : SameRegs n (n.putObject c o') := by
  unfold Node.getObject at h
  unfold Node.putObject
  have : ∀ l : List Obj, l.find? (fun o => o.getCode == c) = some o → ∃ i, l.findIdx? (fun o => o.getCode == c) = some i ∧ l[i]? = some o := by
    intro l
    induction l with
    | nil => simp
    | cons y ys ih =>
      intro h
      rw [List.find?_cons] at h
      rw [List.findIdx?_cons]
      split at h
      · rename_i hy; simp only [Option.some.injEq] at h; exact ⟨0, by simp [hy], by simp [h]⟩
      · rename_i hy
        obtain ⟨i, h1, h2⟩ := ih h
        exact ⟨i + 1, by simp [hy, h1], by simpa using h2⟩
  obtain ⟨i, h1, h2⟩ := this _ h
  rw [h1]
  exact SameRegs.set h2 hs.reg n.lastTid

theorem receive_regs (e : Endian) {n n' : Node} {loc a : Option String} {d : List Byte} {eff : List Effect}
    (h : n.receive e loc a d = .ok (n', eff)) : SameRegs n n' := by
  unfold Node.receive at h
  rw [Res.bind_eq_ok] at h
  obtain ⟨⟨ok, m⟩, _, h⟩ := h
  cases ok with
  | false => simp at h; rw [← h.1]; exact .refl _
  | true =>
    simp only [if_true] at h
    unfold Node.messageListener at h
    simp only [Res.bind_eq_ok] at h
    obtain ⟨dst, _, h⟩ := h
    split at h
    · simp at h; rw [← h.1]; exact .refl _
    · rename_i o ho
      split at h
      · simp only [Res.bind_eq_ok, Res.pure_eq, Res.ok.injEq, Prod.mk.injEq] at h
        obtain ⟨_, _, _, _, _, _, ⟨o', r, an, k⟩, h1, ⟨n1, e3⟩, h2, _, _, h3, _⟩ := h
        rw [← h3]
        exact (putObject_regs ho (process_frame h1)).trans (announceAll_regs e h2)
      · simp at h; rw [← h.1]; exact .refl _

theorem updateProfile_regs (e : Endian) {n n' : Node} {eff : List Effect} {r : Bool} (h : n.updateProfile e = .ok (n', eff, r)) : SameRegs n n' := by
  cases hd : destObj n profileEoj with
  | none => rw [updateProfile_none e hd] at h; simp at h; rw [← h.1]; exact .refl _
  | some p =>
    cases hp : p.hasNode with
    | false => rw [updateProfile_detached e hd hp] at h; simp at h; rw [← h.1]; exact .refl _
    | true =>
      obtain ⟨i, p', eff', t, h1, _, h3, h4, _⟩ := updateProfile_some e hd hp
      rw [h4] at h
      simp only [Res.ok.injEq, Prod.mk.injEq] at h
      rw [← h.1]; exact SameRegs.set h1 h3.reg t

/-- Adding an object keeps the others; the new one keeps what is registered with it. -/
theorem addObject_regs (e : Endian) {n n' : Node} {o : Obj} {eff : List Effect} {r : Bool} (h : n.addObject e o = .ok (n', eff, r)) :
    n'.hasListener = n.hasListener ∧
    ((n'.objs.map reg = n.objs.map reg ∧ ∃ y ∈ n.objs, objEoj y = objEoj o) ∨
     (n'.objs.map reg = n.objs.map reg ++ [reg o] ∧ ∀ y ∈ n.objs, objEoj y ≠ objEoj o)) := by
  by_cases hd : ∃ y ∈ n.objs, objEoj y = objEoj o
  · rw [addObject_dup e hd] at h; simp at h; rw [← h.1]; exact ⟨rfl, .inl ⟨rfl, hd⟩⟩
  · have hd : ∀ y ∈ n.objs, objEoj y ≠ objEoj o := fun y hy he => hd ⟨y, hy, he⟩
    rw [addObject_new e hd] at h
    have hs := updateProfile_regs e h
    refine ⟨hs.lis, .inr ⟨?_, hd⟩⟩
    rw [hs.objs]
    simp [appended, reg, Obj.setParentNode, objEoj]

/-- What the first object with the code `x` has registered. -/
theorem dest_reg (n : Node) (x : Byte × Byte × Byte) : (destObj n x).map reg = (n.objs.map reg).find? (fun r => r.1 == x) := by
  unfold destObj
  rw [List.find?_map]
  rfl

theorem addMissing_reg : ∀ (qs : List Property) (o : Obj), (o.addMissing qs).observers = o.observers ∧ (o.addMissing qs).hasListener = o.hasListener
  | [], o => ⟨rfl, rfl⟩
  | q :: qs, o => by
      rw [Obj.addMissing]
      split
      · exact addMissing_reg qs o
      · exact addMissing_reg qs (o.addProperty q.copy)

theorem addStandardWithCode_reg (db : Db) (o : Obj) (g c : Byte) :
    (o.addStandardWithCode db g c).1.observers = o.observers ∧ (o.addStandardWithCode db g c).1.hasListener = o.hasListener := by
  unfold Obj.addStandardWithCode
  split
  · exact ⟨rfl, rfl⟩
  · exact addMissing_reg _ _

theorem setCode_reg {db : Db} {junk : Nat → Byte} {o o' : Obj} {a : List Property} {c : CInt} (h : o.setCode db junk c = .ok (o', a)) :
    o'.observers = o.observers ∧ o'.hasListener = o.hasListener := by
  unfold Obj.setCode at h
  have h1 := updatePropertyMaps_codes h
  rw [h1.2.2.2.2.1, h1.2.2.2.2.2.2]
  unfold Obj.addStandard
  simp only
  exact ⟨(addStandardWithCode_reg _ _ _ _).1.trans (addStandardWithCode_reg _ _ _ _).1,
    (addStandardWithCode_reg _ _ _ _).2.trans (addStandardWithCode_reg _ _ _ _).2⟩

theorem nodeProfile_reg {db : Db} {junk rnd : Nat → Byte} {o : Obj} (h : NodeProfile.new db junk rnd = .ok o) :
    o.observers = [] ∧ o.hasListener = false := by
  unfold NodeProfile.new at h
  simp only [Res.bind_eq_ok, Res.pure_eq, Res.ok.injEq] at h
  obtain ⟨⟨o1, a⟩, h1, ⟨o2, a2, b⟩, h2, rfl⟩ := h
  have hr := setCode_reg h1
  have h3 : o2.observers = o1.observers ∧ o2.hasListener = o1.hasListener := by
    unfold NodeProfile.addMandatory at h2
    split at h2
    · simp only [Res.ok.injEq, Prod.mk.injEq] at h2; rw [← h2.1]; exact ⟨rfl, rfl⟩
    · unfold NodeProfile.setDefaultId NodeProfile.setId at h2
      simp only [Res.bind_eq_ok, Res.pure_eq, Res.ok.injEq, Prod.mk.injEq] at h2
      obtain ⟨_, ⟨_, _, _, _, rfl⟩, h2, _⟩ := h2
      rw [← h2]; exact ⟨(addMissing_reg _ o1).1, (addMissing_reg _ o1).2⟩
  exact ⟨by rw [h3.1, hr.1]; rfl, by rw [h3.2, hr.2]; rfl⟩

end Uecho.Lemmas
