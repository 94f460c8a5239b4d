import Verif.Spec.PropertyFields
/-! # C126, C127: a property holds what was set last; attributes and equality of properties -/
namespace Uecho.Props
open Uecho Uecho.Spec

theorem lastPassed_cons {α : Type} (sel : PropSet → Option α) (d : α) (op : PropSet) (ops : List PropSet) :
    lastPassed sel d (op :: ops) = lastPassed sel ((sel op).getD d) ops := by
  unfold lastPassed
  rw [List.filterMap_cons]
  cases h : sel op with
  | none => simp
  | some x => simp [List.getLast?_cons]

theorem setData_val (p : Property) (d : List Byte) : (p.setData d).1 = { p with data := d } := by
  unfold Property.setData Property.setCount Property.clearData
  cases d with
  | nil => simp
  | cons => simp

theorem addData_val (p : Property) (d : List Byte) : (p.addData d).1 = { p with data := p.data ++ d } := by
  unfold Property.addData
  cases d with
  | nil => simp
  | cons => simp

theorem and_or_ne_zero (a : CInt) (i j : Nat) (hi : i < 32) (hj : j < 32) :
    (a &&& (BitVec.twoPow 32 i ||| BitVec.twoPow 32 j) != 0#32) = (a.getLsbD i || a.getLsbD j) := by
  rw [Bool.eq_iff_iff]
  simp only [bne_iff_ne, ne_eq, Bool.or_eq_true]
  constructor
  · intro h
    apply Classical.byContradiction
    intro hn
    apply h
    simp only [not_or, Bool.not_eq_true] at hn
    apply BitVec.eq_of_getLsbD_eq
    intro k hk
    simp only [BitVec.getLsbD_and, BitVec.getLsbD_or, BitVec.getLsbD_twoPow, BitVec.getLsbD_zero]
    by_cases h1 : i = k
    · subst h1; simp [hn.1]
    · by_cases h2 : j = k
      · subst h2; simp [hn.2]
      · simp [h1, h2]
  · intro h h0
    have hb := fun k => congrArg (fun x => BitVec.getLsbD x k) h0
    simp only [BitVec.getLsbD_and, BitVec.getLsbD_or, BitVec.getLsbD_twoPow, BitVec.getLsbD_zero] at hb
    rcases h with h | h
    · have := hb i; rw [h] at this; simp [hi] at this
    · have := hb j; rw [h] at this; simp [hj] at this

theorem and_ne_zero (a : CInt) (i : Nat) (hi : i < 32) : (a &&& BitVec.twoPow 32 i != 0#32) = a.getLsbD i := by
  have := and_or_ne_zero a i i hi hi
  simpa using this

/-- **C126** (fields). After any calls of the setters of a new property, in any order, every getter gives what was set last: the code, the
name (passing NULL passes no name), the attribute word and the type passed last, and the bytes set last followed by those added since. -/
theorem C126_last_value (ops : List PropSet) :
    let p := propSetRun Property.new ops
    p.getCode = lastPassed PropSet.asCode 0 ops ∧
    p.getName = lastPassed PropSet.asName none ops ∧
    p.getAttribute = lastPassed PropSet.asAttribute 0x03 ops ∧
    p.getType = lastPassed PropSet.asType 0 ops ∧
    p.getData = dataAfter [] ops ∧
    p.getDataSize = (dataAfter [] ops).length := by
  have key : ∀ (ops : List PropSet) (p : Property),
      (propSetRun p ops).code = lastPassed PropSet.asCode p.code ops ∧
      (propSetRun p ops).name = lastPassed PropSet.asName p.name ops ∧
      (propSetRun p ops).attr = lastPassed PropSet.asAttribute p.attr ops ∧
      (propSetRun p ops).type = lastPassed PropSet.asType p.type ops ∧
      (propSetRun p ops).data = dataAfter p.data ops := by
    intro ops
    induction ops with
    | nil => intro p; simp [propSetRun, lastPassed, dataAfter]
    | cons op ops ih =>
      intro p
      have h := ih (propSetStep p op)
      change _ ∧ _ ∧ _ ∧ _ ∧ _ at h
      simp only [lastPassed_cons]
      cases op
      case name n =>
        cases n <;>
          simpa [propSetRun, propSetStep, Property.setName, PropSet.asCode, PropSet.asName, PropSet.asAttribute, PropSet.asType,
            dataAfter] using h
      all_goals
        simpa [propSetRun, propSetStep, setData_val, addData_val, Property.setCode, Property.setName, Property.setAttribute,
          Property.setType, Property.setByteData, Property.addByteData, Property.clearData, PropSet.asCode, PropSet.asName,
          PropSet.asAttribute, PropSet.asType, dataAfter] using h
  obtain ⟨h1, h2, h3, h4, h5⟩ := key ops Property.new
  exact ⟨h1, h2, h3, h4, h5, congrArg List.length h5⟩

/-- non-vacuity -/
example : let ops := [PropSet.code 0x80, .data [1, 2], .attribute 0x45, .add [3], .name (some "a"), .name none, .code 0x81, .addByte 4, .type 7]
    let p := propSetRun Property.new ops
    p.getCode = 0x81 ∧ p.getData = [1, 2, 3, 4] ∧ p.getAttribute = 0x45 ∧ p.getName = some "a" ∧ p.getType = 7 := by decide

/-- **C126** (attributes). The predicates say which of the attributes were set last: a required access counts as that access, and read-only
(write-only) means readable and not writable (writable and not readable). -/
theorem C126_attributes (ops : List PropSet) :
    let p := propSetRun Property.new ops
    let a := lastPassed PropSet.asAttribute 0x03 ops
    (p.isReadable = true ↔ hasBit a 0 ∨ hasBit a 4) ∧
    (p.isWritable = true ↔ hasBit a 1 ∨ hasBit a 5) ∧
    (p.isAnnounceable = true ↔ hasBit a 2 ∨ hasBit a 6) ∧
    (p.isReadRequired = true ↔ hasBit a 4) ∧
    (p.isWriteRequired = true ↔ hasBit a 5) ∧
    (p.isAnnounceRequired = true ↔ hasBit a 6) ∧
    (p.isReadOnly = true ↔ (hasBit a 0 ∨ hasBit a 4) ∧ ¬ (hasBit a 1 ∨ hasBit a 5)) ∧
    (p.isWriteOnly = true ↔ (hasBit a 1 ∨ hasBit a 5) ∧ ¬ (hasBit a 0 ∨ hasBit a 4)) := by
  intro p a
  have ha : p.attr = a := (C126_last_value ops).2.2.1
  have r : p.isReadable = (a.getLsbD 0 || a.getLsbD 4) := by
    rw [← ha]; exact and_or_ne_zero p.attr 0 4 (by omega) (by omega)
  have w : p.isWritable = (a.getLsbD 1 || a.getLsbD 5) := by
    rw [← ha]; exact and_or_ne_zero p.attr 1 5 (by omega) (by omega)
  have n : p.isAnnounceable = (a.getLsbD 2 || a.getLsbD 6) := by
    rw [← ha]; exact and_or_ne_zero p.attr 2 6 (by omega) (by omega)
  have rr : p.isReadRequired = a.getLsbD 4 := by rw [← ha]; exact and_ne_zero p.attr 4 (by omega)
  have wr : p.isWriteRequired = a.getLsbD 5 := by rw [← ha]; exact and_ne_zero p.attr 5 (by omega)
  have nr : p.isAnnounceRequired = a.getLsbD 6 := by rw [← ha]; exact and_ne_zero p.attr 6 (by omega)
  unfold hasBit Property.isReadOnly Property.isWriteOnly
  rw [r, w, n, rr, wr, nr]
  refine ⟨by simp, by simp, by simp, .rfl, .rfl, .rfl, ?_, ?_⟩ <;> simp

/-- non-vacuity: required to be read, announceable, not writable -/
example : let p := propSetRun Property.new [PropSet.attribute 0x14]
    p.isReadable = true ∧ p.isReadRequired = true ∧ p.isReadOnly = true ∧ p.isAnnounceable = true ∧ p.isAnnounceRequired = false ∧
    p.isWritable = false := by decide

/-- **C127** (equality). Two properties are equal exactly when their codes, attributes and data are; names, types and objects do not
matter. -/
theorem C127_equal (p q : Property) :
    p.equals q = true ↔ p.getCode = q.getCode ∧ p.getAttribute = q.getAttribute ∧ p.getData = q.getData := by
  unfold Property.equals Property.getCode Property.getAttribute Property.getData
  by_cases h1 : p.code = q.code <;> by_cases h2 : p.attr = q.attr <;> by_cases h3 : p.data = q.data <;>
    simp [h1, h2, h3]

/-- Equality of properties is an equivalence, and a copy equals its original. -/
theorem C127_equivalence (p q r : Property) :
    p.equals p = true ∧ (p.equals q = q.equals p) ∧ (p.equals q = true → q.equals r = true → p.equals r = true) ∧
    p.copy.equals p = true := by
  refine ⟨(C127_equal p p).2 ⟨rfl, rfl, rfl⟩, ?_, ?_, ?_⟩
  · rw [Bool.eq_iff_iff, C127_equal, C127_equal]
    constructor <;> exact fun ⟨a, b, c⟩ => ⟨a.symm, b.symm, c.symm⟩
  · rw [C127_equal, C127_equal, C127_equal]
    exact fun ⟨a, b, c⟩ ⟨x, y, z⟩ => ⟨a.trans x, b.trans y, c.trans z⟩
  · rw [C127_equal]
    simp [Property.copy, setData_val, Property.setCode, Property.setName, Property.setAttribute, Property.getCode, Property.getAttribute,
      Property.getData]

/-- Data is equal to bytes exactly when it is those bytes. -/
theorem C127_data_equal (p : Property) (d : List Byte) : p.isDataEqual d = true ↔ p.getData = d := by
  unfold Property.isDataEqual Property.getData
  by_cases h : p.data = d <;> simp [h]

/-- non-vacuity: same fields but for the name; other data -/
example : let p := propSetRun Property.new [.code 0x80, .data [1, 2], .name (some "a")]
    let q := propSetRun Property.new [.code 0x80, .data [1, 2]]
    let r := propSetRun Property.new [.code 0x80, .data [1, 3]]
    p.equals q = true ∧ p ≠ q ∧ p.equals r = false ∧ p.isDataEqual [1, 2] = true := by decide

/-- **C127** (copies). A copy has the name, code, attributes and data of its original, and the type only if that is none: the type is not
copied. -/
theorem C127_copy_partial (p : Property) :
    p.copy.getName = p.getName ∧ p.copy.getCode = p.getCode ∧ p.copy.getAttribute = p.getAttribute ∧ p.copy.getData = p.getData ∧
    (p.copy.getType = p.getType ↔ p.getType = 0) := by
  have h : p.copy = { p with type := 0, hasParent := false } := by
    simp [Property.copy, setData_val, Property.setCode, Property.setName, Property.setAttribute, Property.new]
  rw [h]
  exact ⟨rfl, rfl, rfl, rfl, Eq.symm, Eq.symm⟩

/-- **C127 violated** (copies): there are properties whose copy is of another type. -/
theorem C127_copy_violated : ∃ ops, let p := propSetRun Property.new ops
    p.getType ≠ p.copy.getType :=
  ⟨[.type 1], by decide⟩

end Uecho.Props
