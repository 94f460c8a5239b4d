import Verif.Lemmas.Database
import Verif.Props.Object
/-!
# C61, C80, C81, C82, C83: the standard tables
-/
namespace Uecho.Props
open Uecho Uecho.Spec Uecho.Lemmas Uecho.Std

set_option maxRecDepth 100000

/-- C61: in the whole table no two classes have the same group and class code, these codes are bytes, and every property code lies in
0x80..0xFF. -/
theorem C61_codes : (classes.map fun k => (k.grp, k.cls)).Nodup ∧
    ∀ k ∈ classes, k.grp < 256 ∧ k.cls < 256 ∧ ∀ r ∈ k.rows, 0x80 ≤ r.epc ∧ r.epc ≤ 0xFF := by
  constructor <;> decide +kernel

theorem class_bytes : ∀ k ∈ classes, k.grp < 256 ∧ k.cls < 256 := fun k hk => ⟨(C61_codes.2 k hk).1, (C61_codes.2 k hk).2.1⟩

theorem row_byte {k : StdClass} (hk : k ∈ classes) : ∀ r ∈ k.rows, r.epc < 256 := fun r hr => by
  have := ((C61_codes.2 k hk).2.2 r hr).2
  omega

/-- C61: looking up a group and class code in the standard database finds the class of the table with these codes, under its name and
with one property for each of its property codes, named as in the last row for the code; codes that are not in the table are not
found. -/
theorem C61_lookup (g c : Byte) :
    (∀ k ∈ classes, k.grp = g.toNat → k.cls = c.toNat → ∃ d, stdDb.getObject g c = some d ∧ d.name = some k.name ∧ d.grp = g ∧
      d.cls = c ∧ (d.props.map (·.code)).Nodup ∧
      ∀ e : Byte, (PropertyList.find d.props e).map (fun p => p.name) = (lastRow k.rows e.toNat).map fun r => some r.name) ∧
    ((∀ k ∈ classes, ¬ (k.grp = g.toNat ∧ k.cls = c.toNat)) → stdDb.getObject g c = none) := by
  refine ⟨fun k hk h1 h2 => ⟨_, getObject_class C61_codes.1 class_bytes hk h1 h2, rfl, ?_, ?_, class_uniq k, fun e => ?_⟩,
    fun h => getObject_none class_bytes h⟩
  · simp [StdClass.new, h1]
  · simp [StdClass.new, h2]
  · rw [class_find k (row_byte hk), Option.map_map]
    rfl

example : ∃ k ∈ classes, k.grp = (0x01#8).toNat ∧ k.cls = (0x30#8).toNat ∧ k.name = "Home air conditioner" := by
  refine ⟨cls0130, ?_, rfl, rfl, rfl⟩
  decide +kernel

theorem super_mem : cls0000 ∈ classes := by decide +kernel

/-- Which row decides about a property: the super class is asked first. -/
theorem std_find {junk : Nat → Byte} {v : CInt} {o' : Obj} {a : List Property} (h : Obj.new.setCode stdDb junk v = .ok (o', a))
    {k : StdClass} (hk : k ∈ classes) (hv : OfClass v k) (e : Byte) (h1 : e ≠ 0x9D#8) (h2 : e ≠ 0x9E#8) (h3 : e ≠ 0x9F#8) :
    o'.getProperty e =
      ((lastRow cls0000.rows e.toNat).or (lastRow k.rows e.toNat)).map fun r => r.new.setParent true := by
  unfold Obj.setCode at h
  rw [updatePropertyMaps_find h e h1 h2 h3, find_addStandard]
  have hb := code_bytes v
  have g0 : stdDb.getObject 0x00#8 0x00#8 = some cls0000.new :=
    getObject_class C61_codes.1 class_bytes super_mem rfl rfl
  have g1 := getObject_class C61_codes.1 class_bytes hk (g := ((v &&& 0xFF0000#32).sshiftRight 16).setWidth 8)
    (c := ((v &&& 0x00FF00#32).sshiftRight 8).setWidth 8) (by rw [hb.1]; exact hv.1.symm) (by rw [hb.2.1]; exact hv.2.symm)
  simp only [g0, g1, Option.bind_some, class_find cls0000 (row_byte super_mem), class_find k (row_byte hk)]
  have : ({ Obj.new with
      grp := ((v &&& 0xFF0000#32).sshiftRight 16).setWidth 8
      cls := ((v &&& 0x00FF00#32).sshiftRight 8).setWidth 8
      ins := (v &&& 0x0000FF#32).setWidth 8 } : Obj).getProperty e = none := rfl
  rw [this, Option.none_or, ← Option.map_or, Option.map_map]
  have hc : ((fun p : Property => p.copy.setParent true) ∘ fun r : StdRow => r.new.setParent true) =
      fun r => r.new.setParent true := by
    funext r
    simp [copy_prop, StdRow.new, Property.setParent, Property.new]
  rw [hc]

/-- The attribute bits of a new standard property. -/
theorem new_bits (r : StdRow) :
    r.new.attr.getLsbD 0 = (r.get == .optional) ∧ r.new.attr.getLsbD 1 = (r.set == .optional) ∧
    r.new.attr.getLsbD 2 = (r.anno == .optional) ∧ r.new.attr.getLsbD 4 = (r.get == .required) ∧
    r.new.attr.getLsbD 5 = (r.set == .required) ∧ r.new.attr.getLsbD 6 = (r.anno == .required) := by
  have e : r.new.attr = ruleAttr r.get Attr.readRequired Attr.read ||| ruleAttr r.set Attr.writeRequired Attr.write |||
      ruleAttr r.anno Attr.annoRequired Attr.anno := rfl
  rw [e]
  generalize r.get = g, r.set = s, r.anno = a
  cases g <;> cases s <;> cases a <;> decide

theorem follows_new (r : StdRow) (hr : r.epc < 256) (b : Bool) (h1 : ¬ Conditional r.get) (h2 : ¬ Conditional r.set)
    (h3 : ¬ Conditional r.anno) : Follows (r.new.setParent b) r := by
  obtain ⟨b0, b1, b2, b4, b5, b6⟩ := new_bits r
  have e : (r.new.setParent b).attr = r.new.attr := rfl
  refine ⟨by simp [Property.setParent, StdRow.new]; omega, rfl, ?_, ?_, ?_, ?_, ?_, ?_⟩
  · unfold CanRead Allows; rw [e, b0, b4]
    revert h1; unfold Conditional; cases r.get <;> decide
  · unfold CanWrite Allows; rw [e, b1, b5]
    revert h2; unfold Conditional; cases r.set <;> decide
  · unfold CanAnnounce Allows; rw [e, b2, b6]
    revert h3; unfold Conditional; cases r.anno <;> decide
  · rw [e, b4, beq_iff_eq]
  · rw [e, b5, beq_iff_eq]
  · rw [e, b6, beq_iff_eq]

/-- C80 (partial: rules that are "required", "optional" or "notApplicable", and codes that the super class does not have, see C81):
an object that gets the code of a standard class has each property of the class with the access that the rules of its last row give. -/
theorem C80_rules_partial (junk : Nat → Byte) (v : CInt) (o' : Obj) (a : List Property) (h : Obj.new.setCode stdDb junk v = .ok (o', a))
    (k : StdClass) (hk : k ∈ classes) (hv : OfClass v k) (e : Byte) (hmap : e ≠ 0x9D#8 ∧ e ≠ 0x9E#8 ∧ e ≠ 0x9F#8) (r : StdRow)
    (hr : lastRow k.rows e.toNat = some r) (hsup : k = cls0000 ∨ lastRow cls0000.rows e.toNat = none) (h1 : ¬ Conditional r.get)
    (h2 : ¬ Conditional r.set) (h3 : ¬ Conditional r.anno) : ∃ p, o'.getProperty e = some p ∧ Follows p r := by
  refine ⟨r.new.setParent true, ?_, follows_new r ?_ true h1 h2 h3⟩
  · rw [std_find h hk hv e hmap.1 hmap.2.1 hmap.2.2]
    rcases hsup with rfl | hs
    · rw [hr]; rfl
    · rw [hs, hr]; rfl
  · unfold lastRow at hr
    exact row_byte hk r (List.mem_reverse.mp (List.mem_of_find?_eq_some hr))

/-- C80 violated: a property whose access is "required_c" or "required_o" gets no access at all. -/
theorem C80_conditional_violated (junk : Nat → Byte) (v : CInt) (o' : Obj) (a : List Property)
    (h : Obj.new.setCode stdDb junk v = .ok (o', a)) (k : StdClass) (hk : k ∈ classes) (hv : OfClass v k) (e : Byte)
    (hmap : e ≠ 0x9D#8 ∧ e ≠ 0x9E#8 ∧ e ≠ 0x9F#8) (r : StdRow) (hr : lastRow k.rows e.toNat = some r)
    (hsup : lastRow cls0000.rows e.toNat = none) :
    ∃ p, o'.getProperty e = some p ∧ (Conditional r.get → ¬ CanRead p) ∧ (Conditional r.set → ¬ CanWrite p) ∧
      (Conditional r.anno → ¬ CanAnnounce p) := by
  obtain ⟨b0, b1, b2, b4, b5, b6⟩ := new_bits r
  have e0 : (r.new.setParent true).attr = r.new.attr := rfl
  refine ⟨r.new.setParent true, ?_, ?_, ?_, ?_⟩
  · rw [std_find h hk hv e hmap.1 hmap.2.1 hmap.2.2, hsup, hr]; rfl
  · intro hc; unfold CanRead; rw [e0, b0, b4]
    revert hc; unfold Conditional; cases r.get <;> decide
  · intro hc; unfold CanWrite; rw [e0, b1, b5]
    revert hc; unfold Conditional; cases r.set <;> decide
  · intro hc; unfold CanAnnounce; rw [e0, b2, b6]
    revert hc; unfold Conditional; cases r.anno <;> decide

-- a solar power generation (0x0279): the upper limit setting 0xA0 can neither be read nor written
example : ∃ k ∈ classes, OfClass 0x027901#32 k ∧ ∃ r, lastRow k.rows (0xA0#8).toNat = some r ∧
    lastRow cls0000.rows (0xA0#8).toNat = none ∧ Conditional r.get ∧ Conditional r.set := by
  refine ⟨cls0279, by decide +kernel, ⟨rfl, rfl⟩, _, rfl, rfl, .inl rfl, .inl rfl⟩

example : ∃ o' a, Obj.new.setCode stdDb (fun _ => 0) 0x027901#32 = .ok (o', a) := by
  obtain ⟨x, h⟩ := setCode_new_defined stdDb (fun _ => 0) 0x027901#32
  exact ⟨x.1, x.2, h⟩

/-- C81 violated: for a code that both the super class and the class of an object have, the object gets the rules of the super class;
those of its own class are lost. -/
theorem C81_super_class_wins_violated (junk : Nat → Byte) (v : CInt) (o' : Obj) (a : List Property)
    (h : Obj.new.setCode stdDb junk v = .ok (o', a)) (k : StdClass) (hk : k ∈ classes) (hv : OfClass v k) (e : Byte)
    (hmap : e ≠ 0x9D#8 ∧ e ≠ 0x9E#8 ∧ e ≠ 0x9F#8) (s : StdRow) (hs : lastRow cls0000.rows e.toNat = some s) :
    ∃ p, o'.getProperty e = some p ∧ Follows p s := by
  refine ⟨s.new.setParent true, ?_, ?_⟩
  · rw [std_find h hk hv e hmap.1 hmap.2.1 hmap.2.2, hs]; rfl
  · unfold lastRow at hs
    have hm := List.mem_reverse.mp (List.mem_of_find?_eq_some hs)
    have hc : ∀ r ∈ cls0000.rows, ¬ Conditional r.get ∧ ¬ Conditional r.set ∧ ¬ Conditional r.anno := by decide +kernel
    exact follows_new s (row_byte super_mem s hm) true (hc s hm).1 (hc s hm).2.1 (hc s hm).2.2

/-- C81 violated, two cases: the operating status 0x80 of a node profile can be written although its class forbids it, and that of a
home air conditioner need not be writable although its class demands it. -/
theorem C81_operation_status_violated (junk : Nat → Byte) (o1 o2 : Obj) (a1 a2 : List Property)
    (h1 : Obj.new.setCode stdDb junk 0x0EF001#32 = .ok (o1, a1)) (h2 : Obj.new.setCode stdDb junk 0x013001#32 = .ok (o2, a2)) :
    (∃ r, lastRow cls0EF0.rows 0x80 = some r ∧ ¬ Allows r.set ∧ ∃ p, o1.getProperty 0x80#8 = some p ∧ CanWrite p) ∧
    (∃ r, lastRow cls0130.rows 0x80 = some r ∧ r.set = .required ∧
      ∃ p, o2.getProperty 0x80#8 = some p ∧ ¬ p.attr.getLsbD 5 = true) := by
  have hsup : ∃ s, lastRow cls0000.rows (0x80#8).toNat = some s ∧ s.set = .optional := ⟨_, rfl, rfl⟩
  obtain ⟨s, hs, hso⟩ := hsup
  constructor
  · refine ⟨_, rfl, by decide, ?_⟩
    obtain ⟨p, hp, hf⟩ := C81_super_class_wins_violated junk _ o1 a1 h1 cls0EF0 (by decide +kernel) ⟨rfl, rfl⟩ 0x80#8
      (by decide) s hs
    exact ⟨p, hp, hf.write.mpr (by rw [hso]; decide)⟩
  · refine ⟨_, rfl, rfl, ?_⟩
    obtain ⟨p, hp, hf⟩ := C81_super_class_wins_violated junk _ o2 a2 h2 cls0130 (by decide +kernel) ⟨rfl, rfl⟩ 0x80#8
      (by decide) s hs
    exact ⟨p, hp, fun hb => by have := hf.mustWrite.mp hb; rw [hso] at this; cases this⟩

/-- C81 (partial: the super class has no row for the code): the object has exactly the properties of its class, each under the name of
its class. -/
theorem C81_class_property_partial (junk : Nat → Byte) (v : CInt) (o' : Obj) (a : List Property)
    (h : Obj.new.setCode stdDb junk v = .ok (o', a)) (k : StdClass) (hk : k ∈ classes) (hv : OfClass v k) (e : Byte)
    (hmap : e ≠ 0x9D#8 ∧ e ≠ 0x9E#8 ∧ e ≠ 0x9F#8) (hs : lastRow cls0000.rows e.toNat = none) :
    (o'.getProperty e).map (fun p => p.name) = (lastRow k.rows e.toNat).map fun r => some r.name := by
  rw [std_find h hk hv e hmap.1 hmap.2.1 hmap.2.2, hs, Option.none_or, Option.map_map]
  rfl

theorem class_length : ∀ k ∈ classes, k.new.props.length ≤ 100 := by decide +kernel
theorem super_length : (cls0000.new.props.map fun q => q.copy.setParent true).length = 24 := by decide +kernel
theorem super_readable : ((cls0000.new.props.map fun q => q.copy.setParent true).filter Property.isReadable).length = 24 := by
  decide +kernel

/-- The maps of a standard object, with the number of codes in its Get map. -/
theorem std_maps {junk : Nat → Byte} {v : CInt} {o' : Obj} {a : List Property} (h : Obj.new.setCode stdDb junk v = .ok (o', a))
    {k : StdClass} (hk : k ∈ classes) (hv : OfClass v k) :
    ∃ b : Obj, (∀ c : Byte, c ≠ 0x9D#8 → c ≠ 0x9E#8 → c ≠ 0x9F#8 → o'.getProperty c = b.getProperty c) ∧
      (b.props.map (·.code)).Nodup ∧ 15 < (b.props.filter Property.isReadable).length ∧
      MapReflects o' 0x9E#8 b.props Property.isWritable ∧ MapReflects o' 0x9D#8 b.props Property.isAnnounceable ∧
      MapReflects o' 0x9F#8 b.props Property.isReadable := by
  unfold Obj.setCode at h
  have hb := code_bytes v
  have g0 : stdDb.getObject 0x00#8 0x00#8 = some cls0000.new :=
    getObject_class C61_codes.1 class_bytes super_mem rfl rfl
  have g1 := getObject_class C61_codes.1 class_bytes hk (g := ((v &&& 0xFF0000#32).sshiftRight 16).setWidth 8)
    (c := ((v &&& 0x00FF00#32).sshiftRight 8).setWidth 8) (by rw [hb.1]; exact hv.1.symm) (by rw [hb.2.1]; exact hv.2.symm)
  let o0 : Obj := { Obj.new with
    grp := ((v &&& 0xFF0000#32).sshiftRight 16).setWidth 8
    cls := ((v &&& 0x00FF00#32).sshiftRight 8).setWidth 8
    ins := (v &&& 0x0000FF#32).setWidth 8 }
  change Obj.updatePropertyMaps junk (o0.addStandard stdDb).1 = .ok (o', a) at h
  obtain ⟨l, hl, hl2⟩ := addStandard_props (o := o0) rfl g0 g1 (class_uniq cls0000)
  have h100 := class_length k hk
  have hlen : (o0.addStandard stdDb).1.props.length ≤ 255 := by
    rw [hl, List.length_append, super_length]; omega
  obtain ⟨m1, m2, m3⟩ := C20_update_partial junk _ o' a h hlen
  refine ⟨(o0.addStandard stdDb).1, fun c c1 c2 c3 => updatePropertyMaps_find h c c1 c2 c3,
    uniq_addStandard _ _ (by simp [o0, Obj.new]), ?_, m1, m2, m3 ?_⟩
  · rw [hl, List.filter_append, List.length_append, super_readable]; omega
  · have := (addStandard_codes stdDb o0).2.2.2
    rw [this]; rfl

/-- C82 violated: the Get property map (0x9F) of every object of a standard class has more than 15 codes and lists none from 0xC0
on, whatever can be read. -/
theorem C82_get_map_violated (junk : Nat → Byte) (v : CInt) (o' : Obj) (a : List Property)
    (h : Obj.new.setCode stdDb junk v = .ok (o', a)) (k : StdClass) (hk : k ∈ classes) (hv : OfClass v k) :
    ∃ p n, o'.getProperty 0x9F#8 = some p ∧ MapCount p.data n ∧ 15 < n ∧ ∀ c : Byte, 0xC0 ≤ c.toNat → ¬ MapLists p.data c := by
  obtain ⟨b, _, _, h15, _, _, p, n, e1, e2, e3, e4⟩ := std_maps h hk hv
  refine ⟨p, n, e1, e3, by omega, fun c hc hm => ?_⟩
  have := ((e4 c).mp hm).2
  omega

/-- C82 violated: in particular a node profile does not list its instance list 0xD6, which it has and must offer. -/
theorem C82_node_profile_violated (junk : Nat → Byte) (o' : Obj) (a : List Property)
    (h : Obj.new.setCode stdDb junk 0x0EF001#32 = .ok (o', a)) :
    ∃ p q, o'.getProperty 0x9F#8 = some p ∧ o'.getProperty 0xD6#8 = some q ∧ CanRead q ∧ ¬ MapLists p.data 0xD6#8 := by
  obtain ⟨p, n, e1, _, _, e4⟩ := C82_get_map_violated junk _ o' a h cls0EF0 (by decide +kernel) ⟨rfl, rfl⟩
  have hr : ∃ r, lastRow cls0EF0.rows (0xD6#8).toNat = some r ∧ r.get = .required ∧ r.set = .notApplicable ∧ r.anno = .optional :=
    ⟨_, rfl, rfl, rfl, rfl⟩
  obtain ⟨r, hr, g1, g2, g3⟩ := hr
  obtain ⟨q, hq, hf⟩ := C80_rules_partial junk _ o' a h cls0EF0 (by decide +kernel) ⟨rfl, rfl⟩ 0xD6#8 (by decide) r hr
    (.inr rfl) (by rw [g1]; decide) (by rw [g2]; decide) (by rw [g3]; decide)
  exact ⟨p, q, e1, hq, hf.read.mpr (by rw [g1]; decide), e4 _ (by decide)⟩

/-- C82 (partial: codes below 0xC0, apart from the maps themselves): the Get, Set and announcement maps of an object of a standard
class list a code exactly if the object has a property with it that can be read, written or announced. -/
theorem C82_maps_partial (junk : Nat → Byte) (v : CInt) (o' : Obj) (a : List Property)
    (h : Obj.new.setCode stdDb junk v = .ok (o', a)) (k : StdClass) (hk : k ∈ classes) (hv : OfClass v k) (c : Byte)
    (hmap : c ≠ 0x9D#8 ∧ c ≠ 0x9E#8 ∧ c ≠ 0x9F#8) (hc : 0x80 ≤ c.toNat ∧ c.toNat < 0xC0) :
    (∃ p, o'.getProperty 0x9F#8 = some p ∧ (MapLists p.data c ↔ ∃ q, o'.getProperty c = some q ∧ CanRead q)) ∧
    (∃ p, o'.getProperty 0x9E#8 = some p ∧ (MapLists p.data c ↔ ∃ q, o'.getProperty c = some q ∧ CanWrite q)) ∧
    (∃ p, o'.getProperty 0x9D#8 = some p ∧ (MapLists p.data c ↔ ∃ q, o'.getProperty c = some q ∧ CanAnnounce q)) := by
  obtain ⟨b, hb, hu, _, m1, m2, m3⟩ := std_maps h hk hv
  have conv : ∀ mc (f : Property → Bool) (g : Property → Prop), (∀ q, f q = true ↔ g q) → MapReflects o' mc b.props f →
      ∃ p, o'.getProperty mc = some p ∧ (MapLists p.data c ↔ ∃ q, o'.getProperty c = some q ∧ g q) := by
    rintro mc f g hfg ⟨p, n, h1, _, _, h4⟩
    refine ⟨p, h1, ?_⟩
    rw [h4, hb c hmap.1 hmap.2.1 hmap.2.2]
    constructor
    · rintro ⟨⟨q, hq, hqc, hf⟩, _⟩
      exact ⟨q, (find_mem_iff hu).mpr ⟨hq, hqc⟩, (hfg q).mp hf⟩
    · rintro ⟨q, hq, hg⟩
      have := (find_mem_iff hu).mp hq
      exact ⟨⟨q, this.1, this.2, (hfg q).mpr hg⟩, .inr hc⟩
  exact ⟨conv _ _ _ readable_iff m3, conv _ _ _ writable_iff m1, conv _ _ _ announceable_iff m2⟩

/-- C83: looking up a manufacturer code finds the one entry of the table with this code, or nothing if there is none; the codes
of the table are distinct and fit in the three bytes of the property 0x8A, and no name is empty. -/
theorem C83_manufacturers :
    (∀ (code : CInt) (m : Manufacture), getManufacture manufacturers code = some m ↔ m ∈ manufacturers ∧ m.code = code) ∧
    (manufacturers.map (·.code)).Nodup ∧ ∀ m ∈ manufacturers, m.code.toNat ≤ 0xFFFFFF ∧ m.name ≠ "" := by
  have hn : (manufacturers.map (·.code)).Nodup := by decide +kernel
  refine ⟨fun code m => ?_, hn, by decide +kernel⟩
  have gen : ∀ ms : List Manufacture, (ms.map (·.code)).Nodup → (getManufacture ms code = some m ↔ m ∈ ms ∧ m.code = code) := by
    intro ms
    induction ms with
    | nil => intro _; simp [getManufacture]
    | cons q ms ih =>
      intro hn
      rw [List.map_cons, List.nodup_cons] at hn
      unfold getManufacture at ih ⊢
      rw [List.find?_cons]
      by_cases h : q.code = code
      · rw [show (q.code == code) = true by simpa using h]
        simp only [Option.some.injEq, List.mem_cons]
        constructor
        · rintro rfl; exact ⟨.inl rfl, h⟩
        · rintro ⟨rfl | hm, hc⟩
          · rfl
          · exact absurd (List.mem_map.mpr ⟨m, hm, hc.trans h.symm⟩) hn.1
      · rw [show (q.code == code) = false by simpa using h, ih hn.2]
        constructor
        · rintro ⟨hm, hc⟩; exact ⟨List.mem_cons_of_mem _ hm, hc⟩
        · rintro ⟨hm, hc⟩
          rcases List.mem_cons.mp hm with rfl | hm
          · exact absurd hc h
          · exact ⟨hm, hc⟩
  exact gen _ hn

example : getManufacture manufacturers 0x000016#32 = some ⟨0x000016#32, "Toshiba Corporation"⟩ ∧
    getManufacture manufacturers 0xFFFFF0#32 = none := ⟨by with_unfolding_all rfl, by with_unfolding_all rfl⟩

end Uecho.Props
