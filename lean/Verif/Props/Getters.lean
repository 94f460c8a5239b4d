import Verif.Spec.Getters
import Verif.Props.Listener
import Verif.Props.Node
import Verif.Props.Device
import Verif.Lemmas.Controller
import Verif.Model.Compare
/-! # C128 to C131: what the getters of objects, nodes and messages say -/
namespace Uecho.Props
open Uecho Uecho.Spec Uecho.Lemmas

/-! ## C128: handlers -/

theorem find_eraseP_other {l : List Observer} {esv c esv' c' : Byte} (hk : ¬ (esv = esv' ∧ c = c')) :
    (l.eraseP fun x => esv == x.esv && c == x.code).find? (fun x => esv' == x.esv && c' == x.code) =
      l.find? (fun x => esv' == x.esv && c' == x.code) := by
  induction l with
  | nil => rfl
  | cons z l ih =>
    by_cases hz : (esv == z.esv && c == z.code) = true
    · rw [List.eraseP_cons, hz, cond_true, List.find?_cons]
      simp only [Bool.and_eq_true, beq_iff_eq] at hz
      have : (esv' == z.esv && c' == z.code) = false := by
        rw [Bool.eq_false_iff]; intro h
        simp only [Bool.and_eq_true, beq_iff_eq] at h
        exact hk ⟨hz.1.trans h.1.symm, hz.2.trans h.2.symm⟩
      rw [this]
    · rw [List.eraseP_cons, Bool.eq_false_iff.2 hz, cond_false, List.find?_cons, List.find?_cons, ih]

theorem handler_set {o : Obj} (ho : OneEach o.observers) (esv c : Byte) (h : Option Handler) (esv' c' : Byte) :
    (o.setRequestHandler esv c h).getRequestHandler esv' c' = if esv = esv' ∧ c = c' then h else o.getRequestHandler esv' c' := by
  have hone := oneEach_set ho esv c h
  unfold Obj.getRequestHandler Obj.getObserver
  unfold Obj.setRequestHandler at hone ⊢
  simp only at hone ⊢
  rw [List.find?_append]
  by_cases hk : esv = esv' ∧ c = c'
  · obtain ⟨rfl, rfl⟩ := hk
    unfold OneEach at hone
    rw [List.pairwise_append] at hone
    have : (o.observers.eraseP fun x => esv == x.esv && c == x.code).find? (fun x => esv == x.esv && c == x.code) = none := by
      rw [List.find?_eq_none]
      intro x hx hc
      simp only [Bool.and_eq_true, beq_iff_eq] at hc
      exact hone.2.2 x hx _ (List.mem_singleton.2 rfl) ⟨hc.1.symm, hc.2.symm⟩
    rw [this]
    simp
  · rw [find_eraseP_other hk, if_neg hk]
    have : [(⟨esv, c, h⟩ : Observer)].find? (fun x => esv' == x.esv && c' == x.code) = none := by
      simp only [List.find?_eq_none, List.mem_singleton, forall_eq, Bool.and_eq_true, beq_iff_eq]
      rintro ⟨h1, h2⟩; exact hk ⟨h1.symm, h2.symm⟩
    rw [this, Option.or_none]

theorem handler_step {o : Obj} (ho : OneEach o.observers) (k : HandlerCall) (esv c : Byte) :
    OneEach (handlerStep o k).observers ∧
    (handlerStep o k).getRequestHandler esv c = (k.saysOf esv c).getD (o.getRequestHandler esv c) := by
  cases k with
  | request e k h =>
    refine ⟨oneEach_set ho .., ?_⟩
    simp only [handlerStep, handler_set ho, HandlerCall.saysOf]
    split <;> rfl
  | write k h =>
    have h1 := oneEach_set ho 0x60#8 k h
    have h2 := oneEach_set h1 0x61#8 k h
    refine ⟨oneEach_set h2 .., ?_⟩
    simp only [handlerStep, Obj.setWriteHandler, handler_set h2, handler_set h1, handler_set ho, HandlerCall.saysOf]
    by_cases hk : k = c
    · by_cases a : esv = 0x60#8
      · subst a; simp [hk]
      · by_cases b : esv = 0x61#8
        · subst b; simp [hk]
        · by_cases d : esv = 0x6E#8
          · subst d; simp [hk]
          · simp [hk, a, b, d, Ne.symm a, Ne.symm b, Ne.symm d]
    · simp [hk]
  | read k h =>
    have h1 := oneEach_set ho 0x62#8 k h
    have h2 := oneEach_set h1 0x63#8 k h
    refine ⟨oneEach_set h2 .., ?_⟩
    simp only [handlerStep, Obj.setReadHandler, handler_set h2, handler_set h1, handler_set ho, HandlerCall.saysOf]
    by_cases hk : k = c
    · by_cases a : esv = 0x62#8
      · subst a; simp [hk]
      · by_cases b : esv = 0x63#8
        · subst b; simp [hk]
        · by_cases d : esv = 0x6E#8
          · subst d; simp [hk]
          · simp [hk, a, b, d, Ne.symm a, Ne.symm b, Ne.symm d]
    · simp [hk]

/-- **C128.** After any registrations on an object that had none, for single services, for all that write or for all that read, the handler
given back for a service and a property is the one registered last for them, and the object has one exactly if that is not NULL. -/
theorem C128_last_handler (o : Obj) (ho : o.observers = []) (cs : List HandlerCall) (esv c : Byte) :
    (handlerRun o cs).getRequestHandler esv c = registered esv c cs ∧
    (handlerRun o cs).hasRequestHandler esv c = (registered esv c cs).isSome := by
  have key : ∀ (cs : List HandlerCall) (o : Obj), OneEach o.observers →
      (handlerRun o cs).getRequestHandler esv c =
        ((cs.filterMap (·.saysOf esv c)).getLast?).getD (o.getRequestHandler esv c) := by
    intro cs
    induction cs with
    | nil => intro o _; rfl
    | cons k cs ih =>
      intro o ho
      obtain ⟨h1, h2⟩ := handler_step ho k esv c
      have := ih _ h1
      rw [h2] at this
      change (handlerRun (handlerStep o k) cs).getRequestHandler esv c = _
      rw [this, List.filterMap_cons]
      cases hs : k.saysOf esv c with
      | none => rfl
      | some x => simp [List.getLast?_cons]
  have h := key cs o (by rw [ho]; exact List.Pairwise.nil)
  have h0 : o.getRequestHandler esv c = none := by simp [Obj.getRequestHandler, Obj.getObserver, ho]
  rw [h0] at h
  exact ⟨h, by rw [Obj.hasRequestHandler, h]; rfl⟩

/-- non-vacuity: the handler for reading replaces the one for writing for SetGet -/
example : let w : Handler := fun _ _ _ => true
    let r : Handler := fun _ _ _ => false
    let o := handlerRun Obj.new [.write 0x80 (some w), .read 0x80 (some r)]
    o.getRequestHandler 0x61 0x80 = some w ∧ o.getRequestHandler 0x6E 0x80 = some r ∧ o.hasRequestHandler 0x61 0x81 = false :=
  ⟨rfl, rfl, rfl⟩

/-! ## C129: values of properties through their object -/

/-- **C129** (data). Reading a property of an object gives the bytes that were set; a byte only if there is exactly one, a number
only its value in at most three bytes (see C14). -/
theorem C129_values (o : Obj) (c : Byte) (d : List Byte) :
    ((o.setPropertyData c d).1.getPropertyData c).2 = d ∧
    ((o.setPropertyData c d).1.getPropertyByteData c).Defined ∧
    (∀ b, d = [b] → (o.setPropertyData c d).1.getPropertyByteData c = .ok ((o.setPropertyData c d).1, some b)) ∧
    (d.length ≠ 1 → (o.setPropertyData c d).1.getPropertyByteData c = .ok ((o.setPropertyData c d).1, none)) ∧
    (d.length ≤ 3 → (o.setPropertyData c d).1.getPropertyIntegerData c = .ok ((o.setPropertyData c d).1, BitVec.ofNat 32 (beValue d))) := by
  have hd : dat (o.setPropertyData c d).1 c = some d := by rw [dat_set, if_pos rfl]
  generalize (o.setPropertyData c d).1 = o' at hd
  refine ⟨?_, getByte_defined o' c, fun b hb => getByte_of (by rw [hd, hb]), fun hl => ?_, fun hl => ?_⟩
  · unfold dat at hd
    cases hf : PropertyList.find o'.props c with
    | none => rw [hf] at hd; cases hd
    | some p =>
      rw [hf] at hd
      simp only [Option.map_some, Option.some.injEq] at hd
      simp [Obj.getPropertyData, PropertyList.getData, PropertyList.getByCode, hf, hd]
  · unfold dat at hd
    cases hf : PropertyList.find o'.props c with
    | none => rw [hf] at hd; cases hd
    | some p =>
      rw [hf] at hd
      simp only [Option.map_some, Option.some.injEq] at hd
      simp [Obj.getPropertyByteData, PropertyList.getByteData, PropertyList.getByCode, hf, Property.getByteData, hd, hl]
  · unfold dat at hd
    cases hf : PropertyList.find o'.props c with
    | none => rw [hf] at hd; cases hd
    | some p =>
      rw [hf] at hd
      simp only [Option.map_some, Option.some.injEq] at hd
      have hlt : beValue p.data < 2 ^ 31 := by
        rw [hd]
        match d, hl with
        | [], _ => decide
        | [a], _ => simp only [beValue, List.foldl_cons, List.foldl_nil]; omega
        | [a, b], _ => simp only [beValue, List.foldl_cons, List.foldl_nil]; omega
        | [a, b, c], _ => simp only [beValue, List.foldl_cons, List.foldl_nil]; omega
      have := (C14_get_characterised p).1 ⟨by rw [hd]; omega, hlt⟩
      simp [Obj.getPropertyIntegerData, PropertyList.getIntegerData, PropertyList.getByCode, hf, this, hd]

/-- **C129** (size, partial: less than 256 bytes). The size is the number of bytes that were set. -/
theorem C129_size_partial (o : Obj) (c : Byte) (d : List Byte) (hd : d.length < 256) :
    (((o.setPropertyData c d).1.getPropertyDataSize c).2).toNat = d.length := by
  have h : dat (o.setPropertyData c d).1 c = some d := by rw [dat_set, if_pos rfl]
  generalize (o.setPropertyData c d).1 = o' at h
  unfold dat at h
  cases hf : PropertyList.find o'.props c with
  | none => rw [hf] at h; cases h
  | some p =>
    rw [hf] at h
    simp only [Option.map_some, Option.some.injEq] at h
    simp [Obj.getPropertyDataSize, PropertyList.getDataSize, PropertyList.getByCode, hf, h, hd]

/-- **C129 violated** (size). Data of 256 bytes or more is kept but its size is given modulo 256: the size of 256 bytes is 0. -/
theorem C129_size_violated (o : Obj) (c : Byte) (d : List Byte) (hd : 256 ≤ d.length) :
    ((o.setPropertyData c d).1.getPropertyData c).2 = d ∧
    (((o.setPropertyData c d).1.getPropertyDataSize c).2).toNat = d.length % 256 ∧
    (((o.setPropertyData c d).1.getPropertyDataSize c).2).toNat ≠ d.length := by
  refine ⟨(C129_values o c d).1, ?_, by have := ((o.setPropertyData c d).1.getPropertyDataSize c).2.isLt; omega⟩
  have h : dat (o.setPropertyData c d).1 c = some d := by rw [dat_set, if_pos rfl]
  generalize (o.setPropertyData c d).1 = o' at h
  unfold dat at h
  cases hf : PropertyList.find o'.props c with
  | none => rw [hf] at h; cases h
  | some p =>
    rw [hf] at h
    simp only [Option.map_some, Option.some.injEq] at h
    simp [Obj.getPropertyDataSize, PropertyList.getDataSize, PropertyList.getByCode, hf, h]

/-- non-vacuity -/
example : ((Obj.new.setPropertyData 0x80 [0x30, 0x31]).1.getPropertyDataSize 0x80).2 = 2 ∧
    ((Obj.new.setPropertyData 0x80 (List.replicate 256 1)).1.getPropertyDataSize 0x80).2 = 0 := by decide +kernel

/-! ## C130: searches and answers -/

/-- **C130** (searches). A received frame is a request to search for nodes exactly if it is a Get of the one property 0xD6. -/
theorem C130_search (f : Frame) (hf : f.WF) (rest : List Byte) :
    ∃ m b, Message.new.parse (encode f ++ rest) (encode f ++ rest).length = .ok (true, m) ∧ m.isSearchRequest = .ok b ∧
      (b = true ↔ f.esv = 0x62 ∧ ∃ d, f.body = .plain [(0xD6, d)]) := by
  have hs := parse_spec inv_new.toMsgWF (encode f ++ rest) _ (Nat.le_refl _)
  rw [List.take_length, decode_complete hf] at hs
  simp only at hs
  suffices h : ∃ b, (parsed Message.new f).isSearchRequest = .ok b ∧ (b = true ↔ f.esv = 0x62 ∧ ∃ d, f.body = .plain [(0xD6, d)]) by
    obtain ⟨b, h1, h2⟩ := h
    exact ⟨_, b, hs, h1, h2⟩
  have h3 : (parsed Message.new f).esv = f.esv := rfl
  unfold Message.isSearchRequest
  rw [h3]
  by_cases he : f.esv = 0x62#8
  · rw [if_neg (by rw [he]; decide)]
    unfold Frame.WF at hf
    cases hb : f.body with
    | setGet s g =>
      rw [hb] at hf
      have hs := hf.1
      rw [he] at hs
      exact absurd hs (by decide)
    | plain ps =>
      rw [hb] at hf
      have h1 : (parsed Message.new f).opc = BitVec.ofNat 8 ps.length := by simp [parsed, hb]
      have h2 : (parsed Message.new f).ep = ps.map mkProp := by simp [parsed, hb]
      match ps, hb, hf, h1, h2 with
      | [], hb, hf, h1, h2 => rw [if_pos (by rw [h1]; decide)]; exact ⟨false, rfl, by simp⟩
      | [q], hb, hf, h1, h2 =>
        unfold Message.getProperty Message.propGet
        rw [h1, h2]
        obtain ⟨q1, q2⟩ := q
        exact ⟨q1 == 0xD6#8, by simp [rd, mkProp, fill], by simp [he]⟩
      | q :: q2 :: qs, hb, hf, h1, h2 =>
        rw [if_pos]
        · exact ⟨false, rfl, by simp⟩
        · rw [h1]
          intro hc
          have := congrArg BitVec.toNat hc
          have := hf.2.1
          simp at *
          omega
  · rw [if_pos (by exact he)]
    exact ⟨false, rfl, by simp [he]⟩

/-- **C130** (answers). A message requires an answer exactly if its service is SetC, Get, INF_REQ, SetGet or INFC. -/
theorem C130_response_required (m : Message) :
    m.isResponseRequired = true ↔ m.esv = 0x61 ∨ m.esv = 0x62 ∨ m.esv = 0x63 ∨ m.esv = 0x6E ∨ m.esv = 0x74 := by
  have : ∀ v : Byte, (Esv.requestToResponse v).isSome = true ↔ v = 0x61 ∨ v = 0x62 ∨ v = 0x63 ∨ v = 0x6E ∨ v = 0x74 := by decide +kernel
  exact this m.esv

/-- **C130.** The request that a controller sends to search for nodes is one, from node profile to node profile, and requires an answer. -/
theorem C130_search_new : ∃ m, Message.searchNew = .ok m ∧ m.isSearchRequest = .ok true ∧ m.isResponseRequired = true ∧
    m.getSourceObjectCode = .ok 0x0EF001 ∧ m.getDestinationObjectCode = .ok 0x0EF001 :=
  ⟨{ Message.new with esv := 0x62, seoj := (0x0E, 0xF0, 0x01), deoj := (0x0E, 0xF0, 0x01), opc := 1, ep := [Property.new.setCode 0xD6] },
    by decide +kernel, by decide +kernel, by decide, by decide +kernel, by decide +kernel⟩

/-- **C130** (own messages). A message is one of an object to itself exactly if it comes from an address of the node and names one object
as its source and its destination. -/
theorem C130_own_object (n : Node) (m : Message) :
    ∃ b, n.isSelfObjectMessage m = .ok b ∧ (b = true ↔ n.isAddress m.fromAddr = true ∧ m.seoj = m.deoj) := by
  unfold Node.isSelfObjectMessage Message.getSourceObjectCode Message.getDestinationObjectCode
  rw [codeOfEoj_eq, codeOfEoj_eq]
  by_cases h : n.isAddress m.fromAddr = true
  · simp only [h, if_true, Res.bind_ok, Res.pure_eq]
    refine ⟨_, rfl, ?_⟩
    simp only [beq_iff_eq, true_and]
    constructor
    · intro hh
      have := congrArg BitVec.toNat hh
      rcases hs : m.seoj with ⟨a, b, c⟩
      rcases hd : m.deoj with ⟨x, y, z⟩
      simp only [hs, hd, eojNat, BitVec.toNat_ofNat] at this
      have := a.isLt; have := b.isLt; have := c.isLt; have := x.isLt; have := y.isLt; have := z.isLt
      simp only [Prod.mk.injEq]
      refine ⟨BitVec.eq_of_toNat_eq ?_, BitVec.eq_of_toNat_eq ?_, BitVec.eq_of_toNat_eq ?_⟩ <;> omega
    · intro hh; rw [hh]
  · exact ⟨false, by simp [h], by simp [h]⟩

/-! ## C131: codes and counts -/

/-- **C131** (objects). The setters of the codes set what they say and nothing else of the code; the code is made of the three; an object is
a device exactly if its group is at most 6, and a profile if it is 0x0E. -/
theorem C131_object_codes (db : Db) (o : Obj) (v : Byte) :
    let g := o.setGroupCode db v
    let c := o.setClassCode db v
    let i := o.setInstanceCode v
    (g.getGroupCode = v ∧ g.getClassCode = o.getClassCode ∧ g.getInstanceCode = o.getInstanceCode) ∧
    (c.getGroupCode = o.getGroupCode ∧ c.getClassCode = v ∧ c.getInstanceCode = o.getInstanceCode) ∧
    (i.getGroupCode = o.getGroupCode ∧ i.getClassCode = o.getClassCode ∧ i.getInstanceCode = v) ∧
    o.getCode.toNat = o.getGroupCode.toNat * 65536 + o.getClassCode.toNat * 256 + o.getInstanceCode.toNat ∧
    (o.isDevice = true ↔ o.getGroupCode.toNat ≤ 6) ∧ (o.isProfile = true ↔ o.getGroupCode.toNat = 0x0E) := by
  have hd : ∀ b : Byte, isDeviceGroup b = true ↔ b.toNat ≤ 6 := by decide +kernel
  have hp : ∀ b : Byte, isProfileGroup b = true ↔ b.toNat = 0x0E := by decide +kernel
  have h1 := addStandard_codes db { o with grp := v }
  have h2 := addStandard_codes db { o with cls := v }
  exact ⟨⟨h1.1, h1.2.1, h1.2.2.1⟩, ⟨h2.1, h2.2.1, h2.2.2.1⟩, ⟨rfl, rfl, rfl⟩, getCode_toNat o, hd _, hp _⟩

/-- **C131** (classes). The same for classes, and setting a code of 16 bits gives it back. -/
theorem C131_class_codes (k : Class) (v : Byte) (code : CInt) (hc : code.toNat < 2 ^ 16) :
    (k.setGroupCode v).getGroupCode = v ∧ (k.setGroupCode v).getClassCode = k.getClassCode ∧
    (k.setClassCode v).getGroupCode = k.getGroupCode ∧ (k.setClassCode v).getClassCode = v ∧
    k.getCode.toNat = k.getGroupCode.toNat * 256 + k.getClassCode.toNat ∧
    (Class.setCode code).getCode = code ∧ (∀ d, (Class.setCode code).isCode d = true ↔ d = code) ∧
    (k.isDevice = true ↔ k.getGroupCode.toNat ≤ 6) ∧ (k.isProfile = true ↔ k.getGroupCode.toNat = 0x0E) ∧
    Class.new.getCode = 0 := by
  have hd : ∀ b : Byte, isDeviceGroup b = true ↔ b.toNat ≤ 6 := by decide +kernel
  have hp : ∀ b : Byte, isProfileGroup b = true ↔ b.toNat = 0x0E := by decide +kernel
  have hb := code_bytes code
  have hcode : (Class.setCode code).getCode = code := by
    apply BitVec.eq_of_toNat_eq
    rw [classGetCode_toNat]
    have e1 : (Class.setCode code).grp.toNat = code.toNat / 256 % 256 := hb.2.1
    have e2 : (Class.setCode code).cls.toNat = code.toNat % 256 := hb.2.2
    rw [e1, e2]; omega
  refine ⟨rfl, rfl, rfl, rfl, classGetCode_toNat k, hcode, fun d => ?_, hd _, hp _, by decide⟩
  rw [Class.isCode, hcode, beq_iff_eq]; exact eq_comm

theorem length_of_mem {l : List Nat} {p : Nat → Bool} {n : Nat} (hn : l.Nodup) (h : ∀ a, a ∈ l ↔ a < n ∧ p a = true) :
    l.length = ((List.range n).filter p).length := by
  have hr : ((List.range n).filter p).Nodup := by
    have := List.nodup_range (n := n)
    unfold List.Nodup at *; exact this.filter p
  refine ((List.perm_ext_iff_of_nodup hn hr).2 fun a => ?_).length_eq
  rw [h, List.mem_filter, List.mem_range]

/-- **C131** (counts). The number of properties of an object is the number of codes it has a property for, and the number of objects of a
node is the number of codes it has an object for. -/
theorem C131_property_count (db : Db) (o : Obj) (h : ObjReach db o) :
    o.getPropertyCount = ((List.range 256).filter fun c => o.hasProperty (BitVec.ofNat 8 c)).length := by
  obtain ⟨hu, hf⟩ := C21_unique_codes db o h
  unfold Obj.getPropertyCount
  have hn : ((o.props.map (·.code)).map BitVec.toNat).Nodup := by
    unfold List.Nodup at *
    exact List.Pairwise.map _ (fun a b hab hh => hab (BitVec.eq_of_toNat_eq hh)) hu
  have hl := length_of_mem (p := fun c => o.hasProperty (BitVec.ofNat 8 c)) (n := 256) hn ?_
  · rw [← hl, List.length_map, List.length_map]
  · intro a
    simp only [List.mem_map]
    constructor
    · rintro ⟨b, ⟨p, hp, rfl⟩, rfl⟩
      refine ⟨p.code.isLt, ?_⟩
      rw [BitVec.ofNat_toNat, BitVec.setWidth_eq, Obj.hasProperty, (hf p.code p).2 ⟨hp, rfl⟩]; rfl
    · rintro ⟨ha, hh⟩
      unfold Obj.hasProperty at hh
      obtain ⟨p, hp⟩ := Option.isSome_iff_exists.1 hh
      obtain ⟨h1, h2⟩ := (hf _ p).1 hp
      exact ⟨_, ⟨p, h1, rfl⟩, by rw [h2]; simp; omega⟩

theorem C131_object_count {e : Endian} {db : Db} {n : Node} (h : NodeReach e db n) :
    n.objectCount = ((List.range (2 ^ 24)).filter fun c => n.hasObject (BitVec.ofNat 32 c)).length := by
  have hu := C26_unique_codes h
  unfold Node.objectCount
  have hn : (n.objs.map (fun o => o.getCode.toNat)).Nodup := by
    unfold List.Nodup at *
    rw [List.pairwise_map] at hu ⊢
    refine hu.imp fun {a b} hab hh => hab ?_
    rw [getCode_toNat, getCode_toNat] at hh
    have := a.grp.isLt; have := a.cls.isLt; have := a.ins.isLt; have := b.grp.isLt; have := b.cls.isLt; have := b.ins.isLt
    simp only [objEoj, Prod.mk.injEq]
    refine ⟨BitVec.eq_of_toNat_eq ?_, BitVec.eq_of_toNat_eq ?_, BitVec.eq_of_toNat_eq ?_⟩ <;> omega
  have hl := length_of_mem (p := fun c => n.hasObject (BitVec.ofNat 32 c)) (n := 2 ^ 24) hn ?_
  · rw [← hl, List.length_map]
  · intro a
    simp only [List.mem_map]
    have hb : ∀ o : Obj, o.getCode.toNat < 2 ^ 24 := fun o => by
      rw [getCode_toNat]
      have := o.grp.isLt; have := o.cls.isLt; have := o.ins.isLt
      omega
    constructor
    · rintro ⟨o, ho, rfl⟩
      refine ⟨hb o, ?_⟩
      rw [BitVec.ofNat_toNat, BitVec.setWidth_eq, Node.hasObject, C26_lookup h o ho]; rfl
    · rintro ⟨ha, hh⟩
      unfold Node.hasObject Node.getObject at hh
      obtain ⟨o, ho⟩ := Option.isSome_iff_exists.1 hh
      have h1 := List.mem_of_find?_eq_some ho
      have h2 := List.find?_some ho
      simp only [beq_iff_eq] at h2
      exact ⟨o, h1, by rw [h2, BitVec.toNat_ofNat]; omega⟩

/-- non-vacuity: a reachable node with two objects, and its device with a property -/
example : NodeReach .little [] yNode ∧ yNode.objectCount = 2 := ⟨yNode_reach, by with_unfolding_all rfl⟩
example : ObjReach [] (Obj.new.setPropertyData 0x80 [1]).1 ∧ (Obj.new.setPropertyData 0x80 [1]).1.getPropertyCount = 1 :=
  ⟨.setPropertyData _ _ .new, by decide⟩

/-! ## C28: the getters of the node profile -/

/-- **C28** (getters). After every successful addition the getters of the node profile tell the number of instances and of classes, and
the lists of instances and of classes. -/
theorem C28_getters {e : Endian} {db : Db} {n n' : Node} {o : Obj} {eff : List Effect}
    (h : NodeReach e db n) (ha : n.addObject e o = .ok (n', eff, true))
    (hic : (instances n').length < 16777216) (hcc : (nodeClasses n').length < 65536) :
    ∃ p, destObj n' profileEoj = some p ∧
      NodeProfile.getInstanceCount p = .ok (p, BitVec.ofNat 32 (instances n').length) ∧
      NodeProfile.getClassCount p = .ok (p, BitVec.ofNat 32 (nodeClasses n').length) ∧
      NodeProfile.getNotificationInstanceList p = (p, instanceListData (instances n')) ∧
      NodeProfile.getInstanceList p = (p, instanceListData (instances n')) ∧
      NodeProfile.getClassList p = (p, classListData ((nodeClasses n').filter fun x => x.1 ≠ 0x0E)) := by
  obtain ⟨p, h1, ⟨l3, e3, k3, v3⟩, ⟨l4, e4, k4, v4⟩, h5, h6, h7⟩ := C28_profile_describes_node h ha hic hcc
  have hint : ∀ (c : Byte) (l : List Byte), dataOf p c = some l → l.length ≤ 3 →
      p.getPropertyIntegerData c = .ok (p, BitVec.ofNat 32 (beValue l)) := by
    intro c l hd hl
    unfold dataOf Obj.getProperty at hd
    cases hf : PropertyList.find p.props c with
    | none => rw [hf] at hd; cases hd
    | some q =>
      rw [hf] at hd
      simp only [Option.map_some, Option.some.injEq] at hd
      have hlt : beValue q.data < 2 ^ 31 := by
        rw [hd]
        match l, hl with
        | [], _ => decide
        | [a], _ => simp only [beValue, List.foldl_cons, List.foldl_nil]; omega
        | [a, b], _ => simp only [beValue, List.foldl_cons, List.foldl_nil]; omega
        | [a, b, c], _ => simp only [beValue, List.foldl_cons, List.foldl_nil]; omega
      have := (C14_get_characterised q).1 ⟨by rw [hd]; omega, hlt⟩
      simp [Obj.getPropertyIntegerData, PropertyList.getIntegerData, PropertyList.getByCode, hf, this, hd]
  have hdat : ∀ (c : Byte) (l : List Byte), dataOf p c = some l → p.getPropertyData c = (p, l) := by
    intro c l hd
    unfold dataOf Obj.getProperty at hd
    cases hf : PropertyList.find p.props c with
    | none => rw [hf] at hd; cases hd
    | some q =>
      rw [hf] at hd
      simp only [Option.map_some, Option.some.injEq] at hd
      simp [Obj.getPropertyData, PropertyList.getData, PropertyList.getByCode, hf, hd]
  refine ⟨p, h1, ?_, ?_, hdat _ _ h5, hdat _ _ h6, hdat _ _ h7⟩
  · rw [← v3]; exact hint _ _ e3 (by omega)
  · rw [← v4]; exact hint _ _ e4 (by omega)

/-- **C86** (node profiles). The operating status of a node profile is what was set last. -/
theorem C86_profile_status (o : Obj) (b : Bool) :
    NodeProfile.isOperatingStatus (NodeProfile.setOperatingStatus o b).1 = .ok ((NodeProfile.setOperatingStatus o b).1, b) := by
  have hd : dat (NodeProfile.setOperatingStatus o b).1 0x80#8 = some [if b then 0x30#8 else 0x31#8] := by
    unfold NodeProfile.setOperatingStatus; rw [dat_set, if_pos rfl]
  unfold NodeProfile.isOperatingStatus
  rw [getByte_of hd]
  cases b <;> rfl

/-- **C118** (lengths). The length of a text is the number of its characters, 0 for NULL. -/
theorem C118_length (a : Option (List Byte)) : Compare.strlen a = (a.map List.length).getD 0 := by cases a <;> rfl

end Uecho.Props
