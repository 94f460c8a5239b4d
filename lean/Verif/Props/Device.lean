import Verif.Spec.Device
import Verif.Spec.StdTable
import Verif.Props.Values
import Verif.Props.Listener
import Verif.Lemmas.Object
/-!
# C86, C87: the state accessors of devices and profiles
-/
namespace Uecho.Props
open Uecho Uecho.Spec Uecho.Lemmas

/-- the data of a property -/
def dat (o : Obj) (c : Byte) : Option (List Byte) := (PropertyList.find o.props c).map (·.data)

theorem dat_set (o : Obj) (c c' : Byte) (d : List Byte) : dat (o.setPropertyData c d).1 c' = if c' = c then some d else dat o c' := by
  unfold dat Obj.setPropertyData
  simp only
  rw [find_setData]
  split <;> simp

theorem setInt_eq (o : Obj) (c : Byte) (v : CInt) : ∃ bs, bs.length = 3 ∧ beValue bs = v.toNat % 2 ^ 24 ∧
    o.setPropertyIntegerData c v 3 = .ok (o.setPropertyData c bs) := by
  obtain ⟨bs, h1, h2, h3⟩ := beValue_integer2byte v 3 (by omega)
  refine ⟨bs, h2, h3, ?_⟩
  simp [Obj.setPropertyIntegerData, PropertyList.setIntegerData, h1, Obj.setPropertyData]

theorem getByte_of {o : Obj} {c : Byte} {b : Byte} (h : dat o c = some [b]) : o.getPropertyByteData c = .ok (o, some b) := by
  unfold dat at h
  cases hf : PropertyList.find o.props c with
  | none => rw [hf] at h; cases h
  | some p =>
    rw [hf] at h
    simp only [Option.map_some, Option.some.injEq] at h
    simp [Obj.getPropertyByteData, PropertyList.getByteData, PropertyList.getByCode, hf, Property.getByteData, h, rd]

theorem getInt_of {o : Obj} {c : Byte} {bs : List Byte} (h : dat o c = some bs) (hl : bs.length = 3) :
    o.getPropertyIntegerData c = .ok (o, BitVec.ofNat 32 (beValue bs)) := by
  unfold dat at h
  cases hf : PropertyList.find o.props c with
  | none => rw [hf] at h; cases h
  | some p =>
    rw [hf] at h
    simp only [Option.map_some, Option.some.injEq] at h
    have hlt : beValue p.data < 2 ^ 31 := by
      rw [h]
      match bs, hl with
      | [a, b, c], _ => simp only [beValue, List.foldl_cons, List.foldl_nil]; omega
    have := (C14_get_characterised p).1 ⟨by rw [h]; omega, hlt⟩
    simp [Obj.getPropertyIntegerData, PropertyList.getIntegerData, PropertyList.getByCode, hf, this, h]

def onByte (b : Bool) : Byte := if b then 0x30#8 else 0x31#8
def faultByte (b : Bool) : Byte := if b then 0x41#8 else 0x42#8
theorem setOn_eq (o : Obj) (b : Bool) : Device.setOperatingStatus o b = o.setPropertyData 0x80#8 [onByte b] := rfl
theorem setFault_eq (o : Obj) (b : Bool) : Device.setFaultStatus o b = o.setPropertyData 0x88#8 [faultByte b] := rfl

/-- the properties hold this state -/
structure Holding (o : Obj) (st : DeviceState) : Prop where
  on : dat o 0x80#8 = some [onByte st.on]
  location : dat o 0x81#8 = some [st.location]
  version : dat o 0x82#8 = some [0x00#8, 0x00#8, st.version, 0x00#8]
  fault : dat o 0x88#8 = some [faultByte st.fault]
  maker : ∃ bs, dat o 0x8A#8 = some bs ∧ bs.length = 3 ∧ beValue bs = st.maker

theorem shows_of {o : Obj} {st : DeviceState} (h : Holding o st) : Shows o st := by
  refine ⟨?_, ?_, ?_, ?_, ?_⟩
  · simp only [Device.isOperatingStatus, getByte_of h.on, Res.bind_ok, Res.pure_eq]
    cases st.on <;> rfl
  · simp only [Device.getInstallationLocation, getByte_of h.location, Res.bind_ok, Res.pure_eq]
  · have hv := h.version
    unfold dat at hv
    unfold Device.getStandardVersion Obj.getProperty
    cases hf : PropertyList.find o.props 0x82#8 with
    | none => rw [hf] at hv; cases hv
    | some p =>
      rw [hf] at hv
      simp only [Option.map_some, Option.some.injEq] at hv
      simp [hv, rd]
  · simp only [Device.isFaultStatus, getByte_of h.fault, Res.bind_ok, Res.pure_eq]
    cases st.fault <;> rfl
  · obtain ⟨bs, h1, h2, h3⟩ := h.maker
    simp only [Device.getManufacturerCode, Obj.getManufacturerCode]
    rw [getInt_of h1 h2, h3]

theorem holding_call {o : Obj} {st : DeviceState} (h : Holding o st) {c : DeviceCall} (hc : c.Allowed) :
    ∃ o', c.run o = .ok o' ∧ Holding o' (c.effect st) := by
  have hs := shows_of h
  obtain ⟨bs, m1, m2, m3⟩ := h.maker
  cases c with
  | setOn b => exact ⟨_, rfl, by constructor <;> simp [setOn_eq, dat_set, h.on, h.location, h.version, h.fault, DeviceCall.effect, m1, m2, m3]⟩
  | setLocation l => exact ⟨_, rfl, by constructor <;> simp [Device.setInstallationLocation, dat_set, h.on, h.location, h.version, h.fault, DeviceCall.effect, m1, m2, m3]⟩
  | setVersion v => exact ⟨_, rfl, by constructor <;> simp [Device.setStandardVersion, dat_set, h.on, h.location, h.version, h.fault, DeviceCall.effect, m1, m2, m3]⟩
  | setFault b => exact ⟨_, rfl, by constructor <;> simp [setFault_eq, dat_set, h.on, h.location, h.version, h.fault, DeviceCall.effect, m1, m2, m3]⟩
  | setMaker v =>
    obtain ⟨cs, k1, k2, k3⟩ := setInt_eq o 0x8A#8 v
    refine ⟨(o.setPropertyData 0x8A#8 cs).1, by simp only [DeviceCall.run, Device.setManufacturerCode, Obj.setManufacturerCode, k3, Res.bind_ok, Res.pure_eq], ?_⟩
    constructor <;> simp [dat_set, h.on, h.location, h.version, h.fault, DeviceCall.effect, k1, k2]
  | setOther c d =>
    simp only [DeviceCall.Allowed, deviceCodes, List.mem_cons, List.not_mem_nil, or_false, not_or] at hc
    obtain ⟨a1, a2, a3, a4, a5⟩ := hc
    have b1 : ¬ 0x80#8 = c := fun e => a1 e.symm
    have b2 : ¬ 0x81#8 = c := fun e => a2 e.symm
    have b3 : ¬ 0x82#8 = c := fun e => a3 e.symm
    have b4 : ¬ 0x88#8 = c := fun e => a4 e.symm
    have b5 : ¬ 0x8A#8 = c := fun e => a5 e.symm
    refine ⟨_, rfl, ?_⟩
    constructor <;> simp [dat_set, b1, b2, b3, b4, b5, h.on, h.location, h.version, h.fault, DeviceCall.effect, m1, m2, m3]
  | getOn => exact ⟨o, by simp only [DeviceCall.run, hs.on, Res.bind_ok, Res.pure_eq], h⟩
  | getLocation => exact ⟨o, by simp only [DeviceCall.run, hs.location, Res.bind_ok, Res.pure_eq], h⟩
  | getVersion => exact ⟨o, by simp only [DeviceCall.run, hs.version, Res.bind_ok, Res.pure_eq], h⟩
  | getFault => exact ⟨o, by simp only [DeviceCall.run, hs.fault, Res.bind_ok, Res.pure_eq], h⟩
  | getMaker => exact ⟨o, by simp only [DeviceCall.run, hs.maker, Res.bind_ok, Res.pure_eq], h⟩

theorem holding_new {db : Db} {o : Obj} (h : Device.new db = .ok (some o)) : Holding o .initial := by
  unfold Device.new Device.addMandatory at h
  cases hd : db.getObject 0x00#8 0x00#8 with
  | none => rw [hd] at h; simp at h
  | some s =>
    rw [hd] at h
    simp only at h
    generalize Obj.addMissing Obj.new s.props = o0 at h
    obtain ⟨bs, k1, k2, k3⟩ := setInt_eq
      (Device.setInstallationLocation (Device.setStandardVersion (Device.setFaultStatus (Device.setOperatingStatus o0 true).1 false).1 0x4E#8).1 0x00#8).1
      0x8A#8 0xFFFFF0#32
    simp only [Obj.setManufacturerCode] at h
    rw [k3] at h
    simp only [Res.bind_ok, Res.pure_eq, if_true, Res.ok.injEq, Option.some.injEq] at h
    subst h
    constructor <;> simp [dat_set, Device.setInstallationLocation, Device.setStandardVersion, setFault_eq, setOn_eq,
      DeviceState.initial, k1, k2]

/-- **C86.** After any sequence of calls of the state accessors on a new device (and of writes to other properties) every
getter returns the argument of the last call of its setter, or the initial value, and changes nothing. -/
theorem C86_device_state {db : Db} {o : Obj} (h : Device.new db = .ok (some o)) (cs : List DeviceCall) (hc : ∀ c ∈ cs, c.Allowed) :
    ∃ o', runCalls o cs = .ok o' ∧ Shows o' (cs.foldl DeviceCall.effect .initial) := by
  suffices ∀ (cs : List DeviceCall) (o : Obj) (st : DeviceState), Holding o st → (∀ c ∈ cs, c.Allowed) →
      ∃ o', runCalls o cs = .ok o' ∧ Shows o' (cs.foldl DeviceCall.effect st) from this cs o _ (holding_new h) hc
  intro cs
  induction cs with
  | nil => intro o st hh _; exact ⟨o, rfl, shows_of hh⟩
  | cons c cs ih =>
    intro o st hh hc
    obtain ⟨o1, h1, h2⟩ := holding_call hh (hc c (List.mem_cons_self ..))
    obtain ⟨o2, h3, h4⟩ := ih o1 _ h2 fun c' hc' => hc c' (List.mem_cons_of_mem _ hc')
    exact ⟨o2, by simp only [runCalls, h1, Res.bind_ok, h3], h4⟩

/-- The device of the library, and calls that are allowed. -/
example : ∃ o, Device.new stdDb = .ok (some o) := by
  have g0 : stdDb.getObject 0x00#8 0x00#8 ≠ none := by decide +kernel
  cases hd : stdDb.getObject 0x00#8 0x00#8 with
  | none => exact absurd hd g0
  | some s =>
    unfold Device.new Device.addMandatory
    rw [hd]
    simp only [Obj.setManufacturerCode]
    obtain ⟨bs, _, _, k⟩ := setInt_eq
      (Device.setInstallationLocation (Device.setStandardVersion (Device.setFaultStatus (Device.setOperatingStatus (Obj.addMissing Obj.new s.props) true).1 false).1 0x4E#8).1 0x00#8).1
      0x8A#8 0xFFFFF0#32
    rw [k]
    exact ⟨_, rfl⟩
example : ∀ c ∈ [DeviceCall.setOn false, .setOther 0xE0 [1, 2], .getMaker, .setMaker 0x77, .setLocation 0x08], c.Allowed := by
  simp [DeviceCall.Allowed, deviceCodes]

/-- **C86, violated** for profile objects: the manufacturer code of a profile reads as 0 or 1, so every other code is lost. -/
theorem C86_profile_maker_violated (o : Obj) (v : CInt) (hv : 1 < v.toNat % 2 ^ 24) :
    ∃ o' a, Profile.setManufacturerCode o v = .ok (o', a) ∧ Profile.getManufacturerCode o' = .ok (o', 1) ∧ 1 ≠ v := by
  obtain ⟨bs, k1, k2, k3⟩ := setInt_eq o 0x8A#8 v
  have hd : dat (o.setPropertyData 0x8A#8 bs).1 0x8A#8 = some bs := by rw [dat_set]; simp
  refine ⟨(o.setPropertyData 0x8A#8 bs).1, (o.setPropertyData 0x8A#8 bs).2, by rw [Profile.setManufacturerCode, Obj.setManufacturerCode, k3], ?_, ?_⟩
  · have hnz : BitVec.ofNat 32 (beValue bs) ≠ 0 := by
      rw [k2]
      intro hz
      have := congrArg BitVec.toNat hz
      simp only [BitVec.toNat_ofNat] at this
      have h2 : (0 : BitVec 32).toNat = 0 := rfl
      omega
    simp only [Profile.getManufacturerCode, Obj.getManufacturerCode]
    rw [getInt_of hd k1]
    simp only [Res.bind_ok, Res.pure_eq, if_neg hnz]
  · rintro rfl; revert hv; decide
example : 1 < (0x000077#32 : CInt).toNat % 2 ^ 24 := by decide

/-! ## C87: the getters on arbitrary data -/

theorem getByte_defined (o : Obj) (c : Byte) : (o.getPropertyByteData c).Defined := by
  have hp : ∀ p : Property, p.getByteData.Defined := by
    intro p
    rcases h : p.data with _ | ⟨b, _ | ⟨b', l⟩⟩ <;> simp [Property.getByteData, h, rd]
  obtain ⟨v, hv⟩ := hp (PropertyList.getByCode o.props c).2
  exact ⟨({ o with props := (PropertyList.getByCode o.props c).1 }, v), by
    simp only [Obj.getPropertyByteData, PropertyList.getByteData, hv, Res.bind_ok, Res.pure_eq]⟩

theorem getMaker_eq (o : Obj) : Device.getManufacturerCode o =
    (target o.props 0x8A#8).getIntegerData >>= fun v => .ok ({ o with props := (PropertyList.getByCode o.props 0x8A#8).1 }, v) := by
  simp only [Device.getManufacturerCode, Obj.getManufacturerCode, Obj.getPropertyIntegerData, PropertyList.getIntegerData, getByCode_snd]
  cases (target o.props 0x8A#8).getIntegerData <;> rfl

theorem getByte_eq (o : Obj) (c : Byte) : ∃ o', o.getPropertyByteData c =
    .ok (o', match dat o c with | some [b] => some b | _ => none) := by
  refine ⟨{ o with props := (PropertyList.getByCode o.props c).1 }, ?_⟩
  unfold dat Obj.getPropertyByteData PropertyList.getByteData PropertyList.getByCode
  cases hf : PropertyList.find o.props c with
  | none => rfl
  | some p => rcases h : p.data with _ | ⟨b, _ | ⟨b', l⟩⟩ <;> simp [Property.getByteData, h, rd]

/-- **C87.** What the getters of a device, and that of the status of a node profile, say of any data: a device is on if its status is the
byte 30h, faulty if its fault status is the byte 41h, its location is the byte of that property and its version the third of four bytes;
data of another length, or none, mean off, not faulty, location 0 and version 0. -/
theorem C87_getters_say (o : Obj) :
    (∃ o', Device.isOperatingStatus o = .ok (o', decide (dat o 0x80#8 = some [0x30#8]))) ∧
    (∃ o', NodeProfile.isOperatingStatus o = .ok (o', decide (dat o 0x80#8 = some [0x30#8]))) ∧
    (∃ o', Device.isFaultStatus o = .ok (o', decide (dat o 0x88#8 = some [0x41#8]))) ∧
    (∃ o', Device.getInstallationLocation o = .ok (o', match dat o 0x81#8 with | some [b] => b | _ => 0#8)) ∧
    Device.getStandardVersion o = .ok (match dat o 0x82#8 with | some [_, _, v, _] => v | _ => 0#8) := by
  have key : ∀ (d : Option (List Byte)) (x : Byte), (match (match d with | some [b] => some b | _ => none) with
      | none => false | some b => b == x) = decide (d = some [x]) := by
    intro d x
    rcases d with _ | (_ | ⟨b, _ | ⟨b', l⟩⟩) <;> simp <;> rfl
  refine ⟨?_, ?_, ?_, ?_, ?_⟩
  · obtain ⟨o', h⟩ := getByte_eq o 0x80#8
    refine ⟨o', ?_⟩
    rw [Device.isOperatingStatus, h, ← key, Res.bind_ok]
    cases (match dat o 0x80#8 with | some [b] => some b | _ => none) <;> rfl
  · obtain ⟨o', h⟩ := getByte_eq o 0x80#8
    refine ⟨o', ?_⟩
    rw [NodeProfile.isOperatingStatus, h, ← key, Res.bind_ok]
    cases (match dat o 0x80#8 with | some [b] => some b | _ => none) <;> rfl
  · obtain ⟨o', h⟩ := getByte_eq o 0x88#8
    refine ⟨o', ?_⟩
    rw [Device.isFaultStatus, h, ← key, Res.bind_ok]
    cases (match dat o 0x88#8 with | some [b] => some b | _ => none) <;> rfl
  · obtain ⟨o', h⟩ := getByte_eq o 0x81#8
    refine ⟨o', ?_⟩
    rw [Device.getInstallationLocation, h, Res.bind_ok]
    rcases dat o 0x81#8 with _ | (_ | ⟨b, _ | ⟨b', l⟩⟩) <;> rfl
  · unfold Device.getStandardVersion dat Obj.getProperty
    cases hf : PropertyList.find o.props 0x82#8 with
    | none => rfl
    | some p =>
      simp only [Option.map_some]
      rcases h : p.data with _ | ⟨a, _ | ⟨b, _ | ⟨c, _ | ⟨d, _ | ⟨x, l⟩⟩⟩⟩⟩ <;> simp [rd]

/-- **C87, partial.** Whatever data the properties of an object have, the getters of operating status, location, version and fault
are defined. The getter of the manufacturer code is defined exactly if the property is absent or has at most four bytes with a
value below 2^31. -/
theorem C87_getters_defined_partial (o : Obj) :
    (Device.isOperatingStatus o).Defined ∧ (Device.getInstallationLocation o).Defined ∧ (Device.getStandardVersion o).Defined ∧
    (Device.isFaultStatus o).Defined ∧
    ((Device.getManufacturerCode o).Defined ↔ ∀ p, o.getProperty 0x8A = some p → p.data.length ≤ 4 ∧ beValue p.data < 2 ^ 31) := by
  refine ⟨?_, ?_, ?_, ?_, ?_⟩
  · obtain ⟨⟨o', v⟩, h⟩ := getByte_defined o 0x80#8
    simp only [Device.isOperatingStatus, h, Res.bind_ok]
    cases v <;> exact ⟨_, rfl⟩
  · obtain ⟨⟨o', v⟩, h⟩ := getByte_defined o 0x81#8
    simp only [Device.getInstallationLocation, h, Res.bind_ok]
    cases v <;> exact ⟨_, rfl⟩
  · unfold Device.getStandardVersion
    cases o.getProperty 0x82#8 with
    | none => exact ⟨_, rfl⟩
    | some p =>
      simp only
      split
      · exact ⟨_, rfl⟩
      · rename_i hl
        have hl : p.data.length = 4 := by omega
        match hd : p.data, hl with
        | [a, b, c, d], _ => exact ⟨c, rfl⟩
  · obtain ⟨⟨o', v⟩, h⟩ := getByte_defined o 0x88#8
    simp only [Device.isFaultStatus, h, Res.bind_ok]
    cases v <;> exact ⟨_, rfl⟩
  · rw [getMaker_eq]
    have hc := C14_get_characterised (target o.props 0x8A#8)
    have hdef : ∀ p : Property, ((p.getIntegerData >>= fun v => Res.ok ({ o with props := (PropertyList.getByCode o.props 0x8A#8).1 }, v)) : Res (Obj × CInt)).Defined ↔
        p.data.length ≤ 4 ∧ beValue p.data < 2 ^ 31 := by
      intro p
      have hc := C14_get_characterised p
      by_cases hd : p.data.length ≤ 4 ∧ beValue p.data < 2 ^ 31
      · rw [hc.1 hd]; simp [hd]
      · rw [hc.2 hd]
        constructor
        · rintro ⟨x, hx⟩; cases hx
        · exact fun h => absurd h hd
    rw [hdef]
    unfold target Obj.getProperty
    cases PropertyList.find o.props 0x8A#8 with
    | none => simp [Property.new, Property.setCode, beValue]
    | some p => simp

/-- **C87, violated.** A remote write of five or more bytes to the manufacturer code of an object of a node, which no handler of the
user refuses, is carried out, and from then on the user's call of the getter is undefined behaviour. -/
theorem C87_remote_write_violated (e : Endian) (n n' : Node) (loc : Option String) (a : String) (f : Frame) (eff : List Effect) (o : Obj)
    (p : Property) (d : List Byte) (hf : f.WF) (hn : HandlersSet n) (hw : f.esv = 0x60 ∨ f.esv = 0x61) (hb : f.body = .plain [(0x8A, d)])
    (hd : 5 ≤ d.length) (ho : destObj n f.deoj = some o) (hp : o.getProperty 0x8A = some p)
    (hacc : accepts o.observers f.esv 0x8A p d = true) (h : n.receive e loc (some a) (encode f) = .ok (n', eff)) :
    ∃ (i : Nat) (o' : Obj), n.objs[i]? = some o ∧ n'.objs[i]? = some o' ∧ Device.getManufacturerCode o' = .ub := by
  rw [← List.append_nil (encode f)] at h
  obtain ⟨i, o', hi, _, hn', _, hget⟩ := C34_write_effect e n n' loc a f _ [] eff o hf hn hw hb ho h
  refine ⟨i, o', hi, ?_, ?_⟩
  · obtain ⟨hlt, _⟩ := List.getElem?_eq_some_iff.1 hi
    rw [hn']; simp [hlt]
  · have h1 : o'.getProperty 0x8A = some { p with data := d } := by
      rw [hget]
      simp only [writeSection, granted, hp, hacc, if_true, PMap.store, Option.map_some]
    have h2 : ¬ (Device.getManufacturerCode o').Defined := by
      rw [(C87_getters_defined_partial o').2.2.2.2]
      intro hall
      have := (hall _ h1).1
      simp only at this; omega
    cases h3 : Device.getManufacturerCode o' with
    | ub => rfl
    | ok x => exact absurd ⟨x, h3⟩ h2

example : (xFrame 0x60 (.plain [(0x8A, [1, 2, 3, 4, 5])])).WF ∧ (∃ p, xDevice.getProperty 0x8A = some p) ∧
    (∀ p, accepts xDevice.observers 0x60 0x8A p [1, 2, 3, 4, 5] = true) ∧
    ∃ n' eff, xNode.receive .little none (some "10.0.0.2") (encode (xFrame 0x60 (.plain [(0x8A, [1, 2, 3, 4, 5])]))) = .ok (n', eff) :=
  ⟨by decide, ⟨_, rfl⟩, fun _ => rfl, C66_receive_safe_partial .little xNode none "10.0.0.2" _ xNode_handlers⟩

end Uecho.Props
