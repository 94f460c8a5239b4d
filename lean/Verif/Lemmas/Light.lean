import Verif.Spec.Light
import Verif.Props.Remote
import Verif.Props.Registered
import Verif.Props.Maker
import Verif.Lemmas.Readable
/-! # Lemmas for C148 -/
namespace Uecho.Lemmas
open Uecho Uecho.Spec Uecho.Props

/-- the handlers of the light -/
def lightHandlers : List Observer :=
  [⟨0x60#8, 0x80#8, some Light.requestHandler⟩, ⟨0x61#8, 0x80#8, some Light.requestHandler⟩, ⟨0x6E#8, 0x80#8, some Light.requestHandler⟩]

theorem light_accepts {esv : Byte} (h : esv = 0x60#8 ∨ esv = 0x61#8) (p : Property) (d : List Byte) :
    accepts lightHandlers esv 0x80#8 p d = Light.requestHandler p esv d := by
  rcases h with rfl | rfl <;> simp [accepts, lightHandlers]

theorem light_section {esv : Byte} (h : esv = 0x60#8 ∨ esv = 0x61#8) : ∀ (qs : List Prop8) (σ : PMap) (p : Property) (b : Byte),
    σ 0x80#8 = some p → p.data = [b] →
      writeSection lightHandlers esv σ qs 0x80#8 = some { p with data := [obey b qs] }
  | [], σ, p, b, h1, h2 => by simp [writeSection, obey, h1, ← h2]
  | (c, d) :: qs, σ, p, b, h1, h2 => by
      unfold writeSection
      by_cases hc : c = 0x80#8
      · subst hc
        have hg : granted lightHandlers esv σ (0x80#8, d) = Light.requestHandler p esv d := by
          unfold granted; simp only [h1]; exact light_accepts h p d
        rw [hg]
        match d with
        | [x] =>
          have := light_section h qs (σ.store 0x80#8 [x]) { p with data := [x] } x (by simp [PMap.store, h1]) rfl
          simp [Light.requestHandler, obey, this]
        | [] => simpa [Light.requestHandler, obey] using light_section h qs σ p b h1 h2
        | _ :: _ :: _ => simpa [Light.requestHandler, obey] using light_section h qs σ p b h1 h2
      · have ho : obey b ((c, d) :: qs) = obey b qs := by
          match d with
          | [x] => simp [obey, hc]
          | [] => simp [obey]
          | _ :: _ :: _ => simp [obey]
        rw [ho]
        apply light_section h qs _ p b _ h2
        split
        · simp [PMap.store, Ne.symm hc, h1]
        · exact h1

/-- the light is there, with this power -/
structure LightInv (n : Node) (b : Byte) : Prop where
  hs : HandlersSet n
  light : ∃ o p, destObj n lightEoj = some o ∧ o.hasNode = true ∧ o.observers = lightHandlers ∧ o.getProperty 0x80#8 = some p ∧
    p.data = [b] ∧ p.attr = Attr.readWrite
  profile : (destObj n profileEoj).isSome = true

theorem receive_profile {e : Endian} {n n' : Node} {loc a : Option String} {d : List Byte} {eff : List Effect}
    (h : n.receive e loc a d = .ok (n', eff)) (x : Byte × Byte × Byte) : (destObj n' x).isSome = (destObj n x).isSome := by
  have := (receive_regs e h).objs
  have h1 := dest_reg n x
  rw [← this, ← dest_reg] at h1
  cases h2 : destObj n x <;> cases h3 : destObj n' x <;> rw [h2, h3] at h1 <;> simp at h1 <;> rfl

theorem light_other {e : Endian} {n n' : Node} {g : Datagram} {eff : List Effect} {b : Byte} (hi : LightInv n b)
    (hno : ¬ ∃ f, WritesLight g f) (h : n.receive e g.loc (some g.sender) g.bytes = .ok (n', eff)) : LightInv n' b := by
  by_cases hov : Overwrites lightEoj 0x80#8 g
  · obtain ⟨f, rest, hf, hb, hd, hc⟩ := hov
    by_cases hr : IsRequestEsv f.esv
    · exfalso
      apply hno
      refine ⟨f, hf, ⟨rest, hb⟩, hd, ?_⟩
      unfold written at hc
      unfold Frame.WF at hf
      cases hbody : f.body with
      | plain ps =>
        rw [hbody] at hc
        simp only at hc
        split at hc
        · assumption
        · simp [codes] at hc
      | setGet s g1 =>
        rw [hbody] at hf
        exact .inr (.inr ((setGet_request hr).1 hf.1))
    · obtain ⟨eff2, h2, _⟩ := C37_nonrequest_ignored e n g.loc g.sender f rest hf hr
      rw [hb, h2] at h
      simp only [Res.ok.injEq, Prod.mk.injEq] at h
      exact h.1 ▸ hi
  · obtain ⟨o, p, h1, h2, h3, h4, h5, h6⟩ := hi.light
    obtain ⟨o', k1, k2, k3, k4⟩ := receive_at hi.hs h lightEoj h1
    refine ⟨receive_handlers hi.hs h, ⟨o', p, k1, k2.trans h2, k3.trans h3, ?_, h5, h6⟩, by rw [receive_profile h]; exact hi.profile⟩
    rw [k4 0x80#8 hov, h4]

theorem write_request {f : Frame} (hw : IsWriteEsv f.esv) : IsRequestEsv f.esv := by
  unfold IsWriteEsv at hw; unfold IsRequestEsv
  rcases hw with h | h | h <;> simp [h]

theorem light_outObj {o : Obj} {f : Frame} {p : Property} {b : Byte} (hf : f.WF) (hw : IsWriteEsv f.esv) (ho : o.observers = lightHandlers)
    (hp : o.getProperty 0x80#8 = some p) (hd : p.data = [b]) :
    (outObj o f).getProperty 0x80#8 = some { p with data := [obey b (written f)] } := by
  unfold outObj written
  unfold Frame.WF at hf
  cases hb : f.body with
  | plain ps =>
    rw [hb] at hf
    have h2 : f.esv = 0x60#8 ∨ f.esv = 0x61#8 := by
      rcases hw with h | h | h
      · exact .inl h
      · exact .inr h
      · exact absurd (.inl h) hf.1
    simp only [if_pos hw]
    have hww : isW f.esv = true := by rcases h2 with h | h <;> rw [h] <;> decide
    rw [(runObj_write hww ps o).1, ho]
    exact light_section h2 ps _ p b hp hd
  | setGet s g =>
    simp only
    rw [(runObj_write (esv := 0x61#8) rfl s o).1, ho]
    exact light_section (.inr rfl) s _ p b hp hd

theorem light_write {e : Endian} {n n' : Node} {g : Datagram} {f : Frame} {eff : List Effect} {b : Byte} (hi : LightInv n b)
    (hg : WritesLight g f) (h : n.receive e g.loc (some g.sender) g.bytes = .ok (n', eff)) : LightInv n' (obey b (written f)) := by
  obtain ⟨hf, ⟨rest, hb⟩, hd, hw⟩ := hg
  obtain ⟨o, p, h1, h2, h3, h4, h5, h6⟩ := hi.light
  have hh := receive_handlers hi.hs h
  have hp := receive_profile h
  rw [hb] at h
  obtain ⟨_, i, hx, hmin, hn', _⟩ := receive_outcome hf hi.hs (by rw [hd]; exact h1) (write_request hw) h
  have hfr := outObj_frame o f
  have hw0 : objEoj o = f.deoj := by rw [hd]; exact destObj_code h1
  have hw' : objEoj (outObj o f) = f.deoj := by
    rw [← hw0]; unfold objEoj; rw [hfr]
  have hfind := Props.find_set (x := lightEoj) hx hmin hw0 hw'
  rw [if_pos hd.symm] at hfind
  have hdest : destObj n' lightEoj = some (outObj o f) := by
    unfold destObj; rw [hn']; exact hfind
  exact ⟨hh, ⟨outObj o f, _, hdest, by rw [hfr]; exact h2, by rw [hfr]; exact h3, light_outObj hf hw h3 h4 h5, rfl, h6⟩,
    by rw [hp]; exact hi.profile⟩

theorem start_objs {e : Endian} {n n' : Node} {b : List String} {eff : List Effect} (h : n.start e b = .ok (n', eff)) : n'.objs = n.objs := by
  unfold Node.start Node.announce at h
  split at h
  · simp at h; rw [← h.1]
  · split at h
    · simp at h; rw [← h.1]
    · rw [announceProperty_eq] at h
      simp only [Res.ok.injEq, Prod.mk.injEq] at h
      rw [← h.1]; rfl

theorem start_total (e : Endian) (n : Node) (b : List String) : ∃ n' eff, n.start e b = .ok (n', eff) := by
  unfold Node.start Node.announce
  split
  · exact ⟨_, _, rfl⟩
  · split
    · exact ⟨_, _, rfl⟩
    · rw [announceProperty_eq]; exact ⟨_, _, rfl⟩

theorem LightInv.congr {n n' : Node} {b : Byte} (h : n'.objs = n.objs) (hi : LightInv n b) : LightInv n' b := by
  obtain ⟨h1, h2, h3⟩ := hi
  refine ⟨?_, ?_, ?_⟩
  · unfold HandlersSet; rw [h]; exact h1
  · unfold destObj; rw [h]; exact h2
  · unfold destObj; rw [h]; exact h3

theorem lightRun_inv {e : Endian} {b c : Byte} {es : List LightEvent} (hp : PowerAfter b es c) :
    ∀ {n n' : Node}, LightInv n b → lightRun e n es = .ok n' → LightInv n' c := by
  induction hp with
  | done => intro n n' hi h; simp only [lightRun, Res.ok.injEq] at h; exact h ▸ hi
  | restart _ ih =>
    intro n n' hi h
    simp only [lightRun, Res.bind_eq_ok] at h
    obtain ⟨⟨n1, eff⟩, h1, h2⟩ := h
    exact ih (hi.congr (start_objs h1)) h2
  | written hw _ ih =>
    intro n n' hi h
    simp only [lightRun, Res.bind_eq_ok] at h
    obtain ⟨⟨n1, eff⟩, h1, h2⟩ := h
    exact ih (light_write hi hw h1) h2
  | other hno _ ih =>
    intro n n' hi h
    simp only [lightRun, Res.bind_eq_ok] at h
    obtain ⟨⟨n1, eff⟩, h1, h2⟩ := h
    exact ih (light_other hi hno h1) h2

theorem light_power : ∀ (es : List LightEvent) (b : Byte), ∃ c, PowerAfter b es c
  | [], b => ⟨b, .done⟩
  | .restart _ :: es, b => (light_power es b).imp fun _ h => .restart h
  | .datagram g :: es, b => by
      by_cases h : ∃ f, WritesLight g f
      · obtain ⟨f, hf⟩ := h
        exact (light_power es (obey b (written f))).imp fun _ h => .written hf h
      · exact (light_power es b).imp fun _ k => .other h k

theorem lightRun_total {e : Endian} : ∀ (es : List LightEvent) (n : Node), HandlersSet n → ∃ n', lightRun e n es = .ok n'
  | [], n, _ => ⟨n, rfl⟩
  | .restart b :: es, n, hn => by
      obtain ⟨n1, eff, h1⟩ := start_total e n b
      have : HandlersSet n1 := by unfold HandlersSet; rw [start_objs h1]; exact hn
      obtain ⟨n', h2⟩ := lightRun_total es n1 this
      exact ⟨n', by simp only [lightRun, h1, Res.bind_ok]; exact h2⟩
  | .datagram g :: es, n, hn => by
      obtain ⟨n1, eff, h1⟩ := C66_receive_safe_partial e n g.loc g.sender g.bytes hn
      obtain ⟨n', h2⟩ := lightRun_total es n1 (receive_handlers hn h1)
      exact ⟨n', by simp only [lightRun, h1, Res.bind_ok]; exact h2⟩

theorem light_new {db : Db} (hdb : (db.getObject 0x00#8 0x00#8).isSome) (junk1 junk2 : Nat → Byte) :
    ∃ o, Light.new db junk1 junk2 = .ok (some o) ∧ objEoj o = lightEoj ∧ o.observers = lightHandlers ∧
      (∃ p, o.getProperty 0x80#8 = some p ∧ p.data = [0x30#8] ∧ p.attr = Attr.readWrite) ∧
      dat o 0x8A#8 = some [0xFF#8, 0xFF#8, 0xF0#8] := by
  obtain ⟨s, hs⟩ := Option.isSome_iff_exists.1 hdb
  obtain ⟨d, hd, hg, hob⟩ : ∃ d, Device.new db = .ok (some d) ∧ d.getMap.size = 0 ∧ d.observers = [] := by
    unfold Device.new Device.addMandatory
    rw [hs]
    simp only
    have hf := addMissing_fields s.props Obj.new
    generalize hz : (Device.setInstallationLocation (Device.setStandardVersion (Device.setFaultStatus (Device.setOperatingStatus
      (Obj.addMissing Obj.new s.props) true).1 false).1 0x4E#8).1 0x00#8).1 = z
    obtain ⟨bs, -, -, k3⟩ := setInt_eq z 0x8A#8 0xFFFFF0#32
    simp only [Obj.setManufacturerCode]
    rw [k3]
    refine ⟨_, rfl, ?_, ?_⟩
    · subst hz
      exact congrArg (fun o : Obj => o.getMap.size) hf
    · subst hz
      exact congrArg Obj.observers hf
  have hm0 : d.setManufacturerCode 0xFFFFF0#32 = .ok (d.setPropertyData 0x8A#8 [0xFF#8, 0xFF#8, 0xF0#8]) := by
    have hi : integer2byte 0xFFFFF0#32 3 = .ok [0xFF#8, 0xFF#8, 0xF0#8] := by with_unfolding_all rfl
    simp [Obj.setManufacturerCode, Obj.setPropertyIntegerData, PropertyList.setIntegerData, hi, Obj.setPropertyData]
  obtain ⟨d1, hd1⟩ : ∃ d1, d1 = (d.setPropertyData 0x8A#8 [0xFF#8, 0xFF#8, 0xF0#8]).1 := ⟨_, rfl⟩
  have hmaker1 : dat d1 0x8A#8 = some [0xFF#8, 0xFF#8, 0xF0#8] := by rw [hd1, dat_set, if_pos rfl]
  have hg1 : d1.getMap.size = 0 := by rw [hd1]; exact hg
  have hob1 : d1.observers = [] := by rw [hd1]; exact hob
  obtain ⟨o1, a1, h1⟩ : ∃ o1 a1, d1.setCode db junk1 0x029101#32 = .ok (o1, a1) := by
    unfold Obj.setCode
    refine updatePropertyMaps_defined junk1 (.inr ?_)
    rw [(addStandard_codes db _).2.2.2]; exact hg1
  have hcode := C08_object_code db junk1 d1 o1 a1 0x029101#32 (by decide) h1
  have heoj1 : objEoj o1 = lightEoj := by
    unfold objEoj lightEoj
    rw [show o1.grp = 0x02#8 from BitVec.eq_of_toNat_eq (by rw [hcode.2.1]; decide),
      show o1.cls = 0x91#8 from BitVec.eq_of_toNat_eq (by rw [hcode.2.2.1]; decide),
      show o1.ins = 0x01#8 from BitVec.eq_of_toNat_eq (by rw [hcode.2.2.2.1]; decide)]
  have hob2 : o1.observers = [] := (setCode_reg h1).1.trans hob1
  have hmaker2 : dat o1 0x8A#8 = some [0xFF#8, 0xFF#8, 0xF0#8] := by
    cases hp : d1.getProperty 0x8A#8 with
    | none => unfold dat at hmaker1; rw [show PropertyList.find d1.props 0x8A#8 = none from hp] at hmaker1; cases hmaker1
    | some p =>
      have := (C24_standard_properties db junk1 d1 o1 a1 _ h1 0x8A#8 (by decide) (by decide) (by decide)).1 p hp
      unfold dat at hmaker1 ⊢
      rw [show PropertyList.find d1.props 0x8A#8 = some p from hp] at hmaker1
      rw [show PropertyList.find o1.props 0x8A#8 = some p from this]; exact hmaker1
  have hset := setProperty_props o1 0x80#8 Attr.readWrite
  generalize hz : ({ o1 with props := Message.modifyFirst 0x80#8 (fun p => p.setParent true) (PropertyList.set o1.props 0x80#8 Attr.readWrite []).1 } : Obj) = z
  have hset : ∀ k, z.getProperty k = if k = 0x80#8 then some { target o1.props 0x80#8 with data := [], attr := Attr.readWrite, hasParent := true }
      else o1.getProperty k := by subst hz; exact hset
  have hread : Readable z := by
    have := hset 0x80#8
    rw [if_pos rfl] at this
    exact ⟨_, find_mem this, by simp only [Property.isReadable]; decide⟩
  obtain ⟨o2, b2, h2⟩ := updatePropertyMaps_defined junk2 (.inl hread)
  have h3 : o1.setProperty junk2 0x80#8 Attr.readWrite = .ok (o2, (PropertyList.set o1.props 0x80#8 Attr.readWrite []).2 ++ b2) := by
    unfold Obj.setProperty
    simp only
    rw [hz, h2]; rfl
  have hc2 := updatePropertyMaps_codes h2
  have hf2 := fun k k1 k2 k3 => (updatePropertyMaps_find h2 k k1 k2 k3).trans (hset k)
  have hob3 : o2.observers = [] := by rw [hc2.2.2.2.2.1]; subst hz; exact hob2
  have heoj2 : objEoj o2 = lightEoj := by rw [(updatePropertyMaps_frame h2).1]; subst hz; exact heoj1
  refine ⟨(o2.setPropertyData 0x80#8 [0x30#8]).1.setWriteHandler 0x80#8 (some Light.requestHandler), ?_, heoj2, ?_, ?_, ?_⟩
  · unfold Light.new
    simp only [hd, Res.bind_ok, hm0, ← hd1, h1, h3, Res.pure_eq]
  · show (((o2.observers.eraseP _ ++ _).eraseP _ ++ _).eraseP _ ++ _) = _
    rw [hob3]; rfl
  · have := setPropertyData_get o2 0x80#8 0x80#8 [0x30#8]
    rw [if_pos rfl] at this
    refine ⟨_, this, rfl, ?_⟩
    have h80 := hf2 0x80#8 (by decide) (by decide) (by decide)
    rw [if_pos rfl] at h80
    simp only [target_some h80]
  · show dat (o2.setPropertyData 0x80#8 [0x30#8]).1 0x8A#8 = _
    rw [dat_set, if_neg (by decide)]
    have h8a := hf2 0x8A#8 (by decide) (by decide) (by decide)
    rw [if_neg (by decide)] at h8a
    unfold dat at hmaker2 ⊢
    rw [show PropertyList.find o2.props 0x8A#8 = _ from h8a]; exact hmaker2

theorem light_setMaker (e : Endian) (db : Db) (maker : CInt) {n : Node} (hr : NodeReach e db n) :
    ∃ n' eff, Light.setMaker e maker n = .ok (n', eff) ∧ NodeReach e db n' ∧ SameRegs n n' ∧
      (0 < maker.toInt → ∀ x ∈ n'.objs, ∃ bs, dataOf x 0x8A#8 = some bs ∧ bs.length = 3 ∧ beValue bs = maker.toNat % 2 ^ 24) := by
  unfold Light.setMaker
  split
  · obtain ⟨n', eff, bs, h, h1, h2, hlen, h3, _⟩ := C139_node_maker e maker n
    refine ⟨n', eff, h, .setManufacturerCode _ _ hr h, setManufacturerCode_regs _ _ _ _ _ _ h, fun _ x hx => ?_⟩
    obtain ⟨i, hi, hx⟩ := List.mem_iff_getElem.1 hx
    have hi' : i < n.objs.length := by omega
    obtain ⟨o', ho, _, hd, _⟩ := h3 i n.objs[i] (List.getElem?_eq_getElem hi')
    rw [List.getElem?_eq_getElem hi, hx] at ho
    cases ho
    exact ⟨bs, hd, h1, h2⟩
  · rename_i h
    exact ⟨n, [], rfl, hr, .refl _, fun h' => absurd h' h⟩

theorem light_main (e : Endian) {db : Db} (hdb : (db.getObject 0x00#8 0x00#8).isSome) (junk junk1 junk2 rnd : Nat → Byte)
    (tid0 : BitVec 32) (verbose : Bool) (maker : CInt) (bound : List String) :
    ∃ n o, Light.main e db junk junk1 junk2 rnd tid0 verbose maker bound = .ok (some n) ∧ LightInv n 0x30#8 ∧
      destObj n lightEoj = some o ∧ dat o 0x8A#8 = some [0xFF#8, 0xFF#8, 0xF0#8] ∧ n.objs.map objEoj = [profileEoj, lightEoj] ∧
      (0 < maker.toInt → ∃ q bs, destObj n profileEoj = some q ∧ dataOf q 0x8A#8 = some bs ∧ bs.length = 3 ∧ beValue bs = maker.toNat % 2 ^ 24) ∧
      Uecho.Spec.Holds n profileEoj [] 0xD6#8 [0x01#8, 0x02#8, 0x91#8, 0x01#8] := by
  obtain ⟨n0, eff0, h0, _, hobjs0, _⟩ := nodeNew e db junk rnd tid0
  have hreg0 := (C145_new (e := e) (db := db)).1 _ _ _ _ _ h0
  obtain ⟨o, ho, heoj, hobs, ⟨p, hp1, hp2, hp3⟩, hmk⟩ := light_new hdb junk1 junk2
  obtain ⟨n1, hn1⟩ : ∃ n1, n1 = if verbose then n0.setMessageListener true else n0 := ⟨_, rfl⟩
  have hr1 : NodeReach e db n1 := by
    rw [hn1]; split
    · exact .setMessageListener _ (.new _ _ _ h0)
    · exact .new _ _ _ h0
  have hobj1 : n1.objs = n0.objs := by rw [hn1]; split <;> rfl
  obtain ⟨n2, eff2, h2, hr2, hs2, hmk2⟩ := light_setMaker e db maker hr1
  have hobjs2 : n2.objs.map reg = n0.objs.map reg := by rw [← hobj1]; exact hs2.objs
  have heojs2 : n2.objs.map objEoj = [profileEoj] := by
    have := congrArg (List.map fun r : (Byte × Byte × Byte) × _ => r.1) hobjs2
    simp only [List.map_map] at this
    exact this.trans hobjs0
  have hno : ∀ y ∈ n2.objs, objEoj y ≠ objEoj o := by
    intro y hy hc
    have := List.mem_map_of_mem (f := objEoj) hy
    rw [heojs2, hc, heoj] at this
    revert this; decide
  obtain ⟨q, hq⟩ : ∃ q, n2.objs = [q] := by
    have := congrArg List.length heojs2
    simp only [List.length_map, List.length_cons, List.length_nil] at this
    exact List.length_eq_one_iff.1 this
  have hqe : objEoj q = profileEoj := by rw [hq] at heojs2; simpa using heojs2
  have hdq : destObj n2 profileEoj = some q := by unfold destObj; rw [hq]; simp [hqe]
  obtain ⟨n3, eff3, i, q', h3, _, hobjs3, hq'k, heojs3⟩ := C26_add hr2 hdq o hno
  obtain ⟨n4, eff4, h4⟩ := start_total e n3 bound
  have hobjs4 := start_objs h4
  rw [heojs2, heoj] at heojs3
  have hi0 : i = 0 := by
    rcases i with _ | i
    · rfl
    · rename_i h; rw [hq] at h; simp at h
  subst hi0
  have hobjs3 : n3.objs = [q', { o with hasNode := true }] := by rw [hobjs3, hq]; rfl
  have hq'e : objEoj q' = profileEoj := by rw [hobjs3] at heojs3; simp at heojs3; exact heojs3.1
  have hregs3 := (addObject_regs e h3).2
  have hq'o : q'.observers = [] := by
    rcases hregs3 with ⟨g, _⟩ | ⟨g, _⟩
    · rw [hobjs3, hq] at g; simp at g
    · rw [hobjs3, hobjs2] at g
      have hmem : reg q' ∈ n0.objs.map reg := by
        have h9 := congrArg List.dropLast g
        rw [List.dropLast_concat] at h9
        rw [← h9]; simp
      obtain ⟨z, hz, hze⟩ := List.mem_map.1 hmem
      have := (hreg0.2 z hz).2
      simp only [reg, Prod.mk.injEq] at hze
      rw [← hze.2.1]; exact this
  have hdl : destObj n4 lightEoj = some { o with hasNode := true } := by
    unfold destObj; rw [hobjs4, hobjs3]
    have e1 : (objEoj q' == lightEoj) = false := by rw [hq'e]; decide
    have e2 : (objEoj { o with hasNode := true } == lightEoj) = true := by
      rw [show objEoj { o with hasNode := true } = lightEoj from heoj]; decide
    simp [e1, e2]
  refine ⟨n4, { o with hasNode := true }, ?_, ⟨?_, ⟨_, p, hdl, rfl, hobs, hp1, hp2, hp3⟩, ?_⟩, hdl, hmk, ?_, ?_, ?_⟩
  · unfold Light.main
    simp only [h0, Res.bind_ok, ho, ← hn1, h2, h3, h4, Res.pure_eq]
  · unfold HandlersSet
    rw [hobjs4, hobjs3]
    intro y hy x hx
    simp only [List.mem_cons, List.not_mem_nil, or_false] at hy
    rcases hy with rfl | rfl
    · rw [hq'o] at hx; cases hx
    · simp only [hobs, lightHandlers, List.mem_cons, List.not_mem_nil, or_false] at hx
      rcases hx with rfl | rfl | rfl <;> simp
  · unfold destObj; rw [hobjs4, hobjs3]; simp [hq'e]
  · rw [hobjs4]; exact heojs3
  · intro hpos
    obtain ⟨bs, g1, g2, g3⟩ := hmk2 hpos q (by rw [hq]; simp)
    refine ⟨q', bs, by unfold destObj; rw [hobjs4, hobjs3]; simp [hq'e], ?_, g2, g3⟩
    rw [← g1]
    unfold dataOf
    rw [hq'k _ (by decide)]
  · have hins : instances n3 = [lightEoj] := by unfold instances; rw [heojs3]; decide
    have hcls : (nodeClasses n3).length < 65536 := by
      unfold nodeClasses
      rw [hobjs3]
      simp only [List.map_cons, List.map_nil, firsts, List.length_cons]
      have := List.length_filter_le (fun x : Byte × Byte => decide (x ≠ (q'.grp, q'.cls))) ((o.grp, o.cls) :: [].filter (fun x : Byte × Byte => decide (x ≠ (o.grp, o.cls))))
      simp only [List.filter_nil, List.length_cons, List.length_nil] at this
      simp only [List.filter_nil]
      omega
    obtain ⟨w, w1, _, _, _, w5, _⟩ := C28_profile_describes_node hr2 h3 (by rw [hins]; decide) hcls
    have hw : w = q' := by
      have : destObj n3 profileEoj = some q' := by unfold destObj; rw [hobjs3]; simp [hq'e]
      rw [this] at w1; exact (Option.some.inj w1).symm
    subst hw
    rw [hins] at w5
    have hnode : w.hasNode = true := (reach_inv (NodeReach.addObject o hr2 h3)).node w (by rw [hobjs3]; simp)
    unfold dataOf at w5
    cases hd6 : w.getProperty 0xD6#8 with
    | none => rw [show w.getProperty 0xD6 = none from hd6] at w5; cases w5
    | some y =>
      rw [show w.getProperty 0xD6 = some y from hd6] at w5
      simp only [Option.map_some, Option.some.injEq] at w5
      refine ⟨w, y, by unfold destObj; rw [hobjs4, hobjs3]; simp [hq'e], hnode, hq'o, hd6, ?_⟩
      rw [w5]; rfl

end Uecho.Lemmas
