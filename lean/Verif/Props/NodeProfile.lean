import Verif.Spec.StdTable
import Verif.Props.Getters
import Verif.Lemmas.CString
/-!
# C137 What a new node says about itself

The full statement: a new node's profile says that the node is on, its version and that it understands the specified message format, and
has an identification number of 17 bytes that begins with 0xFE and the code of its maker. The format (`C137_format_violated`) and
the code of the maker (`C137_maker_violated`) are wrong.
-/
namespace Uecho.Props
open Uecho Uecho.Spec Uecho.Lemmas

theorem dataOf_dat (o : Obj) (c : Byte) : dataOf o c = dat o c := rfl

theorem mandatory_dat {db : Db} {rnd : Nat → Byte} {o o' : Obj} {a : List Property} {r : Bool} (hdb : (db.getObject 0x0E#8 0xF0#8).isSome)
    (h : NodeProfile.addMandatory db rnd o = .ok (o', a, r)) :
    r = true ∧ objEoj o' = objEoj o ∧ dataOf o' 0x80#8 = some [0x30#8] ∧ dataOf o' 0x82#8 = some [1#8, 13#8, 0#8, 0x10#8] ∧
      dataOf o' 0x83#8 = some (0xFE#8 :: (List.range 16).map rnd) := by
  have hid : ∀ o : Obj, NodeProfile.setDefaultId o rnd = .ok (o.setPropertyData 0x83#8 (0xFE#8 :: (List.range 16).map rnd)) := by
    intro o
    simp [NodeProfile.setDefaultId, NodeProfile.setId, rdN, List.range_succ]
  have hms : ∀ (ps : List Property) (o : Obj), objEoj (o.addMissing ps) = objEoj o := by
    intro ps
    induction ps with
    | nil => intro o; rfl
    | cons p ps ih =>
      intro o
      unfold Obj.addMissing
      split
      · exact ih o
      · rw [ih]; rfl
  unfold NodeProfile.addMandatory at h
  cases hg : db.getObject 0x0E#8 0xF0#8 with
  | none => rw [hg] at hdb; cases hdb
  | some s =>
    rw [hg] at h
    simp only [hid, Res.bind_ok, Res.pure_eq, Res.ok.injEq, Prod.mk.injEq] at h
    obtain ⟨rfl, rfl, rfl⟩ := h
    refine ⟨rfl, hms s.props o, ?_, ?_, ?_⟩
    · rw [dataOf_dat, dat_set, if_neg (by decide)]
      unfold NodeProfile.setVersion
      rw [dat_set, if_neg (by decide)]
      unfold NodeProfile.setOperatingStatus
      rw [dat_set, if_pos rfl]; rfl
    · rw [dataOf_dat, dat_set, if_neg (by decide)]
      unfold NodeProfile.setVersion
      rw [dat_set, if_pos rfl]; rfl
    · rw [dataOf_dat, dat_set, if_pos rfl]

/-- C137 (partial: see above): a new node has a profile; it says that the node is on, version 1.13, and has an identification number: 0xFE
and 16 random bytes. It needs the class of node profiles in the standard database. -/
theorem C137_new_node_partial {e : Endian} {db : Db} {junk rnd : Nat → Byte} {tid0 : BitVec 32} {n : Node} {eff : List Effect}
    (hdb : (db.getObject 0x0E#8 0xF0#8).isSome) (h : Node.new e db junk rnd tid0 = .ok (n, eff)) :
    ∃ p, destObj n profileEoj = some p ∧ n.objs = [p] ∧ dataOf p 0x80#8 = some [0x30#8] ∧
      dataOf p 0x82#8 = some [1#8, 13#8, 0#8, 0x10#8] ∧ dataOf p 0x83#8 = some (0xFE#8 :: (List.range 16).map rnd) := by
  unfold Node.new at h
  obtain ⟨o, ho, h⟩ := Res.bind_eq_ok.mp h
  obtain ⟨⟨n1, eff1, r1⟩, h1, h⟩ := Res.bind_eq_ok.mp h
  simp only [Res.pure_eq, Res.ok.injEq, Prod.mk.injEq] at h
  obtain ⟨rfl, rfl⟩ := h
  unfold NodeProfile.new at ho
  obtain ⟨⟨o0, a0⟩, h0, ho⟩ := Res.bind_eq_ok.mp ho
  obtain ⟨⟨o1, a1, r⟩, hm, ho⟩ := Res.bind_eq_ok.mp ho
  simp only [Res.pure_eq, Res.ok.injEq] at ho
  subst ho
  obtain ⟨-, he, d80, d82, d83⟩ := mandatory_dat hdb hm
  have heoj : objEoj o1 = profileEoj := by
    rw [he]
    obtain ⟨o', a', k1, k2, -⟩ := setCode_new db junk profileEoj
    have : (BitVec.ofNat 32 (eojNat profileEoj)) = 0x0EF001#32 := by decide
    rw [this, h0] at k1
    simp only [Res.ok.injEq, Prod.mk.injEq] at k1
    rw [k1.1]; exact k2
  rw [addObject_new e (by simp)] at h1
  have hd : destObj (appended ⟨[], [], tid0, none, [], false⟩ o1) profileEoj = some (o1.setParentNode true) := by
    have : objEoj (o1.setParentNode true) = profileEoj := heoj
    simp [destObj, appended, this]
  obtain ⟨i, p', eff', t, g1, -, g2, g3, -, -, -, -, -, g4⟩ := updateProfile_some e hd rfl
  rw [h1] at g3
  simp only [Res.ok.injEq, Prod.mk.injEq] at g3
  obtain ⟨rfl, -, -⟩ := g3
  have hi : i = 0 := by
    simp only [appended, List.nil_append] at g1
    rcases i with _ | i
    · rfl
    · simp at g1
  subst hi
  have hpe : objEoj p' = profileEoj := by
    have := g2.eoj
    rw [this]; exact heoj
  refine ⟨p', ?_, ?_, ?_, ?_, ?_⟩
  · simp [destObj, appended, Node.setLastTid, hpe]
  · simp [appended, Node.setLastTid]
  · rw [dataOf, g4 _ (by decide)]; exact d80
  · rw [dataOf, g4 _ (by decide)]; exact d82
  · rw [dataOf, g4 _ (by decide)]; exact d83

/-- C137 is violated: the version information of every new node claims no message format: in the third byte bit 0 stands for the
specified format, and bit 1 for arbitrary ones. -/
theorem C137_format_violated {e : Endian} {db : Db} {junk rnd : Nat → Byte} {tid0 : BitVec 32} {n : Node} {eff : List Effect}
    (hdb : (db.getObject 0x0E#8 0xF0#8).isSome) (h : Node.new e db junk rnd tid0 = .ok (n, eff)) :
    ∃ p major minor format last, destObj n profileEoj = some p ∧ dataOf p 0x82#8 = some [major, minor, format, last] ∧
      format.getLsbD 0 = false ∧ format.getLsbD 1 = false := by
  obtain ⟨p, h1, -, -, h2, -⟩ := C137_new_node_partial hdb h
  exact ⟨p, _, _, _, _, h1, h2, by decide, by decide⟩

example : (stdDb.getObject 0x0E#8 0xF0#8).isSome = true := by decide +kernel
example : (match Node.new .little stdDb (fun _ => 0#8) (fun i => BitVec.ofNat 8 i) 0#32 with | .ok _ => true | .ub => false) = true := by
  decide +kernel

/-- C137 is violated: setting the code of the maker of an object sets its property 0x8A only, so the identification number of a node
profile keeps the random bytes where the code of the maker belongs. -/
theorem C137_maker_violated (o : Obj) (v : CInt) :
    ∃ o' a, o.setManufacturerCode v = .ok (o', a) ∧ dataOf o' 0x83#8 = dataOf o 0x83#8 := by
  obtain ⟨bs, -, -, k3⟩ := setInt_eq o 0x8A#8 v
  refine ⟨(o.setPropertyData 0x8A#8 bs).1, (o.setPropertyData 0x8A#8 bs).2, by unfold Obj.setManufacturerCode; exact k3, ?_⟩
  rw [dataOf_dat, dat_set, if_neg (by decide), dataOf_dat]

/-- C137: setting the identification number takes three bytes as the code of the maker and thirteen as the number, writes them behind
0xFE, and changes no other property; it is defined exactly if the caller has that many bytes. -/
theorem C137_set_id (o : Obj) (maker number : List Byte) :
    (3 ≤ maker.length ∧ 13 ≤ number.length → ∃ o' a, NodeProfile.setId o maker number = .ok (o', a) ∧
      dataOf o' 0x83#8 = some (0xFE#8 :: (maker.take 3 ++ number.take 13)) ∧ ∀ c, c ≠ 0x83#8 → dataOf o' c = dataOf o c) ∧
    (¬ (3 ≤ maker.length ∧ 13 ≤ number.length) → NodeProfile.setId o maker number = .ub) := by
  constructor
  · rintro ⟨h1, h2⟩
    refine ⟨(o.setPropertyData 0x83#8 (0xFE#8 :: (maker.take 3 ++ number.take 13))).1,
      (o.setPropertyData 0x83#8 (0xFE#8 :: (maker.take 3 ++ number.take 13))).2, ?_, ?_, ?_⟩
    · simp only [NodeProfile.setId, rdN_zero h1, rdN_zero h2, Res.bind_ok, Res.pure_eq]
    · rw [dataOf_dat, dat_set, if_pos rfl]
    · intro c hc
      rw [dataOf_dat, dat_set, if_neg hc, dataOf_dat]
  · intro h
    unfold NodeProfile.setId rdN
    by_cases h1 : 3 ≤ maker.length
    · have h2 : ¬ 13 ≤ number.length := fun h2 => h ⟨h1, h2⟩
      rw [if_pos (by omega), Res.bind_ok, if_neg (by omega)]
      rfl
    · rw [if_neg (by omega)]
      rfl

/-- C24: setting the code of an object gives it the name of its class, or if its class is not in the database the name of the
super class, or else leaves its name. -/
theorem C24_name {db : Db} {junk : Nat → Byte} {o o' : Obj} {a : List Property} {v : CInt} (h : o.setCode db junk v = .ok (o', a)) :
    o'.getName = (((db.getObject o'.grp o'.cls).bind (·.name)).or ((db.getObject 0x00#8 0x00#8).bind (·.name))).or o.getName := by
  have hm : ∀ (ps : List Property) (o : Obj), (o.addMissing ps).name = o.name ∧ (o.addMissing ps).grp = o.grp ∧
      (o.addMissing ps).cls = o.cls := by
    intro ps
    induction ps with
    | nil => intro o; exact ⟨rfl, rfl, rfl⟩
    | cons p ps ih =>
      intro o
      unfold Obj.addMissing
      split
      · exact ih o
      · have := ih (o.addProperty p.copy)
        exact this
  have hs : ∀ (o : Obj) (g c : Byte), (Obj.addStandardWithCode db o g c).1.name = ((db.getObject g c).bind (·.name)).or o.name ∧
      (Obj.addStandardWithCode db o g c).1.grp = o.grp ∧ (Obj.addStandardWithCode db o g c).1.cls = o.cls := by
    intro o g c
    unfold Obj.addStandardWithCode
    cases db.getObject g c with
    | none => exact ⟨rfl, rfl, rfl⟩
    | some s =>
      obtain ⟨h1, h2, h3⟩ := hm s.props (o.setName s.name)
      exact ⟨h1, h2, h3⟩
  unfold Obj.setCode at h
  obtain ⟨k1, k2, -, k3, -⟩ := updatePropertyMaps_codes h
  unfold Obj.getName
  rw [k1, k2, k3]
  unfold Obj.addStandard
  simp only [hs, Option.or_assoc]

end Uecho.Props
