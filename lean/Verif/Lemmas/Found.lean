import Verif.Lemmas.Registered
import Verif.Lemmas.Network
import Verif.Lemmas.Database
import Verif.Lemmas.CtrlRecv
import Verif.Spec.Found
/-! # Lemmas for C150 -/
namespace Uecho.Lemmas
open Uecho Uecho.Spec Uecho.Props

theorem _root_.Uecho.Spec.IsStandard.refl (p : Property) : IsStandard p p := ⟨rfl, rfl, .inl rfl⟩

theorem _root_.Uecho.Spec.IsStandard.trans {a b c : Property} (h : IsStandard a b) (g : IsStandard b c) : IsStandard a c := by
  refine ⟨g.1.trans h.1, g.2.1.trans h.2.1, ?_⟩
  rcases g.2.2 with g2 | g2
  · rcases h.2.2 with h2 | h2
    · exact .inl (g2.trans h2)
    · refine .inr ⟨?_, g2.trans h2.2⟩; rw [g.1]; exact h2.1
  · exact .inr g2

theorem _root_.Uecho.Spec.IsExtra.standard {a b : Property} (h : IsExtra a) (g : IsStandard a b) : IsExtra b := by
  refine ⟨g.2.1.trans h.1, ?_⟩
  rcases g.2.2 with g2 | ⟨_, g2⟩
  · rw [g2]; exact h.2
  · rw [g2]; unfold hasBit; decide

theorem knows_refl : ∀ ps : List Property, Knows ps ps
  | [] => .rest (by simp)
  | p :: ps => .cons (.refl p) (knows_refl ps)
theorem _root_.Uecho.Spec.Knows.refl (ps : List Property) : Knows ps ps := knows_refl ps

theorem _root_.Uecho.Spec.Knows.extra {a b : List Property} (h : Knows a b) (ha : ∀ p ∈ a, IsExtra p) : ∀ p ∈ b, IsExtra p := by
  induction h with
  | rest h => exact h
  | cons h1 _ ih =>
    intro p hp
    rcases List.mem_cons.1 hp with rfl | hp
    · exact (ha _ (by simp)).standard h1
    · exact ih (fun x hx => ha x (by simp [hx])) p hp

theorem _root_.Uecho.Spec.Knows.trans {a b c : List Property} (h : Knows a b) (g : Knows b c) : Knows a c := by
  induction h generalizing c with
  | rest h => exact .rest (g.extra h)
  | cons h1 _ ih =>
    cases g with
    | cons g1 g2 => exact .cons (h1.trans g1) (ih g2)

theorem knows_append : ∀ (ps : List Property) {xs : List Property}, (∀ p ∈ xs, IsExtra p) → Knows ps (ps ++ xs)
  | [], _, h => .rest h
  | p :: ps, _, h => .cons (.refl p) (knows_append ps h)

theorem knows_modify (c : Byte) (f : Property → Property) (hf : ∀ q, q.code = c → IsStandard q (f q)) :
    ∀ ps : List Property, Knows ps (Message.modifyFirst c f ps)
  | [] => .rest (by simp [Message.modifyFirst])
  | p :: ps => by
      rw [Message.modifyFirst]
      by_cases h : (p.code == c) = true
      · rw [if_pos h]; exact .cons (hf p (by simpa using h)) (.refl ps)
      · rw [if_neg h]; exact .cons (.refl p) (knows_modify c f hf ps)

theorem knows_map (f : Property → Property) (hf : ∀ q, IsStandard q (f q)) : ∀ ps : List Property, Knows ps (ps.map f)
  | [] => .rest (by simp)
  | p :: ps => .cons (hf p) (knows_map f hf ps)

theorem getByCode_fst (ps : List Property) (c : Byte) : (PropertyList.getByCode ps c).1 =
    match PropertyList.find ps c with | some _ => ps | none => ps ++ [Property.new.setCode c] := by
  unfold PropertyList.getByCode
  cases hc : PropertyList.find ps c with
  | some q => rfl
  | none =>
    simp only
    rw [add_of_none (by simpa [Property.setCode] using hc)]

theorem extra_new (c : Byte) : IsExtra (Property.new.setCode c) := ⟨rfl, by unfold hasBit; simp only [Property.setCode, Property.new]; decide⟩

theorem knows_getByCode (ps : List Property) (c : Byte) : Knows ps (PropertyList.getByCode ps c).1 := by
  rw [getByCode_fst]
  split
  · exact .refl ps
  · exact knows_append ps (by simpa using extra_new c)

theorem standard_setData (q : Property) (d : List Byte) : IsStandard q (q.setData d).1 := by rw [setData_fst]; exact ⟨rfl, rfl, .inl rfl⟩

theorem knows_setData (ps : List Property) (c : Byte) (d : List Byte) : Knows ps (PropertyList.setData ps c d).1 :=
  (knows_getByCode ps c).trans (knows_modify c _ (fun q _ => standard_setData q d) _)

theorem knows_mapProps (ps : List Property) {mc : Byte} (hm : mc = 0x9D#8 ∨ mc = 0x9E#8 ∨ mc = 0x9F#8) (codes : List Byte) :
    Knows ps (mapProps ps mc codes).1 := by
  unfold mapProps
  split
  · refine (knows_getByCode ps mc).trans (knows_modify mc _ (fun q hq => ?_) _)
    rw [setData_fst]
    refine ⟨rfl, rfl, .inr ⟨?_, rfl⟩⟩
    change q.code = _ ∨ q.code = _ ∨ q.code = _
    rw [hq]; exact hm
  · exact knows_setData ps mc _

theorem knows_maps {junk : Nat → Byte} {o o' : Obj} {a : List Property} (h : o.updatePropertyMaps junk = .ok (o', a)) :
    Knows o.props o'.props ∧ o'.grp = o.grp ∧ o'.cls = o.cls ∧ o'.name = o.name := by
  rw [updatePropertyMaps_eq] at h
  simp only at h
  split at h
  · cases h
  · cases h
    exact ⟨((knows_mapProps _ (by simp) _).trans (knows_mapProps _ (by simp) _)).trans (knows_mapProps _ (by simp) _), rfl, rfl, rfl⟩

theorem modifyFirst_last (c : Byte) (f : Property → Property) (x : Property) (hx : x.code = c) :
    ∀ ps : List Property, (∀ q ∈ ps, q.code ≠ c) → Message.modifyFirst c f (ps ++ [x]) = ps ++ [f x]
  | [], _ => by simp [Message.modifyFirst, hx]
  | p :: ps, h => by
      rw [List.cons_append, Message.modifyFirst, if_neg (by simpa using h p (by simp)), modifyFirst_last c f x hx ps (fun q hq => h q (by simp [hq]))]
      rfl

theorem knows_ensure {junk : Nat → Byte} {o o' : Obj} {c : Byte} {a : List Property} (h : Ctrl.ensureProperty junk o c = .ok (o', a)) :
    Knows o.props o'.props ∧ o'.grp = o.grp ∧ o'.cls = o.cls ∧ o'.name = o.name := by
  unfold Ctrl.ensureProperty at h
  split at h
  · simp only [Res.ok.injEq, Prod.mk.injEq] at h; rw [← h.1]; exact ⟨.refl _, rfl, rfl, rfl⟩
  · rename_i hc
    have hn : PropertyList.find o.props c = none := by
      unfold Obj.hasProperty Obj.getProperty at hc; simpa using hc
    have hne := find_none_iff.1 hn
    unfold Obj.setProperty at h
    simp only [Res.bind_eq_ok, Res.pure_eq, Res.ok.injEq, Prod.mk.injEq] at h
    obtain ⟨⟨o1, b⟩, h2, h3, _⟩ := h
    subst h3
    obtain ⟨k1, k2, k3, k4⟩ := knows_maps h2
    refine ⟨Knows.trans ?_ k1, k2, k3, k4⟩
    simp only [PropertyList.set]
    rw [getByCode_fst, hn]
    simp only
    rw [modifyFirst_last c _ _ rfl _ hne, modifyFirst_last c _ _ (by rw [setData_fst]; rfl) _ hne]
    refine knows_append _ ?_
    simp only [List.mem_singleton, forall_eq, setData_fst]
    exact ⟨rfl, by unfold hasBit; simp [Property.setParent, Property.setAttribute]⟩

/-- What is known about an object. -/
def ObjKnown (db : Db) (o : Obj) : Prop :=
  Knows (standardProps db o.grp o.cls) o.props ∧ o.name = (className db o.grp o.cls).or (className db 0 0)

theorem ObjKnown.of {db : Db} {o o' : Obj} (h : ObjKnown db o) (g : Knows o.props o'.props ∧ o'.grp = o.grp ∧ o'.cls = o.cls ∧ o'.name = o.name) :
    ObjKnown db o' := by
  obtain ⟨g1, g2, g3, g4⟩ := g
  unfold ObjKnown
  rw [g2, g3, g4]
  exact ⟨h.1.trans g1, h.2⟩

theorem updateProps_known (orc : Oracle) : ∀ (ps : List Property) (k : Nat) (o o' : Obj) (u u' : Bool) (a : List Property),
    Ctrl.updateProps orc k ps o u = .ok (o', a, u') → Knows o.props o'.props ∧ o'.grp = o.grp ∧ o'.cls = o.cls ∧ o'.name = o.name
  | [], k, o, o', u, u', a, h => by
      simp only [Ctrl.updateProps, Res.ok.injEq, Prod.mk.injEq] at h
      rw [← h.1]; exact ⟨.refl _, rfl, rfl, rfl⟩
  | mp :: ps, k, o, o', u, u', a, h => by
      unfold Ctrl.updateProps at h
      simp only [Res.bind_eq_ok] at h
      obtain ⟨⟨o1, a0⟩, h1, h⟩ := h
      obtain ⟨k1, k2, k3, k4⟩ := knows_ensure h1
      have step : ∀ {o2 : Obj} {u2 : Bool} {a2 : List Property}, Knows o1.props o2.props → o2.grp = o1.grp → o2.cls = o1.cls → o2.name = o1.name →
          Ctrl.updateProps orc (k + 1) ps o2 u2 = .ok (o', a2, u') → Knows o.props o'.props ∧ o'.grp = o.grp ∧ o'.cls = o.cls ∧ o'.name = o.name := by
        intro o2 u2 a2 j1 j2 j3 j4 hh
        obtain ⟨i1, i2, i3, i4⟩ := updateProps_known orc ps _ _ _ _ _ _ hh
        exact ⟨(k1.trans j1).trans i1, by rw [i2, j2, k2], by rw [i3, j3, k3], by rw [i4, j4, k4]⟩
      simp only at h
      split at h
      · simp only [Res.bind_eq_ok, Res.pure_eq, Res.ok.injEq, Prod.mk.injEq] at h
        obtain ⟨⟨o2, a2, u2⟩, hh, rfl, _, rfl⟩ := h
        exact step (.refl _) rfl rfl rfl hh
      · rename_i p hp
        split at h
        · simp only [Res.bind_eq_ok, Res.pure_eq, Res.ok.injEq, Prod.mk.injEq] at h
          obtain ⟨⟨o2, a2, u2⟩, hh, rfl, _, rfl⟩ := h
          exact step (.refl _) rfl rfl rfl hh
        · simp only [Res.bind_eq_ok, Res.pure_eq, Res.ok.injEq, Prod.mk.injEq] at h
          obtain ⟨⟨o2, a2, u2⟩, hh, rfl, _, rfl⟩ := h
          refine step (o2 := { o1 with props := Message.modifyFirst mp.code (fun _ => (p.setData mp.data).1) o1.props }) ?_ rfl rfl rfl hh
          simp only
          have : ∀ l : List Property, PropertyList.find l mp.code = some p → Knows l (Message.modifyFirst mp.code (fun _ => (p.setData mp.data).1) l) := by
            intro l
            induction l with
            | nil => intro h; simp [PropertyList.find] at h
            | cons x xs ih =>
              intro h
              unfold PropertyList.find at h
              rw [List.find?_cons] at h
              rw [Message.modifyFirst]
              by_cases hx : (x.code == mp.code) = true
              · rw [if_pos hx]; rw [hx] at h
                simp only [Option.some.injEq] at h
                rw [← h]
                exact .cons (standard_setData x _) (.refl xs)
              · rw [if_neg hx]
                simp only [hx] at h
                exact .cons (.refl x) (ih h)
          exact this _ hp

theorem addMissing_present : ∀ (qs : List Property) (o : Obj), (∀ q ∈ qs, o.hasProperty q.code = true) → o.addMissing qs = o
  | [], _, _ => rfl
  | q :: qs, o, h => by
      rw [Obj.addMissing, if_pos (h q (by simp))]
      exact addMissing_present qs o (fun x hx => h x (by simp [hx]))

theorem addMissing_filter : ∀ (qs : List Property) (o : Obj), (qs.map (·.code)).Nodup →
    (o.addMissing qs).props = o.props ++ (qs.filter fun q => q.code ∉ o.props.map (·.code)).map fun q => q.copy.setParent true
  | [], o, _ => by simp [Obj.addMissing]
  | q :: qs, o, hn => by
      rw [List.map_cons, List.nodup_cons] at hn
      have hiff : o.hasProperty q.code = true ↔ q.code ∈ o.props.map (·.code) := by
        unfold Obj.hasProperty Obj.getProperty PropertyList.find
        rw [List.find?_isSome, List.mem_map]
        simp
      rw [Obj.addMissing]
      by_cases h : o.hasProperty q.code = true
      · rw [if_pos h, addMissing_filter qs o hn.2, List.filter_cons, if_neg (by simpa using hiff.1 h)]
      · have h' : q.code ∉ o.props.map (·.code) := fun x => h (hiff.2 x)
        rw [if_neg h, addMissing_filter qs _ hn.2]
        have hc : (q.copy.setParent true).code = q.code := by rw [copy_prop]; rfl
        have hp : (o.addProperty q.copy).props = o.props ++ [q.copy.setParent true] := by
          unfold Obj.addProperty
          simp only
          rw [add_of_none]
          rw [find_none_iff]
          intro p hp he
          exact h' (List.mem_map.2 ⟨p, hp, by rw [he, hc]⟩)
        rw [hp, List.filter_cons, if_pos (by simpa using h'), List.append_assoc]
        congr 1
        rw [List.map_cons, List.singleton_append]
        congr 2
        apply List.filter_congr
        intro x hx
        have hne : x.code ≠ q.code := fun he => hn.1 (List.mem_map.2 ⟨x, hx, he⟩)
        simp [hc, hne]

theorem standard_copy (q : Property) : IsStandard q (q.copy.setParent true) := by rw [copy_prop]; exact ⟨rfl, rfl, .inl rfl⟩

theorem classProps_nodup {db : Db} (hdb : DbCodes db) (g c : Byte) : ((classProps db g c).map (·.code)).Nodup := by
  unfold classProps
  split
  · simp
  · rename_i d hd; exact hdb d (List.mem_of_find?_eq_some hd)

/-- One lookup in the database. -/
theorem addStandardWithCode_props {db : Db} (hdb : DbCodes db) (o : Obj) (g c : Byte) :
    let o' := (Obj.addStandardWithCode db o g c).1
    o'.props = o.props ++ ((classProps db g c).filter fun q => q.code ∉ o.props.map (·.code)).map (fun q => q.copy.setParent true) ∧
    o'.grp = o.grp ∧ o'.cls = o.cls ∧ o'.name = (className db g c).or o.name := by
  have hn := classProps_nodup hdb g c
  unfold Obj.addStandardWithCode
  have e : db.getObject g c = db.find? (fun d => d.grp == g && d.cls == c) := rfl
  unfold classProps at *
  unfold className
  rw [e]
  cases hd : db.find? (fun d => d.grp == g && d.cls == c) with
  | none => simp
  | some s =>
    rw [hd] at hn
    simp only
    have hf := addMissing_fields s.props (o.setName s.name)
    refine ⟨addMissing_filter s.props (o.setName s.name) hn, ?_, ?_, ?_⟩
    · have := congrArg Obj.grp hf; exact this
    · have := congrArg Obj.cls hf; exact this
    · have := congrArg Obj.name hf; exact this

theorem setCode_known {db : Db} (hdb : DbCodes db) {junk : Nat → Byte} {v : CInt} {o : Obj} {a : List Property}
    (h : Obj.new.setCode db junk v = .ok (o, a)) : ObjKnown db o := by
  unfold Obj.setCode at h
  obtain ⟨k1, k2, k3, k4⟩ := knows_maps h
  generalize hz : ({ Obj.new with
    grp := ((v &&& 0xFF0000#32).sshiftRight 16).setWidth 8
    cls := ((v &&& 0x00FF00#32).sshiftRight 8).setWidth 8
    ins := (v &&& 0x0000FF#32).setWidth 8 } : Obj) = z at *
  have hz1 : z.props = [] := by rw [← hz]; rfl
  have hz2 : z.name = none := by rw [← hz]; rfl
  obtain ⟨p1, p2, p3, p4⟩ := addStandardWithCode_props hdb z 0x00#8 0x00#8
  obtain ⟨r1, r2, r3, r4⟩ := addStandardWithCode_props hdb (Obj.addStandardWithCode db z 0x00#8 0x00#8).1
    (Obj.addStandardWithCode db z 0x00#8 0x00#8).1.grp (Obj.addStandardWithCode db z 0x00#8 0x00#8).1.cls
  rw [p2, p3] at r1 r2 r3 r4
  have e1 : (Obj.addStandard db z).1 = (Obj.addStandardWithCode db (Obj.addStandardWithCode db z 0x00#8 0x00#8).1 z.grp z.cls).1 := by
    unfold Obj.addStandard; simp only; rw [p2, p3]
  rw [e1] at k1 k2 k3 k4
  unfold ObjKnown
  rw [k2, k3, k4, r2, r3, r4, p4, hz2, Option.or_none]
  refine ⟨Knows.trans ?_ k1, rfl⟩
  rw [r1, p1, hz1]
  simp only [List.map_nil, List.not_mem_nil, not_false_eq_true, decide_true, List.nil_append]
  rw [List.filter_eq_self.2 (by simp)]
  unfold standardProps
  change Knows _ (List.map (fun q : Property => q.copy.setParent true) (classProps db 0 0) ++ List.map (fun q : Property => q.copy.setParent true)
    (List.filter (fun q : Property => decide (q.code ∉ ((classProps db 0 0).map fun q : Property => q.copy.setParent true).map (·.code))) _))
  have hmm : ((classProps db 0 0).map fun q => q.copy.setParent true).map (·.code) = (classProps db 0 0).map (·.code) := by
    rw [List.map_map]; apply List.map_congr_left; intro q _; exact (standard_copy q).1
  rw [hmm, ← List.map_append]
  exact knows_map _ standard_copy _

theorem setPropertyData_known {o : Obj} (c : Byte) (d : List Byte) :
    Knows o.props (o.setPropertyData c d).1.props ∧ (o.setPropertyData c d).1.grp = o.grp ∧ (o.setPropertyData c d).1.cls = o.cls ∧
      (o.setPropertyData c d).1.name = o.name := ⟨knows_setData _ c d, rfl, rfl, rfl⟩

theorem addMandatory_known {db : Db} {rnd : Nat → Byte} {o o' : Obj} {a : List Property} {b : Bool} (ho : ObjKnown db o)
    (hg : o.grp = 0x0E#8 ∧ o.cls = 0xF0#8) (h : NodeProfile.addMandatory db rnd o = .ok (o', a, b)) : ObjKnown db o' := by
  unfold NodeProfile.addMandatory at h
  split at h
  · simp only [Res.ok.injEq, Prod.mk.injEq] at h; rw [← h.1]; exact ho
  · rename_i s hs
    have hall : ∀ q ∈ s.props, o.hasProperty q.code = true := by
      intro q hq
      have hk := ho.1
      rw [hg.1, hg.2] at hk
      have hmem : ∃ y ∈ standardProps db 0x0E 0xF0, y.code = q.code := by
        unfold standardProps
        by_cases hc : q.code ∈ (classProps db 0 0).map (·.code)
        · obtain ⟨y, hy, he⟩ := List.mem_map.1 hc
          exact ⟨y, List.mem_append_left _ hy, he⟩
        · refine ⟨q, ?_, rfl⟩
          rw [List.mem_append]; right
          rw [List.mem_filter]
          refine ⟨?_, by simpa using hc⟩
          unfold classProps
          have : db.find? (fun d => d.grp == 0x0E && d.cls == 0xF0) = some s := hs
          rw [this]; exact hq
      have : ∀ {as bs : List Property}, Knows as bs → ∀ y ∈ as, ∃ z ∈ bs, z.code = y.code := by
        intro as bs h
        induction h with
        | rest => simp
        | cons h1 _ ih =>
          intro y hy
          rcases List.mem_cons.1 hy with rfl | hy
          · exact ⟨_, by simp, h1.1⟩
          · obtain ⟨z, hz, he⟩ := ih y hy; exact ⟨z, by simp [hz], he⟩
      obtain ⟨y, hy, he⟩ := hmem
      obtain ⟨z, hz, hz2⟩ := this hk y hy
      unfold Obj.hasProperty Obj.getProperty PropertyList.find
      rw [List.find?_isSome]
      exact ⟨z, hz, by simp [hz2, he]⟩
    rw [addMissing_present _ _ hall] at h
    unfold NodeProfile.setDefaultId NodeProfile.setId at h
    simp only [Res.bind_eq_ok, Res.pure_eq, Res.ok.injEq, Prod.mk.injEq] at h
    obtain ⟨_, ⟨_, _, _, _, rfl⟩, h, _⟩ := h
    rw [← h]
    exact ((ho.of (setPropertyData_known _ _)).of (setPropertyData_known _ _)).of (setPropertyData_known _ _)

theorem nodeProfile_known {db : Db} (hdb : DbCodes db) {junk rnd : Nat → Byte} {o : Obj} (h : NodeProfile.new db junk rnd = .ok o) :
    ObjKnown db o := by
  unfold NodeProfile.new at h
  simp only [Res.bind_eq_ok, Res.pure_eq, Res.ok.injEq] at h
  obtain ⟨⟨o1, a⟩, h1, ⟨o2, a2, b⟩, h2, rfl⟩ := h
  refine addMandatory_known (setCode_known hdb h1) ?_ h2
  obtain ⟨o', a', h3, h4, _⟩ := setCode_new db junk (0x0E#8, 0xF0#8, 0x01#8)
  have : (BitVec.ofNat 32 (eojNat (0x0E#8, 0xF0#8, 0x01#8))) = 0x0EF001#32 := by decide
  rw [this, h1] at h3
  cases h3
  unfold objEoj at h4
  simp only [Prod.mk.injEq] at h4
  exact ⟨h4.1, h4.2.1⟩

theorem profileUpdate_known {cs : List Class} {os : List Obj} {o o' : Obj} {a : List Property} (h : Node.profileUpdate cs os o = .ok (o', a)) :
    Knows o.props o'.props ∧ o'.grp = o.grp ∧ o'.cls = o.cls ∧ o'.name = o.name := by
  unfold Node.profileUpdate NodeProfile.setClassCount NodeProfile.setClassList NodeProfile.setInstanceCount NodeProfile.setInstanceList
    Obj.setPropertyIntegerData PropertyList.setIntegerData at h
  simp only [Res.bind_eq_ok, Res.pure_eq, Res.ok.injEq, Prod.mk.injEq] at h
  obtain ⟨⟨o1, a1⟩, ⟨_, ⟨_, _, rfl⟩, rfl, rfl⟩, ⟨o2, a2⟩, ⟨d2, _, h2⟩, ⟨o3, a3⟩, ⟨_, ⟨_, _, rfl⟩, rfl, rfl⟩, ⟨o4, a4⟩, ⟨d4, _, h4⟩, h5, _⟩ := h
  simp only [Obj.setPropertyData, Prod.mk.injEq] at h4
  simp only [Obj.setPropertyData, Prod.mk.injEq] at h2
  obtain ⟨rfl, _⟩ := h2
  subst h5
  rw [← h4.1]
  refine ⟨?_, rfl, rfl, rfl⟩
  exact ((((knows_setData _ _ _).trans (knows_setData _ _ _)).trans (knows_setData _ _ _)).trans (knows_setData _ _ _)).trans (knows_setData _ _ _)

/-- What is known about the objects of a node. -/
def NodeKnown (db : Db) (n : Node) : Prop := ∀ o ∈ n.objs, ObjKnown db o

theorem NodeKnown.set {db : Db} {n : Node} (h : NodeKnown db n) {i : Nat} {o o' : Obj} (hi : n.objs[i]? = some o)
    (g : Knows o.props o'.props ∧ o'.grp = o.grp ∧ o'.cls = o.cls ∧ o'.name = o.name) : NodeKnown db { n with objs := n.objs.set i o' } := by
  intro y hy
  rcases List.mem_or_eq_of_mem_set hy with hy | rfl
  · exact h y hy
  · exact (h o (List.mem_of_getElem? hi)).of g

theorem announceAll_objs (e : Endian) {n n' : Node} {o : Obj} {ps : List Property} {eff : List Effect}
    (h : n.announceAll e o ps = .ok (n', eff)) : n'.objs = n.objs := by
  rw [announceAll_eq] at h
  split at h <;> simp only [Res.ok.injEq, Prod.mk.injEq] at h <;> rw [← h.1]

theorem addObject_known (e : Endian) {db : Db} {n n' : Node} {o : Obj} {eff : List Effect} {r : Bool} (hn : NodeKnown db n) (ho : ObjKnown db o)
    (h : n.addObject e o = .ok (n', eff, r)) : NodeKnown db n' := by
  unfold Node.addObject at h
  split at h
  · simp only [Res.ok.injEq, Prod.mk.injEq] at h; rw [← h.1]; exact hn
  · have h1 : ∀ cs, NodeKnown db { n with objs := n.objs ++ [o.setParentNode true], classes := cs } := by
      intro cs y hy
      rcases List.mem_append.1 hy with hy | hy
      · exact hn y hy
      · rw [List.mem_singleton.1 hy]; exact ho
    have h2 := h1 (Class.listSet n.classes (objectcode2classcode o.getCode))
    simp only at h
    generalize ({ n with objs := n.objs ++ [o.setParentNode true], classes := Class.listSet n.classes (objectcode2classcode o.getCode) } : Node) = m at h h2
    unfold Node.updateProfile at h
    split at h
    · simp only [Res.ok.injEq, Prod.mk.injEq] at h; rw [← h.1]; exact h2
    · split at h
      · cases h
      · rename_i i _ _ hi
        split at h
        · unfold Node.onObj at h
          rw [hi] at h
          simp only [Res.bind_eq_ok, Res.pure_eq, Res.ok.injEq, Prod.mk.injEq] at h
          obtain ⟨⟨n1, ef⟩, ⟨⟨o', ann⟩, g1, g2⟩, rfl, _⟩ := h
          have := h2.set hi (profileUpdate_known g1)
          intro y hy
          rw [announceAll_objs e g2] at hy
          exact this y hy
        · simp only [Res.ok.injEq, Prod.mk.injEq] at h; rw [← h.1]; exact h2

theorem nodeNew_known (e : Endian) {db : Db} (hdb : DbCodes db) {junk rnd : Nat → Byte} {tid0 : BitVec 32} {n : Node} {eff : List Effect}
    (h : Node.new e db junk rnd tid0 = .ok (n, eff)) : NodeKnown db n := by
  unfold Node.new at h
  simp only [Res.bind_eq_ok, Res.pure_eq, Res.ok.injEq, Prod.mk.injEq] at h
  obtain ⟨o, h1, ⟨n1, ef, r⟩, h2, rfl, _⟩ := h
  have : NodeKnown db n1 := addObject_known e (by intro y hy; cases hy) (nodeProfile_known hdb h1) h2
  exact this

theorem searchLoop_known (e : Endian) {db : Db} (hdb : DbCodes db) (orc : Oracle) (data : List Byte) :
    ∀ (fuel idx k : Nat) (n n' : Node) (u u' : Bool), NodeKnown db n → Ctrl.searchLoop e db orc data fuel idx k n u = .ok (n', u') → NodeKnown db n'
  | 0, idx, k, n, n', u, u', hn, h => by
      simp only [Ctrl.searchLoop, Res.ok.injEq, Prod.mk.injEq] at h
      rw [← h.1]; exact hn
  | fuel + 1, idx, k, n, n', u, u', hn, h => by
      unfold Ctrl.searchLoop at h
      split at h
      · simp only [Res.bind_eq_ok] at h
        obtain ⟨b, _, code, _, h⟩ := h
        split at h
        · exact searchLoop_known e hdb orc data fuel _ _ _ _ _ _ hn h
        · simp only [Res.bind_eq_ok] at h
          obtain ⟨⟨n1, ef, r⟩, h1, h⟩ := h
          refine searchLoop_known e hdb orc data fuel _ _ _ _ _ _ ?_ h
          unfold Node.setObject at h1
          split at h1
          · simp only [Res.ok.injEq, Prod.mk.injEq] at h1; rw [← h1.1]; exact hn
          · simp only [Res.bind_eq_ok] at h1
            obtain ⟨⟨o, a⟩, g1, g2⟩ := h1
            exact addObject_known e hn (setCode_known hdb g1) g2
      · simp only [Res.ok.injEq, Prod.mk.injEq] at h
        rw [← h.1]; exact hn

/-- What is known about the nodes of a controller. -/
def CtrlKnown (db : Db) (c : Ctrl) : Prop := ∀ n ∈ c.nodes, NodeKnown db n

theorem CtrlKnown.set {db : Db} {c : Ctrl} (h : CtrlKnown db c) {ns : List Node} (hs : ∀ n ∈ ns, NodeKnown db n) {i : Nat} {n : Node} (hn : NodeKnown db n) :
    CtrlKnown db { c with nodes := ns.set i n } := by
  intro y hy
  rcases List.mem_or_eq_of_mem_set hy with hy | rfl
  · exact hs y hy
  · exact hn

theorem handleSearch_known (e : Endian) {db : Db} (hdb : DbCodes db) (orc : Oracle) {c c' : Ctrl} {m : Message} {ev : List CEvent}
    (hc : CtrlKnown db c) (h : Ctrl.handleSearch e db orc c m = .ok (c', ev)) : CtrlKnown db c' := by
  unfold Ctrl.handleSearch at h
  simp only [Res.bind_eq_ok] at h
  obtain ⟨q, _, h⟩ := h
  split at h
  · simp only [Res.pure_eq, Res.ok.injEq, Prod.mk.injEq] at h; rw [← h.1]; exact hc
  · split at h
    · simp only [Res.pure_eq, Res.ok.injEq, Prod.mk.injEq] at h; rw [← h.1]; exact hc
    · split at h
      · simp only [Res.pure_eq, Res.ok.injEq, Prod.mk.injEq] at h; rw [← h.1]; exact hc
      · simp only [Res.bind_eq_ok, Res.pure_eq, Res.ok.injEq, Prod.mk.injEq] at h
        obtain ⟨⟨ns, i, added⟩, h1, n, h2, ⟨n', upd⟩, h3, rfl, _⟩ := h
        have hns : ∀ n ∈ ns, NodeKnown db n := by
          unfold Ctrl.obtainNode at h1
          split at h1
          · simp only [Res.ok.injEq, Prod.mk.injEq] at h1; rw [← h1.1]; exact hc
          · simp only [Res.bind_eq_ok, Res.pure_eq, Res.ok.injEq, Prod.mk.injEq] at h1
            obtain ⟨⟨n1, ef⟩, g1, rfl, _⟩ := h1
            intro y hy
            rcases List.mem_append.1 hy with hy | hy
            · exact hc y hy
            · rw [List.mem_singleton.1 hy]
              have := nodeNew_known e hdb g1
              exact this
        have hn : n ∈ ns := by
          unfold rd at h2
          split at h2
          · rename_i x hx; cases h2; exact List.mem_of_getElem? hx
          · cases h2
        exact hc.set hns (searchLoop_known e hdb orc _ _ _ _ _ _ _ _ (hns n hn) h3)

theorem rd_mem {α : Type} {l : List α} {i : Nat} {x : α} (h : rd l i = .ok x) : l[i]? = some x := by
  unfold rd at h
  split at h
  · rename_i y hy; cases h; exact hy
  · cases h

theorem handleNode_known (e : Endian) {db : Db} (orc : Oracle) {c c' : Ctrl} {i : Nat} {m : Message} {ev : List CEvent}
    (hc : CtrlKnown db c) (h : Ctrl.handleNode e orc c i m = .ok (c', ev)) : CtrlKnown db c' := by
  unfold Ctrl.handleNode at h
  rw [Res.bind_eq_ok] at h
  obtain ⟨n, h1, h⟩ := h
  have hn := hc n (List.mem_of_getElem? (rd_mem h1))
  simp only [] at h
  split at h
  all_goals
    rw [Res.bind_eq_ok] at h
    obtain ⟨⟨n', u⟩, h2, h⟩ := h
    simp only [Res.pure_eq, Res.ok.injEq, Prod.mk.injEq] at h
    obtain ⟨rfl, _⟩ := h
    refine hc.set hc ?_
  · unfold Ctrl.updateNode at h2
    simp only [Res.bind_eq_ok] at h2
    obtain ⟨src, _, h2⟩ := h2
    split at h2
    · simp only [Res.pure_eq, Res.ok.injEq, Prod.mk.injEq] at h2; rw [← h2.1]; exact hn
    · split at h2
      all_goals
      simp only [Res.bind_eq_ok, Res.pure_eq, Res.ok.injEq, Prod.mk.injEq] at h2
      obtain ⟨ps, _, o, h3, ⟨o', ann, u1⟩, h4, ⟨n1, ef⟩, h5, rfl, _⟩ := h2
      have := hn.set (rd_mem h3) (updateProps_known orc _ _ _ _ _ _ _ h4)
      intro y hy
      rw [announceAll_objs e h5] at hy
      exact this y hy
  · simp only [Res.ok.injEq, Prod.mk.injEq] at h2; rw [← h2.1]; exact hn

theorem receive_known (e : Endian) {db : Db} (hdb : DbCodes db) (orc : Oracle) {c c' : Ctrl} {h h' : Heap} {loc : Option String} {a : String}
    {data : List Byte} {ev : List CEvent} (hc : CtrlKnown db c) (hr : c.receive e db orc h loc (some a) data = .ok (c', h', ev)) :
    CtrlKnown db c' := by
  cases hd : decode data with
  | none =>
    rw [receive_bad e db orc c h loc a hd] at hr
    simp only [Res.ok.injEq, Prod.mk.injEq] at hr
    rw [← hr.1]; exact hc
  | some x =>
    obtain ⟨f, r⟩ := x
    obtain ⟨rfl, hf⟩ := decode_sound hd
    obtain ⟨n1, eff, s2, ev3, g1, g2, g3, g4, g5⟩ := (recv e db orc hf hr).ex
    have hc1 : CtrlKnown db { c with node := n1 } := hc
    rcases g5 with ⟨d, hs, g5⟩ | ⟨hs, hk, rfl, rfl⟩ | ⟨hs, hd, i, hx, g5⟩
    · exact handleSearch_known e hdb orc hc1 g5
    · exact hc
    · exact handleNode_known e orc hc1 g5

theorem reach_known {e : Endian} {db : Db} (hdb : DbCodes db) {c : Ctrl} (h : CtrlReach e db c) : CtrlKnown db c := by
  induction h with
  | new => intro n hn; cases hn
  | setMessageListener _ _ ih => exact ih
  | setNodeListener _ _ ih => exact ih
  | enableOption _ _ ih => exact ih
  | disableOption _ _ ih => exact ih
  | localNode _ _ ih => exact ih
  | start b _ hs _ =>
    unfold Ctrl.start at hs
    simp only [Res.bind_eq_ok, Res.pure_eq, Res.ok.injEq, Prod.mk.injEq] at hs
    obtain ⟨_, _, rfl, _⟩ := hs
    intro n hn; cases hn
  | announce m _ hs ih =>
    unfold Ctrl.announceMessage at hs
    simp only [Res.bind_eq_ok, Res.pure_eq, Res.ok.injEq, Prod.mk.injEq] at hs
    obtain ⟨_, _, rfl, _⟩ := hs
    exact ih
  | search esv _ hs ih =>
    unfold Ctrl.searchWithEsv Ctrl.announceMessage at hs
    simp only [Res.bind_eq_ok, Res.pure_eq, Res.ok.injEq, Prod.mk.injEq] at hs
    obtain ⟨_, _, _, _, rfl, _⟩ := hs
    exact ih
  | searchObject code esv _ hs ih =>
    unfold Ctrl.searchObjectWithEsv Ctrl.announceMessage at hs
    simp only [Res.bind_eq_ok, Res.pure_eq, Res.ok.injEq, Prod.mk.injEq] at hs
    obtain ⟨_, _, _, _, _, _, rfl, _⟩ := hs
    exact ih
  | postBegin a req res s _ hs ih =>
    unfold Ctrl.postBegin at hs
    simp only at hs
    split at hs
    · simp at hs
    · simp only [Res.bind_eq_ok, Res.pure_eq, Res.ok.injEq, Prod.mk.injEq] at hs
      obtain ⟨_, _, rfl, _⟩ := hs
      exact ih
  | postEnd _ ih => exact ih
  | receive orc loc a d _ hr ih => exact receive_known e hdb orc ih hr

end Uecho.Lemmas
