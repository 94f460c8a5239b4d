import Verif.Spec.StdTable
import Verif.Lemmas.Object
import Verif.Lemmas.Attr
import Verif.Lemmas.Copy
/-! Lemmas about the standard database. -/
namespace Uecho.Lemmas
open Uecho Uecho.Spec Uecho.Std

theorem rows_uniq (rows : List StdRow) : ∀ ps : List Property, (ps.map (·.code)).Nodup →
    ((rows.foldl (fun ps r => PropertyList.add ps (r.new.setParent true)) ps).map (·.code)).Nodup := by
  induction rows with
  | nil => intro ps h; exact h
  | cons r rows ih => intro ps h; exact ih _ (uniq_add h _)

theorem class_uniq (k : StdClass) : (k.new.props.map (·.code)).Nodup := rows_uniq k.rows [] (by simp)

theorem rows_find (e : Byte) (rows : List StdRow) (hr : ∀ r ∈ rows, r.epc < 256) : ∀ ps : List Property,
    (ps.map (·.code)).Nodup →
    PropertyList.find (rows.foldl (fun ps r => PropertyList.add ps (r.new.setParent true)) ps) e =
      ((lastRow rows e.toNat).map fun r => r.new.setParent true).or (PropertyList.find ps e) := by
  induction rows with
  | nil => intro ps _; rfl
  | cons r rows ih =>
    intro ps h
    rw [List.foldl_cons, ih (fun r h => hr r (by simp [h])) _ (uniq_add h _)]
    have hlast : lastRow (r :: rows) e.toNat = (lastRow rows e.toNat).or (if r.epc = e.toNat then some r else none) := by
      unfold lastRow
      rw [List.reverse_cons, List.find?_append]
      congr 1
      by_cases h : r.epc = e.toNat <;> simp [h]
    rw [hlast]
    have hcode : (r.new.setParent true).code = BitVec.ofNat 8 r.epc := rfl
    have hr256 := hr r (by simp)
    by_cases he : r.epc = e.toNat
    · have : e = (r.new.setParent true).code := by rw [hcode, he]; simp
      rw [if_pos he]
      conv => lhs; arg 2; rw [this, find_add_self h]
      cases lastRow rows e.toNat <;> rfl
    · have : e ≠ (r.new.setParent true).code := by
        rw [hcode]; intro h; apply he; rw [h]; simp; omega
      rw [if_neg he, find_add_other _ _ this, Option.or_none]

theorem class_find (k : StdClass) (hr : ∀ r ∈ k.rows, r.epc < 256) (e : Byte) :
    PropertyList.find k.new.props e = (lastRow k.rows e.toNat).map fun r => r.new.setParent true := by
  have := rows_find e k.rows hr [] (by simp)
  rw [show PropertyList.find [] e = none from rfl, Option.or_none] at this
  exact this

theorem getObject_class {cs : List StdClass} (hn : (cs.map fun k => (k.grp, k.cls)).Nodup)
    (hb : ∀ k ∈ cs, k.grp < 256 ∧ k.cls < 256) {k : StdClass} (hk : k ∈ cs) {g c : Byte} (hg : k.grp = g.toNat)
    (hc : k.cls = c.toNat) : (database cs).getObject g c = some k.new := by
  induction cs with
  | nil => cases hk
  | cons q cs ih =>
    unfold Db.getObject database
    rw [List.map_cons, List.find?_cons]
    rw [List.map_cons, List.nodup_cons] at hn
    rcases List.mem_cons.mp hk with rfl | hk
    · have : (k.new.grp == g && k.new.cls == c) = true := by
        simp [StdClass.new, hg, hc]
      rw [this]
    · have hq := hb q (by simp)
      have : (q.new.grp == g && q.new.cls == c) = false := by
        rw [Bool.and_eq_false_iff]
        by_cases h1 : q.grp = g.toNat
        · right
          simp only [StdClass.new, beq_eq_false_iff_ne, ne_eq]
          intro h2
          apply hn.1
          have h3 : q.cls = c.toNat := by rw [← h2]; simp; omega
          rw [List.mem_map]
          exact ⟨k, hk, by rw [hg, hc, h1, h3]⟩
        · left
          simp only [StdClass.new, beq_eq_false_iff_ne, ne_eq]
          intro h2
          apply h1
          rw [← h2]; simp; omega
      rw [this]
      exact ih hn.2 (fun k h => hb k (by simp [h])) hk

theorem getObject_none {cs : List StdClass} (hb : ∀ k ∈ cs, k.grp < 256 ∧ k.cls < 256) {g c : Byte}
    (h : ∀ k ∈ cs, ¬ (k.grp = g.toNat ∧ k.cls = c.toNat)) : (database cs).getObject g c = none := by
  unfold Db.getObject database
  rw [List.find?_eq_none]
  intro d hd
  obtain ⟨k, hk, rfl⟩ := List.mem_map.mp hd
  intro hh
  simp only [StdClass.new, Bool.and_eq_true, beq_iff_eq] at hh
  have := hb k hk
  refine h k hk ⟨?_, ?_⟩
  · rw [← hh.1]; simp; omega
  · rw [← hh.2]; simp; omega

theorem addMissing_append : ∀ (qs : List Property) (o : Obj), ∃ l, (o.addMissing qs).props = o.props ++ l ∧ l.length ≤ qs.length
  | [], o => ⟨[], by simp [Obj.addMissing], by simp⟩
  | q :: qs, o => by
      rw [Obj.addMissing]
      split
      · obtain ⟨l, h, h2⟩ := addMissing_append qs o
        exact ⟨l, h, by simp; omega⟩
      · rename_i hq
        obtain ⟨l, h, h2⟩ := addMissing_append qs (o.addProperty q.copy)
        refine ⟨[q.copy.setParent true] ++ l, ?_, by simp; omega⟩
        rw [h]
        have hc : q.copy.code = q.code := by rw [copy_prop]
        have hne : ∀ p ∈ o.props, ¬ p.code = q.code := by
          intro p hp he
          apply hq
          unfold Obj.hasProperty Obj.getProperty PropertyList.find
          rw [List.find?_isSome]
          exact ⟨p, hp, by simp [he]⟩
        have : (o.addProperty q.copy).props = o.props ++ [q.copy.setParent true] := by
          unfold Obj.addProperty PropertyList.add
          simp only
          rw [List.eraseP_of_forall_not]
          intro p hp
          simp only [Property.setParent, hc, beq_iff_eq]
          exact hne p hp
        rw [this, List.append_assoc]

theorem addMissing_new : ∀ (qs : List Property) (o : Obj), (qs.map (·.code)).Nodup → (∀ q ∈ qs, o.getProperty q.code = none) →
    (o.addMissing qs).props = o.props ++ qs.map fun q => q.copy.setParent true
  | [], o, _, _ => by simp [Obj.addMissing]
  | q :: qs, o, hn, h => by
      have hq := h q (by simp)
      rw [List.map_cons, List.nodup_cons] at hn
      rw [Obj.addMissing, if_neg (by simp [Obj.hasProperty, hq])]
      have hc : (q.copy.setParent true).code = q.code := by rw [copy_prop]; rfl
      have hp : (o.addProperty q.copy).props = o.props ++ [q.copy.setParent true] := by
        unfold Obj.addProperty PropertyList.add
        simp only
        rw [List.eraseP_of_forall_not]
        intro p hp
        rw [hc]
        unfold Obj.getProperty PropertyList.find at hq
        exact List.find?_eq_none.mp hq p hp
      rw [addMissing_new qs _ hn.2, hp]
      · simp
      · intro r hr
        have hne : r.code ≠ (q.copy.setParent true).code := by
          rw [hc]; intro e; exact hn.1 (e ▸ List.mem_map_of_mem hr)
        have := h r (by simp [hr])
        unfold Obj.getProperty at this ⊢
        unfold Obj.addProperty
        rw [find_add_other _ _ hne]
        exact this

theorem addStandard_props {db : Db} {o : Obj} (hp : o.props = []) {s d : DbObj} (g0 : db.getObject 0x00#8 0x00#8 = some s)
    (g1 : db.getObject o.grp o.cls = some d) (hs : (s.props.map (·.code)).Nodup) :
    ∃ l, (o.addStandard db).1.props = (s.props.map fun q => q.copy.setParent true) ++ l ∧ l.length ≤ d.props.length := by
  have e1 : (o.addStandardWithCode db 0x00#8 0x00#8).1 = (o.setName s.name).addMissing s.props := by
    unfold Obj.addStandardWithCode; rw [g0]
  have hf := addStandardWithCode_codes db o 0x00#8 0x00#8
  have e2 : (o.addStandard db).1 = Obj.addMissing (Obj.setName (o.addStandardWithCode db 0x00#8 0x00#8).1 d.name) d.props := by
    show (Obj.addStandardWithCode db (o.addStandardWithCode db 0x00#8 0x00#8).1
      (o.addStandardWithCode db 0x00#8 0x00#8).1.grp (o.addStandardWithCode db 0x00#8 0x00#8).1.cls).1 = _
    rw [hf.1, hf.2.1]
    generalize (o.addStandardWithCode db 0x00#8 0x00#8).1 = o1
    unfold Obj.addStandardWithCode
    rw [g1]
  obtain ⟨l, hl, hl2⟩ := addMissing_append d.props (Obj.setName (o.addStandardWithCode db 0x00#8 0x00#8).1 d.name)
  refine ⟨l, ?_, hl2⟩
  rw [e2, hl, e1]
  congr 1
  show ((o.setName s.name).addMissing s.props).props = _
  rw [addMissing_new s.props _ hs (fun q _ => by simp [Obj.getProperty, Obj.setName, hp, PropertyList.find])]
  show o.props ++ _ = _
  rw [hp, List.nil_append]

end Uecho.Lemmas
