import Verif.Model.Object
import Verif.Lemmas.PropertyMap
import Verif.Lemmas.Section
import Verif.Lemmas.Copy
/-! # Lemmas about property lists and objects -/
set_option linter.unusedSimpArgs false
namespace Uecho.Lemmas
open Uecho Uecho.PropertyMap Uecho.Spec

/-! ### property lists -/

theorem find_code {ps : List Property} {c : Byte} {p : Property}
    (h : PropertyList.find ps c = some p) : p.code = c := by
  have := List.find?_some h
  simpa using this

theorem find_mem {ps : List Property} {c : Byte} {p : Property}
    (h : PropertyList.find ps c = some p) : p ∈ ps := List.mem_of_find?_eq_some h

theorem find_none_iff {ps : List Property} {c : Byte} :
    PropertyList.find ps c = none ↔ ∀ p ∈ ps, p.code ≠ c := by
  simp [PropertyList.find]

theorem find_append (ps qs : List Property) (c : Byte) :
    PropertyList.find (ps ++ qs) c = (PropertyList.find ps c).or (PropertyList.find qs c) := by
  simp [PropertyList.find, List.find?_append]

theorem find_mem_iff {ps : List Property} (hu : (ps.map (·.code)).Nodup) {c : Byte} {p : Property} :
    PropertyList.find ps c = some p ↔ p ∈ ps ∧ p.code = c := by
  constructor
  · intro h; exact ⟨find_mem h, find_code h⟩
  · rintro ⟨hm, rfl⟩
    induction ps with
    | nil => simp at hm
    | cons q qs ih =>
      simp only [List.map_cons, List.nodup_cons] at hu
      simp only [List.mem_cons] at hm
      simp only [PropertyList.find, List.find?_cons]
      rcases hm with rfl | hm
      · simp
      · have : q.code ≠ p.code := fun e => hu.1 (e ▸ List.mem_map_of_mem (f := (·.code)) hm)
        have : (q.code == p.code) = false := by simpa using this
        rw [this]
        exact ih hu.2 hm

theorem eraseP_code_of_none {ps : List Property} {c : Byte} (h : PropertyList.find ps c = none) :
    ps.eraseP (fun q => q.code == c) = ps := by
  apply List.eraseP_of_forall_not
  intro p hp
  simpa using find_none_iff.mp h p hp

theorem add_of_none {ps : List Property} {p : Property}
    (h : PropertyList.find ps p.code = none) : PropertyList.add ps p = ps ++ [p] := by
  rw [PropertyList.add, eraseP_code_of_none h]

theorem find_add_other (ps : List Property) (p : Property) {c : Byte} (h : c ≠ p.code) :
    PropertyList.find (PropertyList.add ps p) c = PropertyList.find ps c := by
  have hp : (p.code == c) = false := by simpa using fun e => h e.symm
  simp only [PropertyList.add, find_append]
  have : PropertyList.find [p] c = none := by simp [PropertyList.find, hp]
  rw [this, Option.or_none]
  induction ps with
  | nil => rfl
  | cons q qs ih =>
    simp only [List.eraseP_cons]
    by_cases hq : q.code == p.code
    · have : (q.code == c) = false := by
        have : q.code = p.code := by simpa using hq
        rw [this]; exact hp
      simp [hq, PropertyList.find, this]
    · simp only [hq, Bool.false_eq_true, cond_false, if_false]
      simp only [PropertyList.find, List.find?_cons] at ih ⊢
      rw [ih]

theorem find_add_self {ps : List Property} (hu : (ps.map (·.code)).Nodup) (p : Property) :
    PropertyList.find (PropertyList.add ps p) p.code = some p := by
  have hs : PropertyList.find [p] p.code = some p := by simp [PropertyList.find]
  simp only [PropertyList.add, find_append, hs]
  have : PropertyList.find (ps.eraseP fun q => q.code == p.code) p.code = none := by
    induction ps with
    | nil => rfl
    | cons q qs ih =>
      simp only [List.map_cons, List.nodup_cons] at hu
      rw [List.eraseP_cons]
      by_cases hq : q.code = p.code
      · have : (q.code == p.code) = true := by simpa using hq
        rw [this]
        simp only [cond_true]
        rw [find_none_iff]
        intro r hr e
        exact hu.1 (by rw [hq, ← e]; exact List.mem_map_of_mem (f := (·.code)) hr)
      · have h2 : (q.code == p.code) = false := by simpa using hq
        rw [h2]
        simp only [cond_false]
        have := ih hu.2
        simp only [PropertyList.find, List.find?_cons, h2] at this ⊢
        exact this
  rw [this]; rfl

theorem codes_eraseP (ps : List Property) (c : Byte) :
    (ps.eraseP fun q => q.code == c).map (·.code) = (ps.map (·.code)).erase c := by
  induction ps with
  | nil => rfl
  | cons q qs ih =>
    rw [List.eraseP_cons, List.map_cons, List.erase_cons]
    by_cases h : q.code == c
    · simp [h]
    · simp [h, ih]

theorem uniq_add {ps : List Property} (hu : (ps.map (·.code)).Nodup) (p : Property) :
    ((PropertyList.add ps p).map (·.code)).Nodup := by
  rw [PropertyList.add, List.map_append, codes_eraseP]
  have h2 : p.code ∉ (ps.map (·.code)).erase p.code := hu.not_mem_erase
  rw [List.nodup_append]
  refine ⟨hu.erase _, by simp, ?_⟩
  intro a ha b hb
  simp at hb
  subst hb
  intro e; subst e; exact h2 ha

theorem modifyFirst_codes (c : Byte) (f : Property → Property) (hf : ∀ q, (f q).code = q.code)
    (ps : List Property) : (Message.modifyFirst c f ps).map (·.code) = ps.map (·.code) := by
  induction ps with
  | nil => rfl
  | cons q qs ih =>
    simp only [Message.modifyFirst]
    split
    · simp [hf]
    · simp [ih]

theorem ensure_eq (ps : List Property) (c : Byte) :
    PropertyList.ensure ps c = (PropertyList.getByCode ps c).1 := by
  unfold PropertyList.ensure PropertyList.getByCode
  cases PropertyList.find ps c <;> rfl

theorem uniq_getByCode {ps : List Property} (hu : (ps.map (·.code)).Nodup) (c : Byte) :
    ((PropertyList.getByCode ps c).1.map (·.code)).Nodup := by
  unfold PropertyList.getByCode
  cases PropertyList.find ps c with
  | none => exact uniq_add hu _
  | some p => exact hu

theorem find_getByCode_self (ps : List Property) (c : Byte) :
    PropertyList.find (PropertyList.getByCode ps c).1 c = some (PropertyList.getByCode ps c).2 := by
  unfold PropertyList.getByCode
  cases h : PropertyList.find ps c with
  | some p => exact h
  | none =>
    simp only
    rw [add_of_none (by exact h), find_append, h]
    simp [PropertyList.find, Property.setCode]

theorem find_getByCode_other (ps : List Property) {c c' : Byte} (h : c' ≠ c) :
    PropertyList.find (PropertyList.getByCode ps c).1 c' = PropertyList.find ps c' := by
  unfold PropertyList.getByCode
  cases PropertyList.find ps c with
  | some p => rfl
  | none => exact find_add_other _ _ (by simpa [Property.setCode] using h)

/-- the property a list function works on: the existing one or a fresh one -/
def target (ps : List Property) (c : Byte) : Property :=
  match PropertyList.find ps c with
  | some p => p
  | none => Property.new.setCode c

theorem getByCode_snd (ps : List Property) (c : Byte) :
    (PropertyList.getByCode ps c).2 = target ps c := by
  unfold PropertyList.getByCode target
  cases PropertyList.find ps c <;> rfl

theorem target_code (ps : List Property) (c : Byte) : (target ps c).code = c := by
  unfold target
  cases h : PropertyList.find ps c with
  | none => rfl
  | some p => exact find_code h

theorem find_modify_getByCode (ps : List Property) (c c' : Byte) (f : Property → Property)
    (hf : ∀ q, (f q).code = q.code) :
    PropertyList.find (Message.modifyFirst c f (PropertyList.getByCode ps c).1) c' =
      if c' = c then some (f (target ps c)) else PropertyList.find ps c' := by
  by_cases h : c' = c
  · subst h
    rw [if_pos rfl, ← getByCode_snd]
    exact find_modifyFirst_self f (hf _) (find_getByCode_self ps c')
  · rw [if_neg h, ← find_getByCode_other ps h]
    exact find_modifyFirst_other f hf h

theorem find_setData (ps : List Property) (c c' : Byte) (d : List Byte) :
    PropertyList.find (PropertyList.setData ps c d).1 c' =
      if c' = c then some { target ps c with data := d } else PropertyList.find ps c' := by
  have := find_modify_getByCode ps c c' (fun p => (p.setData d).1)
    (fun q => by simp only [setData_fst])
  simp only [setData_fst] at this
  rw [← this]
  simp only [PropertyList.setData, setData_fst]

theorem find_set (ps : List Property) (c c' : Byte) (attr : CInt) (d : List Byte) :
    PropertyList.find (PropertyList.set ps c attr d).1 c' =
      if c' = c then some { target ps c with data := d, attr := attr }
      else PropertyList.find ps c' := by
  have := find_modify_getByCode ps c c' (fun p => (p.setData d).1.setAttribute attr)
    (fun q => by simp only [setData_fst, Property.setAttribute])
  simp only [setData_fst, Property.setAttribute] at this
  rw [← this]
  simp only [PropertyList.set, setData_fst, Property.setAttribute]

theorem find_setAttribute (ps : List Property) (c c' : Byte) (attr : CInt) :
    PropertyList.find (PropertyList.setAttribute ps c attr) c' =
      if c' = c then some { target ps c with attr := attr } else PropertyList.find ps c' := by
  have := find_modify_getByCode ps c c' (fun p => p.setAttribute attr) (fun _ => rfl)
  rw [← ensure_eq] at this
  exact this

theorem uniq_setData {ps : List Property} (hu : (ps.map (·.code)).Nodup) (c : Byte) (d : List Byte) :
    ((PropertyList.setData ps c d).1.map (·.code)).Nodup := by
  simp only [PropertyList.setData]
  rw [modifyFirst_codes _ _ (fun q => by rw [setData_fst])]
  exact uniq_getByCode hu c

theorem uniq_set {ps : List Property} (hu : (ps.map (·.code)).Nodup) (c : Byte) (attr : CInt)
    (d : List Byte) : ((PropertyList.set ps c attr d).1.map (·.code)).Nodup := by
  simp only [PropertyList.set]
  rw [modifyFirst_codes _ _ (fun q => by rw [setData_fst]; rfl)]
  exact uniq_getByCode hu c

theorem uniq_setAttribute {ps : List Property} (hu : (ps.map (·.code)).Nodup) (c : Byte)
    (attr : CInt) : ((PropertyList.setAttribute ps c attr).map (·.code)).Nodup := by
  simp only [PropertyList.setAttribute]
  rw [modifyFirst_codes c (fun p => p.setAttribute attr) (fun _ => rfl), ensure_eq]
  exact uniq_getByCode hu c

/-! ### map caches -/

theorem realloc_none (junk : Nat → Byte) (n : Nat) :
    Obj.realloc junk none n = (List.range n).map junk := by
  simp [Obj.realloc]

theorem realloc_append (junk : Nat → Byte) (b : List Byte) :
    Obj.realloc junk (some b) (b.length + 1) = b ++ [junk b.length] := by
  apply List.ext_getElem?
  intro i
  simp only [Obj.realloc]
  by_cases h : i < b.length
  · rw [List.getElem?_append_left h]
    simp [h, show i < b.length + 1 by omega]
  · by_cases h2 : i = b.length
    · subst h2; simp
    · rw [List.getElem?_eq_none (by simp; omega), List.getElem?_eq_none (by simp; omega)]

/-- content of a cache with recorded size `k` and NULL pointer after appending `codes` -/
def cacheOf (junk : Nat → Byte) (k : Nat) (codes : List Byte) : Cache :=
  ⟨k + codes.length, if codes = [] then none else some ((List.range k).map junk ++ codes)⟩

theorem cacheAppend_eq (junk : Nat → Byte) (k : Nat) (codes : List Byte) (c : Byte) :
    Obj.cacheAppend junk (cacheOf junk k codes) c = .ok (cacheOf junk k (codes ++ [c])) := by
  unfold Obj.cacheAppend cacheOf
  by_cases h : codes = []
  · subst h
    simp only [List.length_nil, Nat.add_zero, if_true, realloc_none, wr, List.nil_append,
      Nat.add_sub_cancel]
    rw [if_pos (by simp)]
    simp [List.range_succ, List.set_append_right]
  · have hl : k + codes.length = ((List.range k).map junk ++ codes).length := by simp
    simp only [h, if_false, Nat.add_sub_cancel]
    rw [hl, realloc_append, wr, if_pos (by simp)]
    simp [List.set_append_right, h]
    omega

/-- codes of the properties satisfying `f`, in list order -/
def codesWith (f : Property → Bool) (ps : List Property) : List Byte := (ps.filter f).map (·.code)

theorem codesWith_cons (f : Property → Bool) (p : Property) (ps : List Property) :
    codesWith f (p :: ps) = (if f p then [p.code] else []) ++ codesWith f ps := by
  unfold codesWith
  by_cases h : f p <;> simp [h]

theorem condAppend_eq (junk : Nat → Byte) (k : Nat) (l : List Byte) (b : Bool) (c : Byte) :
    Obj.cacheAppendIf b junk (cacheOf junk k l) c =
      .ok (cacheOf junk k (l ++ if b then [c] else [])) := by
  unfold Obj.cacheAppendIf
  cases b
  · simp
  · simp [cacheAppend_eq]

theorem collectAll_eq (junk : Nat → Byte) (k : Nat) : ∀ (ps : List Property) (o : Obj)
    (g s a : List Byte), o.getMap = cacheOf junk k g → o.setMap = cacheOf junk 0 s →
    o.annoMap = cacheOf junk 0 a →
    Obj.collectAll junk o ps = .ok { o with
      getMap := cacheOf junk k (g ++ codesWith Property.isReadable ps)
      setMap := cacheOf junk 0 (s ++ codesWith Property.isWritable ps)
      annoMap := cacheOf junk 0 (a ++ codesWith Property.isAnnounceable ps) }
  | [], o, g, s, a, hg, hs, ha => by
      simp only [Obj.collectAll, codesWith, List.filter_nil, List.map_nil, List.append_nil]
      rw [← hg, ← hs, ← ha]
  | p :: ps, o, g, s, a, hg, hs, ha => by
      simp only [Obj.collectAll, Obj.collect]
      rw [hg, hs, ha, condAppend_eq, condAppend_eq, condAppend_eq]
      simp only [Res.bind_ok, Res.pure_eq]
      rw [collectAll_eq junk k ps _ _ _ _ rfl rfl rfl]
      simp only [codesWith_cons, List.append_assoc]

/-- the bytes of a map property for a list of codes -/
def mapData (codes : List Byte) : List Byte :=
  BitVec.ofNat 8 codes.length :: (if codes.length ≤ 15 then codes else rowsOf codes)

/-- property list after writing a map property -/
def mapProps (ps : List Property) (mc : Byte) (codes : List Byte) : List Property × List Property :=
  if codes.length ≤ 15 then PropertyList.set ps mc Attr.read (mapData codes)
  else PropertyList.setData ps mc (mapData codes)

theorem build_eq (codes : List Byte) :
    build (some codes) codes.length = .ok (decide (codes.length ≤ 15), mapData codes) := by
  unfold mapData
  by_cases h : codes.length ≤ 15
  · rw [build_fmt1 codes h]; simp [h]
  · rw [build_fmt2 codes (by omega)]; simp [h]

theorem setPropertyMap_some (o : Obj) (mc : Byte) (codes : List Byte) :
    o.setPropertyMap mc (some codes) codes.length =
      .ok ({ o with props := (mapProps o.props mc codes).1 }, (mapProps o.props mc codes).2) := by
  unfold Obj.setPropertyMap mapProps
  rw [build_eq]
  by_cases h : codes.length ≤ 15 <;> simp [h]

theorem setPropertyMap_nil (o : Obj) (mc : Byte) :
    o.setPropertyMap mc none 0 =
      .ok ({ o with props := (mapProps o.props mc []).1 }, (mapProps o.props mc []).2) := by
  unfold Obj.setPropertyMap
  rw [build_null]
  rfl

theorem setPropertyMap_null_ub (o : Obj) (mc : Byte) (k : Nat) (h : k ≠ 0) :
    o.setPropertyMap mc none k = .ub := by
  unfold Obj.setPropertyMap build
  simp only [wr, List.length_replicate, Nat.reduceLT, if_true, Res.bind_ok, h, if_false]
  rfl

theorem setPropertyMap_cache (o : Obj) (mc : Byte) (junk : Nat → Byte) (codes : List Byte) :
    o.setPropertyMap mc (cacheOf junk 0 codes).bytes (cacheOf junk 0 codes).size =
      .ok ({ o with props := (mapProps o.props mc codes).1 }, (mapProps o.props mc codes).2) := by
  unfold cacheOf
  by_cases h : codes = []
  · subst h; simpa using setPropertyMap_nil o mc
  · simpa [h] using setPropertyMap_some o mc codes

theorem setPropertyMap_getCache (o : Obj) (mc : Byte) (junk : Nat → Byte) (k : Nat)
    (codes : List Byte) :
    o.setPropertyMap mc (cacheOf junk k codes).bytes (cacheOf junk k codes).size =
      if codes = [] ∧ k ≠ 0 then .ub
      else .ok ({ o with props := (mapProps o.props mc ((List.range k).map junk ++ codes)).1 },
        (mapProps o.props mc ((List.range k).map junk ++ codes)).2) := by
  unfold cacheOf
  by_cases h : codes = []
  · subst h
    by_cases hk : k = 0
    · subst hk; simpa using setPropertyMap_nil o mc
    · simpa [hk] using setPropertyMap_null_ub o mc k hk
  · have := setPropertyMap_some o mc ((List.range k).map junk ++ codes)
    simp only [List.length_append, List.length_map, List.length_range] at this
    simpa [h] using this

/-- Closed form of `uecho_object_updatepropertymaps`. -/
theorem updatePropertyMaps_eq (junk : Nat → Byte) (o : Obj) :
    o.updatePropertyMaps junk =
      let gets := codesWith Property.isReadable o.props
      let sets := codesWith Property.isWritable o.props
      let annos := codesWith Property.isAnnounceable o.props
      let k := o.getMap.size
      let x1 := mapProps o.props 0x9F#8 ((List.range k).map junk ++ gets)
      let x2 := mapProps x1.1 0x9E#8 sets
      let x3 := mapProps x2.1 0x9D#8 annos
      if gets = [] ∧ k ≠ 0 then .ub
      else .ok ({ o with
          props := x3.1
          getMap := cacheOf junk k gets
          setMap := cacheOf junk 0 sets
          annoMap := cacheOf junk 0 annos }, x1.2 ++ x2.2 ++ x3.2) := by
  unfold Obj.updatePropertyMaps
  simp only
  rw [collectAll_eq junk o.getMap.size _ _ [] [] [] (by simp [Obj.clearMapCaches, cacheOf])
    (by simp [Obj.clearMapCaches, cacheOf]) (by simp [Obj.clearMapCaches, cacheOf])]
  simp only [Res.bind_ok, List.nil_append, Obj.clearMapCaches]
  rw [setPropertyMap_getCache]
  by_cases h : codesWith Property.isReadable o.props = [] ∧ o.getMap.size ≠ 0
  · rw [if_pos h, if_pos h]; rfl
  · rw [if_neg h, if_neg h]
    simp only [Res.bind_ok]
    rw [setPropertyMap_cache]
    simp only [Res.bind_ok]
    rw [setPropertyMap_cache]
    rfl

theorem find_mapProps (ps : List Property) (mc c : Byte) (codes : List Byte) :
    PropertyList.find (mapProps ps mc codes).1 c =
      if c = mc then some { target ps mc with
          data := mapData codes
          attr := if codes.length ≤ 15 then Attr.read else (target ps mc).attr }
      else PropertyList.find ps c := by
  unfold mapProps
  by_cases h : codes.length ≤ 15
  · rw [if_pos h, find_set]; simp [h]
  · rw [if_neg h, find_setData]; simp [h]

theorem uniq_mapProps {ps : List Property} (hu : (ps.map (·.code)).Nodup) (mc : Byte)
    (codes : List Byte) : ((mapProps ps mc codes).1.map (·.code)).Nodup := by
  unfold mapProps
  split
  · exact uniq_set hu _ _ _
  · exact uniq_setData hu _ _

theorem updatePropertyMaps_find {junk : Nat → Byte} {o o' : Obj} {a : List Property}
    (h : o.updatePropertyMaps junk = .ok (o', a)) (c : Byte) (h1 : c ≠ 0x9D#8) (h2 : c ≠ 0x9E#8)
    (h3 : c ≠ 0x9F#8) : o'.getProperty c = o.getProperty c := by
  rw [updatePropertyMaps_eq] at h
  simp only at h
  split at h
  · cases h
  · cases h
    simp only [Obj.getProperty]
    rw [find_mapProps, if_neg h1, find_mapProps, if_neg h2, find_mapProps, if_neg h3]

theorem updatePropertyMaps_uniq {junk : Nat → Byte} {o o' : Obj} {a : List Property}
    (h : o.updatePropertyMaps junk = .ok (o', a)) (hu : (o.props.map (·.code)).Nodup) :
    (o'.props.map (·.code)).Nodup := by
  rw [updatePropertyMaps_eq] at h
  simp only at h
  split at h
  · cases h
  · cases h
    exact uniq_mapProps (uniq_mapProps (uniq_mapProps hu _ _) _ _) _ _

/-! ### standard properties -/

theorem find_addMissing (c : Byte) : ∀ (qs : List Property) (o : Obj),
    (o.addMissing qs).getProperty c =
      match o.getProperty c with
      | some p => some p
      | none => (PropertyList.find qs c).map (fun p => p.copy.setParent true)
  | [], o => by
      simp only [Obj.addMissing]
      cases o.getProperty c <;> rfl
  | q :: qs, o => by
      rw [Obj.addMissing]
      by_cases hq : o.hasProperty q.code
      · rw [if_pos hq, find_addMissing c qs o]
        cases ho : o.getProperty c with
        | some p => rfl
        | none =>
          have : q.code ≠ c := by
            intro e; rw [Obj.hasProperty, e, ho] at hq; simp at hq
          simp [PropertyList.find, List.find?_cons, this]
      · rw [if_neg hq, find_addMissing c qs _]
        have hnone : PropertyList.find o.props q.code = none := by
          simpa [Obj.hasProperty, Obj.getProperty] using hq
        have hcopy : (q.copy.setParent true).code = q.code := by rw [copy_prop]; rfl
        have hadd : (o.addProperty q.copy).getProperty c =
            (o.getProperty c).or (PropertyList.find [q.copy.setParent true] c) := by
          simp only [Obj.addProperty, Obj.getProperty]
          rw [add_of_none (by rw [hcopy]; exact hnone), find_append]
        rw [hadd]
        cases ho : o.getProperty c with
        | some p => rfl
        | none =>
          simp only [Option.none_or, PropertyList.find, List.find?_cons, List.find?_nil, hcopy]
          by_cases e : q.code == c <;> simp [e]

theorem uniq_addMissing : ∀ (qs : List Property) (o : Obj), (o.props.map (·.code)).Nodup →
    ((o.addMissing qs).props.map (·.code)).Nodup
  | [], _, hu => hu
  | q :: qs, o, hu => by
      rw [Obj.addMissing]
      split
      · exact uniq_addMissing qs o hu
      · exact uniq_addMissing qs _ (uniq_add hu _)

theorem addMissing_fields : ∀ (qs : List Property) (o : Obj),
    { o.addMissing qs with props := o.props } = o
  | [], _ => rfl
  | q :: qs, o => by
      rw [Obj.addMissing]
      split
      · exact addMissing_fields qs o
      · have := addMissing_fields qs (o.addProperty q.copy)
        have h2 : ({ ({ (o.addProperty q.copy).addMissing qs with
            props := (o.addProperty q.copy).props } : Obj) with props := o.props } : Obj) =
            { o.addProperty q.copy with props := o.props } := by rw [this]
        exact h2

theorem uniq_addStandardWithCode (db : Db) (o : Obj) (g c : Byte) (hu : (o.props.map (·.code)).Nodup) :
    ((o.addStandardWithCode db g c).1.props.map (·.code)).Nodup := by
  unfold Obj.addStandardWithCode
  split
  · exact hu
  · exact uniq_addMissing _ _ hu

theorem uniq_addStandard (db : Db) (o : Obj) (hu : (o.props.map (·.code)).Nodup) :
    ((o.addStandard db).1.props.map (·.code)).Nodup := by
  unfold Obj.addStandard
  exact uniq_addStandardWithCode _ _ _ _ (uniq_addStandardWithCode _ _ _ _ hu)

theorem find_addStandardWithCode (db : Db) (o : Obj) (g k c : Byte) :
    (o.addStandardWithCode db g k).1.getProperty c =
      (o.getProperty c).or (((db.getObject g k).bind (fun s => PropertyList.find s.props c)).map
        (fun p => p.copy.setParent true)) := by
  unfold Obj.addStandardWithCode
  cases db.getObject g k with
  | none => simp
  | some s =>
    simp only [find_addMissing]
    have : (o.setName s.name).getProperty c = o.getProperty c := rfl
    rw [this]
    cases o.getProperty c <;> simp

theorem addStandardWithCode_fields (db : Db) (o : Obj) (g k : Byte) :
    { (o.addStandardWithCode db g k).1 with props := o.props, name := o.name } = o := by
  unfold Obj.addStandardWithCode
  cases db.getObject g k with
  | none => rfl
  | some s =>
    have := addMissing_fields s.props (o.setName s.name)
    have h2 : ({ ({ (o.setName s.name).addMissing s.props with
        props := (o.setName s.name).props } : Obj) with name := o.name } : Obj) =
        { o.setName s.name with name := o.name } := by rw [this]
    exact h2

theorem addStandardWithCode_codes (db : Db) (o : Obj) (g k : Byte) :
    (o.addStandardWithCode db g k).1.grp = o.grp ∧ (o.addStandardWithCode db g k).1.cls = o.cls ∧
    (o.addStandardWithCode db g k).1.ins = o.ins ∧
    (o.addStandardWithCode db g k).1.getMap = o.getMap := by
  have h := addStandardWithCode_fields db o g k
  exact ⟨by simpa using congrArg Obj.grp h, by simpa using congrArg Obj.cls h,
    by simpa using congrArg Obj.ins h, by simpa using congrArg Obj.getMap h⟩

theorem find_addStandard (db : Db) (o : Obj) (c : Byte) :
    (o.addStandard db).1.getProperty c =
      (o.getProperty c).or
        ((((db.getObject 0x00#8 0x00#8).bind (fun s => PropertyList.find s.props c)).or
          ((db.getObject o.grp o.cls).bind (fun s => PropertyList.find s.props c))).map
          (fun p => p.copy.setParent true)) := by
  unfold Obj.addStandard
  simp only
  have h := addStandardWithCode_codes db o 0x00#8 0x00#8
  rw [find_addStandardWithCode, find_addStandardWithCode, h.1, h.2.1]
  cases o.getProperty c with
  | some p => simp
  | none => simp [Option.map_or]

theorem addStandard_codes (db : Db) (o : Obj) :
    (o.addStandard db).1.grp = o.grp ∧ (o.addStandard db).1.cls = o.cls ∧
    (o.addStandard db).1.ins = o.ins ∧ (o.addStandard db).1.getMap = o.getMap := by
  unfold Obj.addStandard
  simp only
  have h := addStandardWithCode_codes db o 0x00#8 0x00#8
  have h2 := addStandardWithCode_codes db (o.addStandardWithCode db 0x00#8 0x00#8).1
    (o.addStandardWithCode db 0x00#8 0x00#8).1.grp (o.addStandardWithCode db 0x00#8 0x00#8).1.cls
  exact ⟨h2.1.trans h.1, h2.2.1.trans h.2.1, h2.2.2.1.trans h.2.2.1, h2.2.2.2.trans h.2.2.2⟩

/-! ### object codes -/

theorem getCode_toNat (o : Obj) :
    o.getCode.toNat = o.grp.toNat * 65536 + o.cls.toNat * 256 + o.ins.toNat := by
  have h1 : ∀ g : Byte, ((g.setWidth 32) <<< 16) &&& 0xFF0000#32 = BitVec.ofNat 32 (2 ^ 16 * g.toNat) := by
    decide +kernel
  have h2 : ∀ g : Byte, ((g.setWidth 32) <<< 8) &&& 0x00FF00#32 = BitVec.ofNat 32 (2 ^ 8 * g.toNat) := by
    decide +kernel
  have h3 : ∀ g : Byte, (g.setWidth 32) &&& 0x0000FF#32 = BitVec.ofNat 32 g.toNat := by
    decide +kernel
  unfold Obj.getCode
  rw [h1, h2, h3]
  have := o.grp.isLt; have := o.cls.isLt; have := o.ins.isLt
  simp only [BitVec.toNat_or, BitVec.toNat_ofNat]
  rw [Nat.mod_eq_of_lt (show 2 ^ 16 * o.grp.toNat < 2 ^ 32 by omega),
    Nat.mod_eq_of_lt (show 2 ^ 8 * o.cls.toNat < 2 ^ 32 by omega),
    Nat.mod_eq_of_lt (show o.ins.toNat < 2 ^ 32 by omega),
    ← Nat.two_pow_add_eq_or_of_lt (show o.ins.toNat < 2 ^ 8 by omega),
    ← Nat.two_pow_add_eq_or_of_lt (show 2 ^ 8 * o.cls.toNat + o.ins.toNat < 2 ^ 16 by omega)]
  omega

theorem code_bytes (v : CInt) :
    ((((v &&& 0xFF0000#32).sshiftRight 16).setWidth 8 : Byte)).toNat = v.toNat / 65536 % 256 ∧
    ((((v &&& 0x00FF00#32).sshiftRight 8).setWidth 8 : Byte)).toNat = v.toNat / 256 % 256 ∧
    (((v &&& 0x0000FF#32).setWidth 8 : Byte)).toNat = v.toNat % 256 := by
  have m1 : ∀ i, i < 8 → (0xFF0000#32).getLsbD (16 + i) = true := by decide
  have m2 : ∀ i, i < 8 → (0x00FF00#32).getLsbD (8 + i) = true := by decide
  have m3 : ∀ i, i < 8 → (0x0000FF#32).getLsbD i = true := by decide
  have e1 : (((v &&& 0xFF0000#32).sshiftRight 16).setWidth 8 : Byte) = v.extractLsb' 16 8 := by
    apply BitVec.eq_of_getLsbD_eq
    intro i hi
    simp only [BitVec.getLsbD_setWidth, BitVec.getLsbD_sshiftRight, BitVec.getLsbD_and, m1 i hi,
      BitVec.getLsbD_extractLsb']
    have : ¬ 32 ≤ i := by omega
    have : 16 + i < 32 := by omega
    simp [*]
  have e2 : (((v &&& 0x00FF00#32).sshiftRight 8).setWidth 8 : Byte) = v.extractLsb' 8 8 := by
    apply BitVec.eq_of_getLsbD_eq
    intro i hi
    simp only [BitVec.getLsbD_setWidth, BitVec.getLsbD_sshiftRight, BitVec.getLsbD_and, m2 i hi,
      BitVec.getLsbD_extractLsb']
    have : ¬ 32 ≤ i := by omega
    have : 8 + i < 32 := by omega
    simp [*]
  have e3 : ((v &&& 0x0000FF#32).setWidth 8 : Byte) = v.extractLsb' 0 8 := by
    apply BitVec.eq_of_getLsbD_eq
    intro i hi
    simp only [BitVec.getLsbD_setWidth, BitVec.getLsbD_and, m3 i hi,
      BitVec.getLsbD_extractLsb']
    simp [*]
  rw [e1, e2, e3]
  simp [BitVec.extractLsb'_toNat, Nat.shiftRight_eq_div_pow]

end Uecho.Lemmas
