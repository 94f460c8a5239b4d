import Verif.Lemmas.Node
/-! An object with a readable property keeps one, and so rebuilding its maps stays defined. -/
namespace Uecho.Lemmas
open Uecho Uecho.Spec

/-- The object has a readable property. -/
def Readable (o : Obj) : Prop := ∃ p ∈ o.props, p.isReadable = true

theorem modifyFirst_exists (c : Byte) (f : Property → Property) (P : Property → Prop)
    (hf : ∀ q, q.code = c → P q → P (f q)) :
    ∀ {ps : List Property}, (∃ p ∈ ps, P p) → ∃ p ∈ Message.modifyFirst c f ps, P p
  | [], h => by obtain ⟨p, hp, _⟩ := h; cases hp
  | q :: qs, h => by
      obtain ⟨p, hp, hr⟩ := h
      simp only [Message.modifyFirst]
      by_cases hq : q.code == c
      · rw [if_pos hq]
        rcases List.mem_cons.1 hp with rfl | hp
        · exact ⟨f p, by simp, hf p (by simpa using hq) hr⟩
        · exact ⟨p, by simp [hp], hr⟩
      · rw [if_neg hq]
        rcases List.mem_cons.1 hp with rfl | hp
        · exact ⟨p, by simp, hr⟩
        · obtain ⟨p', hp', hr'⟩ := modifyFirst_exists c f P hf ⟨p, hp, hr⟩
          exact ⟨p', by simp [hp'], hr'⟩

theorem getByCode_exists {ps : List Property} (c : Byte) {P : Property → Prop} (h : ∃ p ∈ ps, P p) :
    ∃ p ∈ (PropertyList.getByCode ps c).1, P p := by
  unfold PropertyList.getByCode
  cases hc : PropertyList.find ps c with
  | some q => exact h
  | none =>
    obtain ⟨p, hp, hr⟩ := h
    simp only
    rw [add_of_none (by simpa [Property.setCode] using hc)]
    exact ⟨p, by simp [hp], hr⟩

theorem setData_exists {ps : List Property} (c : Byte) (d : List Byte) (h : ∃ p ∈ ps, p.isReadable = true) :
    ∃ p ∈ (PropertyList.setData ps c d).1, p.isReadable = true :=
  modifyFirst_exists c _ _ (fun q _ hq => by simp only [setData_fst]; exact hq) (getByCode_exists c h)

theorem setPropertyData_readable {o : Obj} (c : Byte) (d : List Byte) (h : Readable o) :
    Readable (o.setPropertyData c d).1 := setData_exists c d h

theorem mapProps_exists {ps : List Property} (mc : Byte) (codes : List Byte)
    (h : ∃ p ∈ ps, p.isReadable = true) : ∃ p ∈ (mapProps ps mc codes).1, p.isReadable = true := by
  unfold mapProps
  split
  · refine modifyFirst_exists mc _ _ (fun q _ _ => ?_) (getByCode_exists mc h)
    simp only [setData_fst, Property.setAttribute, Property.isReadable]
    decide
  · exact setData_exists mc _ h

theorem codesWith_nil_iff {f : Property → Bool} {ps : List Property} :
    codesWith f ps = [] ↔ ¬ ∃ p ∈ ps, f p = true := by
  unfold codesWith
  simp [List.filter_eq_nil_iff]

theorem updatePropertyMaps_frame {junk : Nat → Byte} {o o' : Obj} {a : List Property}
    (h : o.updatePropertyMaps junk = .ok (o', a)) : objEoj o' = objEoj o ∧ o'.hasNode = o.hasNode := by
  rw [updatePropertyMaps_eq] at h
  simp only at h
  split at h
  · cases h
  · cases h; exact ⟨rfl, rfl⟩

theorem updatePropertyMaps_readable {junk : Nat → Byte} {o o' : Obj} {a : List Property}
    (h : o.updatePropertyMaps junk = .ok (o', a)) : Readable o' := by
  rw [updatePropertyMaps_eq] at h
  simp only at h
  split at h
  · cases h
  · rename_i hc
    cases h
    unfold Readable
    simp only
    apply mapProps_exists
    apply mapProps_exists
    by_cases hg : codesWith Property.isReadable o.props = []
    · have hk : o.getMap.size = 0 := Decidable.byContradiction fun hk => hc ⟨hg, hk⟩
      rw [hg, hk]
      have := find_mapProps o.props 0x9F#8 0x9F#8 []
      simp only [if_true, List.length_nil, Nat.zero_le] at this
      exact ⟨_, find_mem this, by simp only [Property.isReadable]; decide⟩
    · apply mapProps_exists
      exact Decidable.byContradiction fun hn => hg (codesWith_nil_iff.2 hn)

theorem updatePropertyMaps_defined (junk : Nat → Byte) {o : Obj} (h : Readable o ∨ o.getMap.size = 0) :
    ∃ o' a, o.updatePropertyMaps junk = .ok (o', a) := by
  rw [updatePropertyMaps_eq]
  simp only
  rw [if_neg]
  · exact ⟨_, _, rfl⟩
  · rintro ⟨h1, h2⟩
    rcases h with h | h
    · exact codesWith_nil_iff.1 h1 h
    · exact h2 h

theorem setProperty_props (o : Obj) (c : Byte) (attr : CInt) (k : Byte) :
    PropertyList.find (Message.modifyFirst c (fun p => p.setParent true) (PropertyList.set o.props c attr []).1) k =
      if k = c then some { target o.props c with data := [], attr := attr, hasParent := true }
      else o.getProperty k := by
  have hs : ∀ k, PropertyList.find (PropertyList.set o.props c attr []).1 k = _ := fun k => find_set o.props c k attr []
  have h0 : PropertyList.getByCode (PropertyList.set o.props c attr []).1 c =
      ((PropertyList.set o.props c attr []).1, { target o.props c with data := [], attr := attr }) := by
    unfold PropertyList.getByCode
    rw [hs c]; simp
  have := find_modify_getByCode (PropertyList.set o.props c attr []).1 c k (fun p => p.setParent true) (fun _ => rfl)
  rw [h0] at this
  rw [this]
  by_cases hk : k = c
  · simp only [hk, if_true]
    have ht : target (PropertyList.set o.props c attr []).1 c = { target o.props c with data := [], attr := attr } := by
      unfold target
      rw [hs c]; simp [target]
    rw [ht]; rfl
  · simp only [hk, if_false]
    rw [hs k, if_neg hk]; rfl

/-- `setProperty` of an absent code: defined, and what it does. -/
theorem setProperty_absent (junk : Nat → Byte) {o : Obj} {c : Byte} (attr : CInt) (hc : o.getProperty c = none)
    (hr : Readable o) :
    ∃ o' a, o.setProperty junk c attr = .ok (o', a) ∧ Readable o' ∧ objEoj o' = objEoj o ∧ o'.hasNode = o.hasNode ∧
      (∀ k, k ≠ 0x9D#8 → k ≠ 0x9E#8 → k ≠ 0x9F#8 →
        o'.getProperty k = if k = c then some ⟨none, c, attr, 0, [], true⟩ else o.getProperty k) := by
  have h1 : Readable { o with
      props := Message.modifyFirst c (fun p => p.setParent true) (PropertyList.set o.props c attr []).1 } := by
    refine modifyFirst_exists c (fun p => p.setParent true) (fun p => p.isReadable = true) (fun q _ hq => hq) ?_
    obtain ⟨p, hp, hpr⟩ := hr
    have hne : p.code ≠ c := find_none_iff.1 hc p hp
    have : ∃ p ∈ (PropertyList.set o.props c attr []).1, p.isReadable = true ∧ p.code ≠ c :=
      modifyFirst_exists c _ (fun q => q.isReadable = true ∧ q.code ≠ c) (fun q hq hq' => absurd hq hq'.2)
        (getByCode_exists c ⟨p, hp, hpr, hne⟩)
    obtain ⟨p, hp, hpr, _⟩ := this
    exact ⟨p, hp, hpr⟩
  obtain ⟨o', b, h2⟩ := updatePropertyMaps_defined junk (.inl h1)
  refine ⟨o', (PropertyList.set o.props c attr []).2 ++ b, ?_, updatePropertyMaps_readable h2,
    (updatePropertyMaps_frame h2).1, (updatePropertyMaps_frame h2).2, ?_⟩
  · unfold Obj.setProperty
    simp only
    rw [h2]; rfl
  · intro k k1 k2 k3
    rw [updatePropertyMaps_find h2 k k1 k2 k3]
    simp only [Obj.getProperty]
    rw [setProperty_props]
    by_cases hk : k = c
    · simp only [hk, if_true]
      have ht : target o.props c = Property.new.setCode c := by
        unfold target; rw [show PropertyList.find o.props c = none from hc]
      rw [ht]; rfl
    · rw [if_neg hk, if_neg hk]; rfl

/-- All properties that were there are still there. -/
theorem setProperty_absent_has (junk : Nat → Byte) {o o' : Obj} {c : Byte} {attr : CInt} {a : List Property}
    (h : o.setProperty junk c attr = .ok (o', a)) (k : Byte) :
    o'.hasProperty k = (o.hasProperty k || k == c || k == 0x9D#8 || k == 0x9E#8 || k == 0x9F#8) := by
  unfold Obj.setProperty at h
  simp only [Res.bind_eq_ok, Res.pure_eq, Res.ok.injEq, Prod.mk.injEq] at h
  obtain ⟨⟨o1, b⟩, h2, h3, _⟩ := h
  subst h3
  by_cases hm : k = 0x9D#8 ∨ k = 0x9E#8 ∨ k = 0x9F#8
  · have : (o1.getProperty k).isSome := by
      rw [updatePropertyMaps_eq] at h2
      simp only at h2
      split at h2
      · cases h2
      · cases h2
        simp only [Obj.getProperty]
        rw [find_mapProps, find_mapProps, find_mapProps]
        rcases hm with rfl | rfl | rfl <;> simp
    rw [Obj.hasProperty, this]
    rcases hm with rfl | rfl | rfl <;> simp
  · simp only [not_or] at hm
    unfold Obj.hasProperty
    rw [updatePropertyMaps_find h2 k hm.1 hm.2.1 hm.2.2]
    simp only [Obj.getProperty]
    rw [setProperty_props]
    by_cases hk : k = c
    · simp [hk]
    · rw [if_neg hk]
      simp only [beq_eq_false_iff_ne.2 hk, beq_eq_false_iff_ne.2 hm.1, beq_eq_false_iff_ne.2 hm.2.1,
        beq_eq_false_iff_ne.2 hm.2.2, Bool.or_false]
      rfl

end Uecho.Lemmas
