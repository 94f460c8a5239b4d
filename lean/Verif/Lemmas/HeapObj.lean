import Verif.Lemmas.HeapFrame
/-! # Ownership of blocks: objects -/
namespace Uecho.Lemmas.Blocks
open Uecho Uecho.Spec Uecho.Heap

/-- Announcing a property leaves the blocks as they are; `K` are the blocks it needs besides those of the object. -/
def AnnOk (ann : Announcer) (K : List Nat) : Prop :=
  ∀ o p, p ∈ o.props → Triple (objF o ++ K) (ann o p) (fun _ => objF o ++ K) (fun _ => True)

/-- Codes and attributes. -/
def shp (l : List HProp) : List (Byte × CInt) := l.map fun p => (p.code, p.attr)

/-- Only the properties of the object have changed: those it had have their codes and attributes, and there may be more. -/
def Grow (o r : HObj) : Prop := ∃ ps t, r = { o with props := ps } ∧ shp ps = shp o.props ++ t

theorem Grow.refl (o : HObj) : Grow o o := ⟨o.props, [], rfl, by simp⟩

theorem Grow.trans {o r s : HObj} (h : Grow o r) (h' : Grow r s) : Grow o s := by
  obtain ⟨ps, t, rfl, e⟩ := h
  obtain ⟨ps', t', rfl, e'⟩ := h'
  refine ⟨ps', t ++ t', rfl, ?_⟩
  simp only [e', e, List.append_assoc]

/-- Some readable attribute. -/
def anyRead (l : List (Byte × CInt)) : Bool := l.any fun x => x.2 &&& (Attr.read ||| Attr.readRequired) != 0

theorem hasReadable_eq (o : HObj) : hasReadable o = anyRead (shp o.props) := by
  simp only [hasReadable, anyRead, shp, List.any_map]
  rfl

theorem Grow.readable {o r : HObj} (h : Grow o r) (h' : hasReadable o = true) : hasReadable r = true := by
  obtain ⟨ps, t, rfl, e⟩ := h
  rw [hasReadable_eq] at h' ⊢
  simp only [e, anyRead, List.any_append, Bool.or_eq_true] at h' ⊢
  exact Or.inl h'

theorem Grow.safe {o r : HObj} (h : Grow o r) (h' : mapsSafe o = true) : mapsSafe r = true := by
  simp only [mapsSafe, Bool.or_eq_true, beq_iff_eq] at h' ⊢
  rcases h' with h' | h'
  · obtain ⟨ps, t, rfl, e⟩ := h
    exact Or.inl h'
  · exact Or.inr (h.readable h')

theorem readable_safe {o : HObj} (h : hasReadable o = true) : mapsSafe o = true := by simp [mapsSafe, h]

theorem setData_attr (p : Property) (d : List Byte) : (p.setData d).1.attr = p.attr ∧ (p.setData d).1.hasParent = p.hasParent ∧
    (p.setData d).1.code = p.code := by
  simp only [Property.setData, Property.setCount, Property.clearData]
  split <;> (try split) <;> simp_all

/-! ### The functions -/

theorem silent_ok (K : List Nat) : AnnOk silent K := by
  intro o p hp
  unfold silent
  obtain ⟨pre, post, e⟩ := List.append_of_mem hp
  have e' : objF o ++ K = objF { o with props := pre ++ p :: post } ++ K := by rw [← e]
  rw [e']
  frame use_triple p.self
  intro _ _
  refine .last ?_
  frame use_triple o.self
  intro _ _
  exact .pure (by fp) trivial

theorem objNew_triple : Triple [] objNew objF (fun o => o.props = [] ∧ o.obs = [] ∧ o.getSize = 0 ∧ o.grp = 0 ∧ o.cls = 0 ∧ o.ins = 0) := by
  unfold objNew
  frame malloc_triple
  intro a _
  frame strNew_triple
  intro s _
  frame malloc_triple
  intro p _
  frame malloc_triple
  intro m _
  frame malloc_triple
  intro l _
  exact .pure (by fp) ⟨rfl, rfl, rfl, rfl, rfl, rfl⟩

theorem objClearCaches_triple (o : HObj) : Triple (objF o) (objClearCaches o) objF
    (fun r => r = { o with anno := none, set := none, get := none, annoSize := 0, setSize := 0 }) := by
  unfold objClearCaches
  frame use_triple o.self
  intro _ _
  frame freeOpt_triple o.anno
  intro _ _
  frame freeOpt_triple o.set
  intro _ _
  frame freeOpt_triple o.get
  intro _ _
  exact .pure (by fp) rfl

theorem plClear_triple (hdr : Nat) (ps : List HProp) : Triple ([hdr] ++ propsF ps) (plClear hdr ps) (fun _ => [hdr]) (fun _ => True) := by
  induction ps with
  | nil =>
    unfold plClear
    refine .last ?_
    frame use_triple hdr
    intro _ _
    exact .pure (by fp) trivial
  | cons p ps ih =>
    unfold plClear
    touching
    intro _ _
    frame propDelete_triple p
    intro _ _
    exact ih.perm (by fp)

theorem objDelete_triple (o : HObj) : Triple (objF o) (objDelete o) (fun _ => []) (fun _ => True) := by
  unfold objDelete
  frame use_triple o.self
  intro _ _
  frame strDelete_triple o.name
  intro _ _
  have t : Triple ([o.self] ++ ptr o.anno ++ ptr o.set ++ ptr o.get) (objClearCaches o) (fun _ => [o.self])
      (fun r => r = { o with anno := none, set := none, get := none, annoSize := 0, setSize := 0 }) := by
    unfold objClearCaches
    frame use_triple o.self
    intro _ _
    frame freeOpt_triple o.anno
    intro _ _
    frame freeOpt_triple o.set
    intro _ _
    frame freeOpt_triple o.get
    intro _ _
    exact .pure (by fp) rfl
  frame t
  intro r hr
  subst hr
  frame plClear_triple o.plist o.props
  intro _ _
  frame free_triple o.plist
  intro _ _
  touching
  intro _ _
  frame freeAll_triple (o.obs.map HObs.self)
  intro _ _
  frame free_triple o.olist
  intro _ _
  frame free_triple o.mgr
  intro _ _
  exact (free_triple o.self).perm (by fp)

theorem plAdd_triple (o : HObj) (p : HProp) : Triple (objF o ++ propF p) (plAdd o p) objF
    (fun r => ∃ ps, r = { o with props := ps ++ [p] } ∧ ps.length ≤ o.props.length ∧
      ((∀ q ∈ o.props, q.code ≠ p.code) → ps = o.props)) := by
  unfold plAdd
  touching
  intro _ _
  frame use_triple p.self
  intro _ _
  rcases h : splitBy (fun q => q.code == p.code) o.props with _ | ⟨pre, q, post⟩
  · rw [h]
    exact .pure (by fp) ⟨o.props, rfl, Nat.le_refl _, fun _ => rfl⟩
  · obtain ⟨e, hq⟩ := splitBy_eq h
    rw [h]
    have e' : objF o = objF { o with props := pre ++ q :: post } := by rw [← e]
    refine Triple.perm (P := objF { o with props := pre ++ q :: post } ++ propF p) ?_ (by rw [← e]; fp)
    frame propDelete_triple q
    intro _ _
    refine .pure (by fp) ⟨pre ++ post, rfl, by rw [e]; simp, fun c => ?_⟩
    exact absurd (by simpa using hq) (c q (by rw [e]; simp))

theorem objAddProperty_triple (o : HObj) (p : HProp) : Triple (objF o ++ propF p) (objAddProperty o p) objF
    (fun r => ∃ ps, r = { o with props := ps ++ [{ p with hasParent := true }] } ∧ ps.length ≤ o.props.length ∧
      ((∀ q ∈ o.props, q.code ≠ p.code) → ps = o.props)) := by
  unfold objAddProperty
  frame use_triple o.self
  intro _ _
  frame use_triple p.self
  intro _ _
  exact (plAdd_triple o { p with hasParent := true }).perm (by fp)

theorem objFind_triple (o : HObj) (code : Byte) : Triple (objF o) (objFind o code) (fun _ => objF o)
    (fun r => match r with
      | some (pre, p, post) => o.props = pre ++ p :: post ∧ p.code = code
      | none => ∀ q ∈ o.props, q.code ≠ code) := by
  unfold objFind
  frame use_triple o.self
  intro _ _
  touching
  intro _ _
  refine .pure (by fp) ?_
  rcases h : splitBy (fun q => q.code == code) o.props with _ | ⟨pre, q, post⟩
  · rw [h]
    intro q hq
    simpa using splitBy_none h q hq
  · obtain ⟨e, hq⟩ := splitBy_eq h
    rw [h]
    exact ⟨e, by simpa using hq⟩

theorem objGetByCode_triple (o : HObj) (code : Byte) : Triple (objF o) (objGetByCode o code)
    (fun r => objF { o with props := r.1 ++ r.2.1 :: r.2.2 })
    (fun r => r.2.1.code = code ∧ (o.props = r.1 ++ r.2.1 :: r.2.2 ∨
      ((∀ q ∈ o.props, q.code ≠ code) ∧ r.1 = o.props ∧ r.2.2 = [] ∧ r.2.1.attr = Attr.readWrite))) := by
  unfold objGetByCode
  frame objFind_triple o code
  intro r hr
  rcases r with _ | ⟨pre, p, post⟩
  · simp only at hr ⊢
    frame propNew_triple
    intro p hp
    touching
    intro _ _
    refine .pure (by fp) ⟨rfl, Or.inr ⟨hr, rfl, rfl, ?_⟩⟩
    have : p.val.attr = Attr.readWrite := by rw [hp]; rfl
    exact this
  · simp only at hr ⊢
    refine .pure (by rw [← hr.1]; fp) ⟨hr.2, Or.inl hr.1⟩

theorem byCode_grow {o : HObj} {code : Byte} {r : List HProp × HProp × List HProp} {q : HProp}
    (h : o.props = r.1 ++ r.2.1 :: r.2.2 ∨ ((∀ q ∈ o.props, q.code ≠ code) ∧ r.1 = o.props ∧ r.2.2 = [] ∧ r.2.1.attr = Attr.readWrite))
    (hc : q.code = r.2.1.code) (ha : q.attr = r.2.1.attr) : Grow o { o with props := r.1 ++ q :: r.2.2 } := by
  rcases h with h | ⟨_, h1, h2, _⟩
  · refine ⟨_, [], rfl, ?_⟩
    simp [h, shp, hc, ha]
  · refine ⟨_, [(q.code, q.attr)], rfl, ?_⟩
    simp [h1, h2, shp]

theorem setDataAt_triple {ann : Announcer} {K : List Nat} (ha : AnnOk ann K) (o : HObj) (pre : List HProp) (p : HProp) (post : List HProp) (d : List Byte) :
    Triple (objF { o with props := pre ++ p :: post } ++ K) (setDataAt ann o pre p post d)
      (fun q => objF { o with props := pre ++ q :: post } ++ K) (fun q => q.code = p.code ∧ q.attr = p.attr ∧ q.val = (p.val.setData d).1) := by
  unfold setDataAt
  frame propSetData_triple p d
  intro q hq
  have h1 : q.attr = p.attr := by
    have : q.val.attr = p.val.attr := by rw [hq.1]; exact (setData_attr p.val d).1
    exact this
  split
  · refine Triple.bind (K := []) (ha { o with props := pre ++ q :: post } q (by simp)) (by fp) ?_
    intro _ _
    exact .pure (by fp) ⟨hq.2, h1, hq.1⟩
  · exact .pure (by fp) ⟨hq.2, h1, hq.1⟩

theorem objSetData_triple {ann : Announcer} {K : List Nat} (ha : AnnOk ann K) (o : HObj) (code : Byte) (d : List Byte) :
    Triple (objF o ++ K) (objSetData ann o code d) (fun r => objF r ++ K) (Grow o) := by
  unfold objSetData
  frame objGetByCode_triple o code
  intro r hr
  frame setDataAt_triple ha o r.1 r.2.1 r.2.2 d
  intro q hq
  exact .pure (by fp) (byCode_grow hr.2 hq.1 hq.2.1)

/-- What `uecho_propertylist_set` does to codes and attributes. -/
def SetShape (o : HObj) (code : Byte) (attr : CInt) (r : HObj) : Prop :=
  ∃ ps pre post, r = { o with props := ps } ∧ shp ps = pre ++ (code, attr) :: post ∧
    ((∃ a, shp o.props = pre ++ (code, a) :: post) ∨ ((∀ q ∈ o.props, q.code ≠ code) ∧ pre = shp o.props ∧ post = []))

theorem objSet_triple {ann : Announcer} {K : List Nat} (ha : AnnOk ann K) (o : HObj) (code : Byte) (attr : CInt) (d : List Byte) :
    Triple (objF o ++ K) (objSet ann o code attr d) (fun r => objF r ++ K) (SetShape o code attr) := by
  unfold objSet
  frame objGetByCode_triple o code
  intro r hr
  frame setDataAt_triple ha o r.1 r.2.1 r.2.2 d
  intro q hq
  frame use_triple q.self
  intro _ _
  refine .pure (by fp) ⟨_, shp r.1, shp r.2.2, rfl, by simp [shp, hq.1, hr.1], ?_⟩
  rcases hr.2 with h | ⟨h0, h1, h2, _⟩
  · exact Or.inl ⟨r.2.1.attr, by rw [h]; simp [shp, hr.1]⟩
  · exact Or.inr ⟨h0, by rw [h1], by rw [h2]; rfl⟩

theorem objSetInteger_triple {ann : Announcer} {K : List Nat} (ha : AnnOk ann K) (o : HObj) (code : Byte) (v : CInt) (size : Nat) (hs : size ≤ 4) :
    Triple (objF o ++ K) (objSetInteger ann o code v size) (fun r => objF r ++ K) (Grow o) := by
  obtain ⟨bs, hb, _⟩ := integer2byte_ok v size hs
  unfold objSetInteger
  frame objGetByCode_triple o code
  intro r hr
  frame malloc_triple
  intro t _
  frame lift_triple hb
  intro b _
  clear hb hs
  frame use_triple t
  intro _ _
  frame setDataAt_triple ha o r.1 r.2.1 r.2.2 b
  intro q hq
  frame free_triple t
  intro _ _
  exact .pure (by fp) (byCode_grow hr.2 hq.1 hq.2.1)

theorem objSetAttr_triple (o : HObj) (code : Byte) (attr : CInt) :
    Triple (objF o) (objSetAttr o code attr) objF (SetShape o code attr) := by
  unfold objSetAttr
  frame objGetByCode_triple o code
  intro r hr
  frame use_triple r.2.1.self
  intro _ _
  refine .pure (by fp) ⟨_, shp r.1, shp r.2.2, rfl, by simp [shp, hr.1], ?_⟩
  rcases hr.2 with h | ⟨h0, h1, h2, _⟩
  · exact Or.inl ⟨r.2.1.attr, by rw [h]; simp [shp, hr.1]⟩
  · exact Or.inr ⟨h0, by rw [h1], by rw [h2]; rfl⟩

theorem objGetData_triple (o : HObj) (code : Byte) : Triple (objF o) (objGetData o code) (fun r => objF r.1) (fun r => Grow o r.1) := by
  unfold objGetData
  frame objGetByCode_triple o code
  intro r hr
  frame propRead_triple r.2.1
  intro d hd
  exact .pure (by fp) (byCode_grow hr.2 rfl rfl)

theorem cachePush_triple (b : Bool) (c : Option (Nat × Unit) × Nat) : Triple (ptr c.1) (cachePush b c) (fun r => ptr r.1)
    (fun r => (b = false ∧ r = c) ∨ (b = true ∧ r.1.isSome = true ∧ r.2 = c.2 + 1)) := by
  unfold cachePush
  split
  next h =>
    frame realloc_triple c.1
    intro a _
    frame use_triple a
    intro _ _
    exact .pure (by fp) (Or.inr ⟨h, rfl, rfl⟩)
  next h => exact .pure (.refl _) (Or.inl ⟨by simpa using h, rfl⟩)

/-- What the loop of `uecho_object_updatepropertymaps` leaves. -/
def Collected (ps : List HProp) (o r : HObj) : Prop :=
  r = { o with get := r.get, getSize := r.getSize, set := r.set, setSize := r.setSize, anno := r.anno, annoSize := r.annoSize } ∧
  r.getSize = o.getSize + (ps.filter fun p => p.val.isReadable).length ∧
  (r.get = none → o.get = none ∧ r.getSize = o.getSize) ∧
  (r.set = none → o.set = none ∧ r.setSize = o.setSize) ∧
  (r.anno = none → o.anno = none ∧ r.annoSize = o.annoSize)

theorem collect_triple (ps : List HProp) : ∀ (o : HObj), Triple (propsF ps ++ ptr o.get ++ ptr o.set ++ ptr o.anno) (collect ps o)
    (fun r => propsF ps ++ ptr r.get ++ ptr r.set ++ ptr r.anno) (Collected ps o) := by
  induction ps with
  | nil => intro o; exact .pure (.refl _) ⟨rfl, by simp, fun h => ⟨h, rfl⟩, fun h => ⟨h, rfl⟩, fun h => ⟨h, rfl⟩⟩
  | cons p ps ih =>
    intro o
    unfold collect
    frame use_triple p.self
    intro _ _
    frame cachePush_triple p.val.isReadable (o.get, o.getSize)
    intro g hg
    frame cachePush_triple p.val.isWritable (o.set, o.setSize)
    intro s hs
    frame cachePush_triple p.val.isAnnounceable (o.anno, o.annoSize)
    intro a ha
    refine .last ?_
    frame ih { o with get := g.1, getSize := g.2, set := s.1, setSize := s.2, anno := a.1, annoSize := a.2 }
    intro r hr
    refine .pure (by fp) ?_
    obtain ⟨h1, h2, h3, h4, h5⟩ := hr
    simp only at h1 h2 h3 h4 h5
    refine ⟨by rw [h1], ?_, ?_, ?_, ?_⟩
    · rw [h2, List.filter_cons]
      rcases hg with ⟨hb, rfl⟩ | ⟨hb, _, e⟩ <;> simp [hb]
      simp only [e]; omega
    · intro h
      obtain ⟨h', h''⟩ := h3 h
      rcases hg with ⟨hb, rfl⟩ | ⟨hb, c, e⟩
      · exact ⟨h', h''⟩
      · rw [h'] at c; cases c
    · intro h
      obtain ⟨h', h''⟩ := h4 h
      rcases hs with ⟨hb, rfl⟩ | ⟨hb, c, e⟩
      · exact ⟨h', h''⟩
      · rw [h'] at c; cases c
    · intro h
      obtain ⟨h', h''⟩ := h5 h
      rcases ha with ⟨hb, rfl⟩ | ⟨hb, c, e⟩
      · exact ⟨h', h''⟩
      · rw [h'] at c; cases c

/-- Only the properties have changed, and readable ones are still there. -/
def KeepsRead (o r : HObj) : Prop := (∃ ps, r = { o with props := ps }) ∧ (hasReadable o = true → hasReadable r = true)

theorem Grow.keeps {o r : HObj} (h : Grow o r) : KeepsRead o r := by
  refine ⟨?_, h.readable⟩
  obtain ⟨ps, t, e, _⟩ := h
  exact ⟨ps, e⟩

theorem KeepsRead.trans {o r s : HObj} (h : KeepsRead o r) (h' : KeepsRead r s) : KeepsRead o s := by
  obtain ⟨⟨ps, rfl⟩, h2⟩ := h
  obtain ⟨⟨ps', rfl⟩, h2'⟩ := h'
  exact ⟨⟨ps', rfl⟩, fun h => h2' (h2 h)⟩

theorem SetShape.keeps {o r : HObj} {code : Byte} (h : SetShape o code Attr.read r) : KeepsRead o r ∧ hasReadable r = true := by
  obtain ⟨ps, pre, post, rfl, e, h⟩ := h
  have : hasReadable { o with props := ps } = true := by
    rw [hasReadable_eq]
    show anyRead (shp ps) = true
    rw [e]
    simp [anyRead, Attr.read, Attr.readRequired]
  exact ⟨⟨⟨ps, rfl⟩, fun _ => this⟩, this⟩

theorem objSetMap_triple {ann : Announcer} {K : List Nat} (ha : AnnOk ann K) (o : HObj) (code : Byte) (c : Option (Nat × Unit)) (size : Nat)
    (hc : c = none → size = 0) (P : List Nat) (hP : ∀ r : HObj, (∃ ps, r = { o with props := ps }) → (objF r).Perm (ptr c ++ P ++ propsF r.props)) :
    Triple (objF o ++ K) (objSetMap ann o code c size) (fun r => objF r ++ K)
      (fun r => KeepsRead o r ∧ (size ≤ 16 → hasReadable r = true)) := by
  unfold objSetMap
  have h0 : ¬ ((c.isNone && size != 0) = true) := by
    cases c with
    | none => simp [hc rfl]
    | some _ => simp
  rw [if_neg h0]
  have hu : Triple (objF o ++ K) (useOpt c) (fun _ => objF o ++ K) (fun _ => True) := by
    have e := hP o ⟨o.props, rfl⟩
    refine (useOpt_triple c).conseq (K := P ++ propsF o.props ++ K) ?_ fun _ _ => ⟨?_, trivial⟩
    · exact (e.append_right K).trans (by perm)
    · exact List.Perm.trans (by perm) (e.symm.append_right K)
  split
  next h =>
    refine hu.bind (K := []) (by simp) fun _ _ => ?_
    refine (objSet_triple ha o code Attr.read _).conseq (K := []) (by simp) fun r hr => ⟨by simp, hr.keeps.1, fun _ => hr.keeps.2⟩
  next h =>
    refine hu.bind (K := []) (by simp) fun _ _ => ?_
    exact (objSetData_triple ha o code _).conseq (K := []) (by simp) fun r hr => ⟨by simp, hr.keeps, fun c => absurd c h⟩

theorem collected_props {ps : List HProp} {o r : HObj} (h : Collected ps o r) : r.props = o.props := by
  rw [h.1]

theorem objUpdateMaps_triple {ann : Announcer} {K : List Nat} (ha : AnnOk ann K) (o : HObj) (hs : mapsSafe o = true) :
    Triple (objF o ++ K) (objUpdateMaps ann o) (fun r => objF r ++ K)
      (fun r => hasReadable r = true ∧ r.grp = o.grp ∧ r.cls = o.cls ∧ r.ins = o.ins ∧ r.obs = o.obs ∧ r.self = o.self) := by
  unfold objUpdateMaps
  frame objClearCaches_triple o
  intro o1 h1
  have f1 : o1.props = o.props ∧ o1.getSize = o.getSize ∧ o1.get = none ∧ o1.set = none ∧ o1.anno = none ∧ o1.setSize = 0 ∧ o1.annoSize = 0 := by
    subst h1; simp
  have c1 : o1.grp = o.grp ∧ o1.cls = o.cls ∧ o1.ins = o.ins ∧ o1.obs = o.obs ∧ o1.self = o.self := by subst h1; simp
  clear h1
  have tc : Triple (objF o1) (collect o1.props o1) objF (Collected o1.props o1) := by
    refine .last ?_
    frame collect_triple o1.props o1
    intro r hr
    refine .pure ?_ hr
    rw [hr.1]
    fp
  frame tc
  intro o2 h2
  obtain ⟨e2, s2, g2, w2, a2⟩ := h2
  have hp2 : o2.props = o1.props := by rw [e2]
  have c2 : o2.grp = o.grp ∧ o2.cls = o.cls ∧ o2.ins = o.ins ∧ o2.obs = o.obs ∧ o2.self = o.self := by
    rw [e2]; simpa using c1
  have hr2 : hasReadable o2 = hasReadable o := by simp [hasReadable, hp2, f1.1]
  have hg : o2.get = none → o2.getSize = 0 := by
    intro h
    have := (g2 h).2
    rw [this, f1.2.1]
    rw [this] at s2
    simp only [mapsSafe, Bool.or_eq_true, beq_iff_eq] at hs
    rcases hs with hs | hs
    · exact hs
    · exfalso
      rw [f1.1] at s2
      have : (o.props.filter fun p => p.val.isReadable) = [] := List.eq_nil_of_length_eq_zero (by omega)
      simp only [hasReadable, List.any_eq_true] at hs
      obtain ⟨p, hp, hp'⟩ := hs
      have := List.filter_eq_nil_iff.1 this p hp
      exact this hp'
  have hw : o2.set = none → o2.setSize = 0 := fun h => by rw [(w2 h).2, f1.2.2.2.2.2.1]
  have hn : o2.anno = none → o2.annoSize = 0 := fun h => by rw [(a2 h).2, f1.2.2.2.2.2.2]
  have hsmall : ¬ o2.getSize ≤ 16 → hasReadable o2 = true := by
    intro h
    rw [hr2]
    simp only [mapsSafe, Bool.or_eq_true, beq_iff_eq] at hs
    rcases hs with hs | hs
    · rw [f1.2.1, hs, f1.1] at s2
      rcases h' : o.props.filter (fun p => p.val.isReadable) with _ | ⟨p, l⟩
      · rw [h'] at s2; simp only [List.length_nil] at s2; omega
      · have : p ∈ o.props.filter (fun p => p.val.isReadable) := by rw [h']; simp
        rw [List.mem_filter] at this
        exact List.any_eq_true.2 ⟨p, this⟩
    · exact hs
  clear e2 s2 g2 w2 a2 tc
  refine (objSetMap_triple ha o2 0x9F o2.get o2.getSize hg
    ([o2.self] ++ strF o2.name ++ [o2.plist] ++ [o2.mgr] ++ [o2.olist] ++ o2.obs.map HObs.self ++ ptr o2.anno ++ ptr o2.set)
    (by rintro r ⟨ps, rfl⟩; fp)).bind (K := []) (by fp) fun o3 h3 => ?_
  obtain ⟨⟨⟨ps3, e3⟩, k3⟩, r3⟩ := h3
  have hr3 : hasReadable o3 = true := by
    by_cases h : o2.getSize ≤ 16
    · exact r3 h
    · exact k3 (hsmall h)
  refine (objSetMap_triple ha o3 0x9E o3.set o3.setSize (by rw [e3]; exact hw)
    ([o3.self] ++ strF o3.name ++ [o3.plist] ++ [o3.mgr] ++ [o3.olist] ++ o3.obs.map HObs.self ++ ptr o3.anno ++ ptr o3.get)
    (by rintro r ⟨ps, rfl⟩; fp)).bind (K := []) (by simp) fun o4 h4 => ?_
  obtain ⟨⟨⟨ps4, e4⟩, k4⟩, -⟩ := h4
  refine (objSetMap_triple ha o4 0x9D o4.anno o4.annoSize (by rw [e4, e3]; exact hn)
    ([o4.self] ++ strF o4.name ++ [o4.plist] ++ [o4.mgr] ++ [o4.olist] ++ o4.obs.map HObs.self ++ ptr o4.set ++ ptr o4.get)
    (by rintro r ⟨ps, rfl⟩; fp)).conseq (K := []) (by simp) fun o5 h5 => ⟨by simp, ?_⟩
  obtain ⟨⟨⟨ps5, e5⟩, k5⟩, -⟩ := h5
  refine ⟨k5 (k4 hr3), ?_⟩
  subst e5 e4 e3
  exact c2

/-- Setting a property so that the maps can be rebuilt afterwards: something readable is left. -/
def SetSafe (o : HObj) (code : Byte) (attr : CInt) : Prop :=
  o.getSize = 0 ∨ (attr &&& (Attr.read ||| Attr.readRequired) != 0) = true ∨ ∃ p ∈ o.props, p.code ≠ code ∧ p.val.isReadable = true

theorem SetShape.safe {o r : HObj} {code : Byte} {attr : CInt} (h : SetShape o code attr r) (hs : SetSafe o code attr) : mapsSafe r = true := by
  obtain ⟨ps, pre, post, rfl, e, h⟩ := h
  simp only [mapsSafe, Bool.or_eq_true, beq_iff_eq]
  rcases hs with hs | hs | ⟨p, hp, hc, hr⟩
  · exact Or.inl hs
  · right
    rw [hasReadable_eq]
    show anyRead (shp ps) = true
    rw [e]
    simp only [anyRead, List.any_append, List.any_cons, Bool.or_eq_true]
    exact Or.inr (Or.inl hs)
  · right
    rw [hasReadable_eq]
    show anyRead (shp ps) = true
    rw [e]
    have hp' : (p.code, p.attr) ∈ shp o.props := List.mem_map.2 ⟨p, hp, rfl⟩
    have : (p.code, p.attr) ∈ pre ++ (code, attr) :: post := by
      rcases h with ⟨a, h⟩ | ⟨_, h1, h2⟩
      · rw [h] at hp'
        simp only [List.mem_append, List.mem_cons, Prod.mk.injEq] at hp' ⊢
        rcases hp' with h | h | h
        · exact Or.inl h
        · exact absurd h.1 hc
        · exact Or.inr (Or.inr h)
      · rw [← h1] at hp'
        exact List.mem_append_left _ hp'
    exact List.any_eq_true.2 ⟨_, this, hr⟩

theorem objSetProperty_triple {ann : Announcer} {K : List Nat} (ha : AnnOk ann K) (o : HObj) (code : Byte) (attr : CInt) (hs : SetSafe o code attr) :
    Triple (objF o ++ K) (objSetProperty ann o code attr) (fun r => objF r ++ K) (fun r => mapsSafe r = true) := by
  unfold objSetProperty
  frame objSet_triple ha o code attr []
  intro o1 h1
  have hsafe := h1.safe hs
  frame objFind_triple o1 code
  intro r hr
  rcases r with _ | ⟨pre, p, post⟩
  · exact .pure (by fp) hsafe
  · simp only at hr ⊢
    refine Triple.perm (P := objF { o1 with props := pre ++ p :: post } ++ K) ?_ (by rw [← hr.1])
    frame use_triple p.self
    intro _ _
    refine (objUpdateMaps_triple ha { o1 with props := pre ++ { p with hasParent := true } :: post } ?_).conseq (K := []) (by fp)
      fun r hr => ⟨by simp, readable_safe hr.1⟩
    have e : shp (pre ++ { p with hasParent := true } :: post) = shp o1.props := by rw [hr.1]; simp [shp]
    have : Grow o1 { o1 with props := pre ++ { p with hasParent := true } :: post } := ⟨_, [], rfl, by rw [e]; simp⟩
    exact this.safe hsafe

theorem objClear_triple (o : HObj) : Triple (objF o) (objClear o) objF (fun r => r.props = []) := by
  unfold objClear
  frame use_triple o.self
  intro _ _
  frame plClear_triple o.plist o.props
  intro _ _
  exact (objClearCaches_triple { o with props := [] }).conseq (K := []) (by fp) fun r hr => ⟨by simp, by rw [hr]⟩

theorem objSetHandler_triple (o : HObj) (esv code : Byte) : Triple (objF o) (objSetHandler o esv code) objF
    (fun r => ∃ l, r = { o with obs := l }) := by
  unfold objSetHandler
  touching
  intro _ _
  rcases h : splitBy (fun x => esv == x.esv && code == x.code) o.obs with _ | ⟨pre, x, post⟩
  · rw [h]
    frame malloc_triple
    intro a _
    exact .pure (by fp) ⟨_, rfl⟩
  · obtain ⟨e, hq⟩ := splitBy_eq h
    rw [h]
    refine Triple.perm (P := [o.self] ++ strF o.name ++ [o.plist] ++ propsF o.props ++ [o.mgr] ++ [o.olist] ++ (pre.map HObs.self ++
      [x.self] ++ post.map HObs.self) ++ ptr o.anno ++ ptr o.set ++ ptr o.get) ?_ (by simp only [objF, e]; simp)
    frame free_triple x.self
    intro _ _
    frame malloc_triple
    intro a _
    exact .pure (by fp) ⟨_, rfl⟩

/-! ### The database -/

theorem dbFind_triple (db : HDb) (g c : Byte) : Triple (dbF db) (dbFind db g c) (fun _ => dbF db) (fun r => ∀ s, r = some s → s ∈ db.objs) := by
  unfold dbFind
  touching
  intro _ _
  exact .pure (by fp) fun s h => List.mem_of_find?_eq_some h

theorem addMissing_triple (ps : List HProp) : ∀ (o : HObj), Triple (propsF ps ++ objF o) (addMissing ps o) (fun r => propsF ps ++ objF r) (Grow o) := by
  induction ps with
  | nil => intro o; exact .pure (by fp) (.refl o)
  | cons p ps ih =>
    intro o
    unfold addMissing
    frame use_triple p.self
    intro _ _
    touching
    intro _ _
    split
    · refine .last ?_
      frame ih o
      intro r hr
      exact .pure (by fp) hr
    next h =>
      have h' : ∀ q ∈ o.props, q.code ≠ p.code := by
        intro q hq c
        exact h (List.any_eq_true.2 ⟨q, hq, by simp [c]⟩)
      frame propCopy_triple p
      intro c hc
      frame objAddProperty_triple o c
      intro o1 h1
      obtain ⟨l, rfl, -, hl⟩ := h1
      rw [hl (by rw [hc.2]; exact h')]
      refine .last ?_
      frame ih { o with props := o.props ++ [{ c with hasParent := true }] }
      intro r hr
      refine .pure (by fp) (Grow.trans ⟨_, [(c.code, c.attr)], rfl, by simp [shp]⟩ hr)

/-- The object keeps its codes and handlers, and the maps can be rebuilt if they could be before. -/
def Ext (o r : HObj) : Prop := r.grp = o.grp ∧ r.cls = o.cls ∧ r.ins = o.ins ∧ r.obs = o.obs ∧ r.getSize = o.getSize ∧
  (hasReadable o = true → hasReadable r = true)

theorem Ext.refl (o : HObj) : Ext o o := ⟨rfl, rfl, rfl, rfl, rfl, id⟩

theorem Ext.trans {o r s : HObj} (h : Ext o r) (h' : Ext r s) : Ext o s := by
  obtain ⟨h1, h2, h3, h4, h5, h6⟩ := h
  obtain ⟨k1, k2, k3, k4, k5, k6⟩ := h'
  exact ⟨k1.trans h1, k2.trans h2, k3.trans h3, k4.trans h4, k5.trans h5, fun h => k6 (h6 h)⟩

theorem Grow.ext {o r : HObj} (h : Grow o r) : Ext o r := by
  have hr := h.readable
  obtain ⟨ps, t, rfl, _⟩ := h
  exact ⟨rfl, rfl, rfl, rfl, rfl, hr⟩

theorem Ext.safe {o r : HObj} (h : Ext o r) (hs : mapsSafe o = true) : mapsSafe r = true := by
  simp only [mapsSafe, Bool.or_eq_true, beq_iff_eq] at hs ⊢
  rcases hs with hs | hs
  · exact Or.inl (by rw [h.2.2.2.2.1, hs])
  · exact Or.inr (h.2.2.2.2.2 hs)

theorem addStandardWith_triple (db : HDb) (o : HObj) (g c : Byte) : Triple (dbF db ++ objF o) (addStandardWith db o g c)
    (fun r => dbF db ++ objF r) (Ext o) := by
  unfold addStandardWith
  frame dbFind_triple db g c
  intro r hr
  rcases r with _ | s
  · exact .pure (by fp) (.refl o)
  · obtain ⟨ds, dl, dos⟩ := db
    obtain ⟨pre, post, e⟩ := List.append_of_mem (hr s rfl)
    simp only at e
    subst e
    simp only
    frame use_triple s.self
    intro _ _
    frame strRead_triple s.name
    intro n _
    frame use_triple o.self
    intro _ _
    frame strSetValue_triple o.name n
    intro nm _
    frame use_triple s.plist
    intro _ _
    refine .last ?_
    frame addMissing_triple s.props { o with name := nm }
    intro r hr
    refine .pure (by fp) (Ext.trans ?_ hr.ext)
    exact ⟨rfl, rfl, rfl, rfl, rfl, id⟩

theorem addStandard_triple (db : HDb) (o : HObj) : Triple (dbF db ++ objF o) (addStandard db o) (fun r => dbF db ++ objF r) (Ext o) := by
  unfold addStandard
  frame addStandardWith_triple db o 0 0
  intro o1 h1
  refine .last ?_
  frame addStandardWith_triple db o1 o1.grp o1.cls
  intro r hr
  exact .pure (by fp) (h1.trans hr)

theorem objSetCode_triple {ann : Announcer} {K : List Nat} (ha : AnnOk ann K) (db : HDb) (o : HObj) (g c i : Byte) (hs : mapsSafe o = true) :
    Triple (dbF db ++ objF o ++ K) (objSetCode ann db o g c i) (fun r => dbF db ++ objF r ++ K)
      (fun r => hasReadable r = true ∧ r.grp = g ∧ r.cls = c ∧ r.ins = i) := by
  unfold objSetCode
  frame use_triple o.self
  intro _ _
  frame addStandard_triple db { o with grp := g, cls := c, ins := i }
  intro o1 h1
  refine .last ?_
  have hs1 : mapsSafe o1 = true := h1.safe hs
  frame objUpdateMaps_triple ha o1 hs1
  intro r hr
  exact .pure (by fp) ⟨hr.1, by rw [hr.2.1, h1.1], by rw [hr.2.2.1, h1.2.1], by rw [hr.2.2.2.1, h1.2.2.1]⟩

theorem objSetGroup_triple (db : HDb) (o : HObj) (g : Byte) : Triple (dbF db ++ objF o) (objSetGroup db o g) (fun r => dbF db ++ objF r)
    (fun r => r.getSize = o.getSize) := by
  unfold objSetGroup
  frame use_triple o.self
  intro _ _
  refine .last ?_
  frame addStandard_triple db { o with grp := g }
  intro r hr
  exact .pure (by fp) hr.2.2.2.2.1

theorem objSetClass_triple (db : HDb) (o : HObj) (c : Byte) : Triple (dbF db ++ objF o) (objSetClass db o c) (fun r => dbF db ++ objF r)
    (fun r => r.getSize = o.getSize) := by
  unfold objSetClass
  frame use_triple o.self
  intro _ _
  refine .last ?_
  frame addStandard_triple db { o with cls := c }
  intro r hr
  exact .pure (by fp) hr.2.2.2.2.1

/-- The blocks of an object pointer. -/
def objOptF : Option HObj → List Nat
  | none => []
  | some o => objF o

theorem deviceNew_triple (db : HDb) : Triple (dbF db) (deviceNew db) (fun r => objOptF r ++ dbF db) (fun _ => True) := by
  unfold deviceNew
  frame objNew_triple
  intro o _
  frame dbFind_triple db 0 0
  intro r hr
  rcases r with _ | s
  · simp only
    frame objDelete_triple o
    intro _ _
    exact .pure (by simp only [objOptF]; fp) trivial
  · obtain ⟨ds, dl, dos⟩ := db
    obtain ⟨pre, post, e⟩ := List.append_of_mem (hr s rfl)
    simp only at e
    subst e
    simp only
    frame use_triple s.plist
    intro _ _
    frame addMissing_triple s.props o
    intro o1 _
    frame objSetData_triple (silent_ok []) o1 0x80 [0x30]
    intro o2 _
    frame objSetData_triple (silent_ok []) o2 0x88 [0x42]
    intro o3 _
    frame objSetData_triple (silent_ok []) o3 0x82 [0, 0, 0x49, 0]
    intro o4 _
    frame objSetData_triple (silent_ok []) o4 0x81 [0]
    intro o5 _
    frame objSetInteger_triple (silent_ok []) o5 0x8A 0 3 (by decide)
    intro o6 _
    exact .pure (by simp only [objOptF]; fp) trivial

theorem nodeProfileNew_triple (db : HDb) (id : List Byte) : Triple (dbF db) (nodeProfileNew db id) (fun r => objF r ++ dbF db)
    (fun r => hasReadable r = true ∧ r.is profileCode = true) := by
  unfold nodeProfileNew
  frame objNew_triple
  intro o ho
  frame objSetCode_triple (silent_ok []) db o 0x0E 0xF0 0x01 (by simp [mapsSafe, ho.2.2.1])
  intro o1 h1
  frame dbFind_triple db 0x0E 0xF0
  intro r hr
  have hp : ∀ r, Ext o1 r → hasReadable r = true ∧ r.is profileCode = true := by
    intro r h
    exact ⟨h.2.2.2.2.2 h1.1, by simp [HObj.is, profileCode, h.1, h.2.1, h.2.2.1, h1.2]⟩
  rcases r with _ | s
  · exact .pure (by fp) (hp o1 (.refl _))
  · obtain ⟨ds, dl, dos⟩ := db
    obtain ⟨pre, post, e⟩ := List.append_of_mem (hr s rfl)
    simp only at e
    subst e
    simp only
    frame use_triple s.plist
    intro _ _
    frame addMissing_triple s.props o1
    intro o2 h2
    frame objSetData_triple (silent_ok []) o2 0x80 [0x30]
    intro o3 h3
    frame objSetData_triple (silent_ok []) o3 0x82 [1, 13, 0, 0x10]
    intro o4 h4
    refine .last ?_
    frame objSetData_triple (silent_ok []) o4 0x83 (0xFE :: id)
    intro o5 h5
    exact .pure (by fp) (hp o5 (((h2.trans h3).trans h4).trans h5).ext)

end Uecho.Lemmas.Blocks
