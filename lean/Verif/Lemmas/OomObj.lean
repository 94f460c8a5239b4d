import Verif.Spec.OomObj
import Verif.Lemmas.Oom
import Verif.Lemmas.HeapFrame
/-! # Ownership of the blocks of an object when requests are refused -/
namespace Uecho.Lemmas.Short
open Uecho.Spec hiding propF secF msgF Call call calls Held onProp onMsg propsF
open Uecho Uecho.Spec.Short Uecho.Oom Uecho.Lemmas.Blocks
open Uecho.Heap (HObs splitBy)

variable {g : Bool}

/-- The blocks of the properties of an object. -/
def opropsF (l : List OProp) : List Nat := l.flatMap propF

theorem opropsF_append (a b : List OProp) : opropsF (a ++ b) = opropsF a ++ opropsF b := List.flatMap_append
theorem opropsF_cons (a : OProp) (b : List OProp) : opropsF (a :: b) = propF a ++ opropsF b := rfl
theorem opropsF_nil : opropsF [] = [] := rfl

theorem opropSelfs (l : List OProp) : l.map OProp.self ⊆ opropsF l := by
  intro x hx
  simp only [List.mem_map] at hx
  obtain ⟨p, hp, rfl⟩ := hx
  exact List.mem_flatMap.2 ⟨p, hp, by simp [propF]⟩

/-- The blocks of an observer manager and its list. -/
def mgrF : Option (Nat × Option Nat) → List Nat
  | none => []
  | some (m, l) => [m] ++ got l

/-- The blocks of the handlers. -/
def obsF (l : List HObs) : List Nat := l.map HObs.self

/-- The blocks of an object. -/
def oobjF (o : OObj) : List Nat :=
  [o.self] ++ opt strF o.name ++ got o.plist ++ opropsF o.props ++ mgrF o.mgr ++ obsF o.obs ++ ptr o.anno ++ ptr o.set ++ ptr o.get

theorem otouch_triple {P l : List Nat} (h : l ⊆ P) : OTriple g P (Oom.touch l) (fun _ => P) (fun _ => True) := onMem_triple (Blocks.touch_triple h)

theorem objClearCaches_triple (o : OObj) : OTriple g ([o.self] ++ ptr o.anno ++ ptr o.set ++ ptr o.get) (Oom.objClearCaches o)
    (fun r => [r.self]) (fun r => r = { o with anno := none, set := none, get := none, annoSize := 0, setSize := 0 }) :=
  (use_triple o.self).bind (K := ptr o.anno ++ ptr o.set ++ ptr o.get) (by perm) fun _ _ =>
    (freeOpt_triple o.anno).bind (K := [o.self] ++ ptr o.set ++ ptr o.get) (by perm) fun _ _ =>
      (freeOpt_triple o.set).bind (K := [o.self] ++ ptr o.get) (by perm) fun _ _ =>
        (freeOpt_triple o.get).bind (K := [o.self]) (by perm) fun _ _ => .pure (by simp) rfl

theorem oplClear_triple (hdr : Nat) (ps : List OProp) : OTriple g ([hdr] ++ opropsF ps) (Oom.plClear hdr ps) (fun _ => [hdr]) (fun _ => True) := by
  induction ps with
  | nil => exact (use_triple hdr).perm (by simp [opropsF])
  | cons p ps ih =>
    unfold Oom.plClear
    refine (otouch_triple (P := [hdr] ++ opropsF (p :: ps)) ?_).bind (K := []) (by simp) fun _ _ => ?_
    · intro x hx
      have := opropSelfs (p :: ps)
      simp only [List.mem_cons] at hx
      rcases hx with rfl | hx
      · simp
      · exact List.mem_append_right _ (this (by simpa using hx))
    · refine (propDelete_triple p).bind (K := [hdr] ++ opropsF ps) (by rw [opropsF_cons]; perm) fun _ _ => ?_
      exact ih.perm (by perm)

theorem mgrNew_triple : OTriple g [] Oom.mgrNew mgrF (fun m => (g = true → m.isSome = true) ∧ ∀ x, m = some x → x.2.isSome = true) := by
  refine malloc_triple.bind (K := []) (by simp) fun a ha => ?_
  cases a with
  | none => exact .pure (by simp [got, mgrF]) ⟨fun h => (by cases ha h), fun _ h => by cases h⟩
  | some a =>
    refine mallocArray_triple.bind (K := [a]) (by simp [got]) fun l hl => ?_
    exact .pure (by simp only [mgrF] <;> perm) ⟨fun _ => rfl, fun _ h => by cases h; exact hl⟩

theorem mgrDelete_triple (m : Option (Nat × Option Nat)) (obs : List HObs) (h : ∀ x, m = some x → x.2 = none → obs = []) (hm : m = none → obs = []) :
    OTriple g (mgrF m ++ obsF obs) (Oom.mgrDelete m obs) (fun _ => []) (fun _ => True) := by
  rcases m with _ | ⟨a, l⟩
  · exact .pure (by simp [mgrF, hm rfl, obsF]) trivial
  refine (use_triple a).bind (K := got l ++ obsF obs) (by simp only [mgrF] <;> perm) fun _ _ => ?_
  refine OTriple.bind (P := got l ++ obsF obs) (F := fun _ => []) (Q := fun _ => True) (K := [a]) ?_ (by perm) fun _ _ =>
    (free_triple a).perm (by simp)
  cases l with
  | none => exact .pure (by simp [got, h _ rfl rfl, obsF]) trivial
  | some l =>
    refine (otouch_triple (P := [l] ++ obsF obs) (by intro x; simp [obsF])).bind (K := []) (by simp [got]) fun _ _ => ?_
    refine (onMem_triple (Blocks.freeAll_triple (obsF obs))).bind (K := [l]) (by perm) fun _ _ => ?_
    exact (free_triple l).perm (by simp)

theorem objDelete_triple (o : OObj) (h : ∀ m, o.mgr = some m → m.2 = none → o.obs = []) (hm : o.mgr = none → o.obs = [])
    (hp : o.plist = none → o.props = []) : OTriple g (oobjF o) (Oom.objDelete o) (fun _ => []) (fun _ => True) := by
  unfold Oom.objDelete
  refine (use_triple o.self).bind (K := opt strF o.name ++ got o.plist ++ opropsF o.props ++ mgrF o.mgr ++ obsF o.obs ++ ptr o.anno ++ ptr o.set ++ ptr o.get)
    (by simp only [oobjF] <;> perm) fun _ _ => ?_
  refine OTriple.bind (P := opt strF o.name) (F := fun _ => []) (Q := fun _ => True)
    (K := [o.self] ++ got o.plist ++ opropsF o.props ++ mgrF o.mgr ++ obsF o.obs ++ ptr o.anno ++ ptr o.set ++ ptr o.get) ?_ (by perm) fun _ _ => ?_
  · cases o.name with
    | none => exact .pure (.refl _) trivial
    | some s => exact onMem_triple (Blocks.strDelete_triple s)
  refine (objClearCaches_triple o).bind (K := got o.plist ++ opropsF o.props ++ mgrF o.mgr ++ obsF o.obs) (by perm) fun r hr => ?_
  subst hr
  refine OTriple.bind (P := got o.plist ++ opropsF o.props) (F := fun _ => []) (Q := fun _ => True)
    (K := [o.self] ++ mgrF o.mgr ++ obsF o.obs) ?_ (by perm) fun _ _ => ?_
  · cases hl : o.plist with
    | none => exact .pure (by simp [got, hp hl, opropsF]) trivial
    | some l =>
      exact (oplClear_triple l o.props).bind (K := []) (by simp [got]) fun _ _ => (free_triple l).perm (by simp)
  exact (mgrDelete_triple o.mgr o.obs h hm).bind (K := [o.self]) (by perm) fun _ _ => (free_triple o.self).perm (by simp)

/-- A property that can be read. -/
def Readable (p : OProp) : Prop := p.val.isReadable = true

/-- An object as `uecho_object_new` and the calls leave it. -/
structure OOk (o : OObj) : Prop where
  name : o.name.isSome = true
  plist : o.plist.isSome = true
  mgr : ∃ m l, o.mgr = some (m, some l)
  props : ∀ p ∈ o.props, POk p ∧ Readable p
  size : o.getSize ≠ 0 → o.props ≠ []

theorem OOk.delete {o : OObj} (h : OOk o) : OTriple g (oobjF o) (Oom.objDelete o) (fun _ => []) (fun _ => True) := by
  obtain ⟨m, l, hm⟩ := h.mgr
  refine objDelete_triple o ?_ ?_ ?_
  · intro x hx hn; rw [hm] at hx; cases hx; cases hn
  · intro hx; rw [hm] at hx; cases hx
  · intro hx; have := h.plist; rw [hx] at this; cases this

theorem objNew_triple : OTriple g [] Oom.objNew (opt oobjF)
    (fun r => (g = true → r.isSome = true) ∧ ∀ o, r = some o → OOk o ∧ o.props = [] ∧ o.obs = []) := by
  unfold Oom.objNew
  refine malloc_triple.bind (K := []) (by simp) fun a ha => ?_
  cases a with
  | none => exact .pure (by simp [got, opt]) ⟨fun h => (by cases ha h), fun _ h => by cases h⟩
  | some a =>
    refine strNew_triple.bind (K := [a]) (by simp [got]) fun s hs => ?_
    refine malloc_triple.bind (K := [a] ++ opt strF s) (by perm) fun p hp => ?_
    refine mgrNew_triple.bind (K := [a] ++ opt strF s ++ got p) (by perm) fun m hm => ?_
    simp only
    split
    next hf =>
      refine (objDelete_triple ⟨a, s, p, [], m, [], none, none, none, 0, 0, 0⟩ (fun _ _ _ => rfl) (fun _ => rfl) (fun _ => rfl)).bind (K := [])
        (by simp only [oobjF, opropsF, obsF, ptr, List.flatMap_nil, List.map_nil] <;> perm) fun _ _ => ?_
      refine .pure (by simp [opt]) ⟨fun h => ?_, fun _ h => by cases h⟩
      have h1 := hs.1 h
      have h2 := hp h
      have h3 := hm.1 h
      cases s <;> cases p <;> cases m <;> simp_all
    next hf =>
      simp only [Bool.or_eq_true, not_or] at hf
      obtain ⟨⟨h1, h2⟩, h3⟩ := hf
      rcases m with _ | ⟨m, l⟩
      · simp at h3
      have hl := hm.2 _ rfl
      cases l with
      | none => cases hl
      | some l =>
        refine .pure (by simp only [opt, oobjF, opropsF, obsF, ptr, List.flatMap_nil, List.map_nil] <;> perm) ⟨fun _ => rfl, fun o ho => ?_⟩
        cases ho
        refine ⟨⟨?_, ?_, ⟨m, l, rfl⟩, fun _ h => (by cases h), fun h => absurd rfl h⟩, rfl, rfl⟩
        · cases s <;> simp_all
        · cases p <;> simp_all

/-- The rest of the object, without its properties. -/
def restF (o : OObj) : List Nat := [o.self] ++ opt strF o.name ++ got o.plist ++ mgrF o.mgr ++ obsF o.obs ++ ptr o.anno ++ ptr o.set ++ ptr o.get

/-- What `objGetByCode` found or made. -/
def Found (o : OObj) (code : Byte) (r : List OProp × OProp × List OProp) : Prop :=
  r.2.1.code = code ∧ POk r.2.1 ∧ Readable r.2.1 ∧ (o.props = r.1 ++ r.2.1 :: r.2.2 ∨ (r.1 = o.props ∧ r.2.2 = []))

theorem propNew_attr : ∀ {s s' : St} {p : OProp}, Oom.propNew s = .ok (some p, s') → p.attr = Attr.readWrite := by
  intro s s' p h
  have bo : ∀ {α β : Type} (x : O α) (k : α → O β) (s : St), (x >>= k) s = x s >>= fun r => k r.1 r.2 := fun _ _ _ => rfl
  unfold Oom.propNew at h
  rw [bo, Res.bind_eq_ok] at h
  obtain ⟨⟨a, s1⟩, _, h⟩ := h
  cases a with
  | none => cases h
  | some a =>
    simp only [bo, Res.bind_eq_ok] at h
    obtain ⟨⟨t, s2⟩, _, h⟩ := h
    cases t with
    | none =>
      simp only [bo, Res.bind_eq_ok] at h
      obtain ⟨⟨t, s2⟩, _, h⟩ := h
      cases h
    | some t => cases h; rfl

theorem propNew_triple' : OTriple g [] Oom.propNew (opt propF)
    (fun r => (g = true → r.isSome = true) ∧ ∀ p, r = some p → Fresh p ∧ p.attr = Attr.readWrite) := by
  intro rest s h
  obtain ⟨a, s', e, o, q⟩ := propNew_triple rest s h
  exact ⟨a, s', e, o, q.1, fun p hp => ⟨q.2 p hp, by subst hp; exact propNew_attr e⟩⟩

theorem objGetByCode_triple (o : OObj) (h : OOk o) (code : Byte) :
    OTriple g (oobjF o) (Oom.objGetByCode o code)
      (fun r => restF o ++ (match r with | none => opropsF o.props | some r => opropsF (r.1 ++ r.2.1 :: r.2.2)))
      (fun r => (g = true → r.isSome = true) ∧ ∀ x, r = some x → Found o code x) := by
  have hk := h.plist
  unfold Oom.objGetByCode
  refine (use_triple o.self).bind (K := opt strF o.name ++ got o.plist ++ opropsF o.props ++ mgrF o.mgr ++ obsF o.obs ++ ptr o.anno ++ ptr o.set ++ ptr o.get)
    (by simp only [oobjF] <;> perm) fun _ _ => ?_
  cases hl : o.plist with
  | none => rw [hl] at hk; cases hk
  | some l =>
    simp only
    refine (otouch_triple (P := [l] ++ opropsF o.props) ?_).bind
      (K := [o.self] ++ opt strF o.name ++ mgrF o.mgr ++ obsF o.obs ++ ptr o.anno ++ ptr o.set ++ ptr o.get) (by simp only [got] <;> perm) fun _ _ => ?_
    · intro x hx
      simp only [List.mem_cons] at hx
      rcases hx with rfl | hx
      · simp
      · exact List.mem_append_right _ (opropSelfs _ hx)
    cases hs : splitBy (fun q => q.code == code) o.props with
    | some r =>
      obtain ⟨pre, p, post⟩ := r
      obtain ⟨e, hc⟩ := splitBy_eq hs
      refine .pure ?_ ⟨fun _ => rfl, fun x hx => ?_⟩
      · simp only [restF, hl, got, ← e]; perm
      · cases hx
        have := h.props p (by rw [e]; simp)
        exact ⟨by simpa using hc, this.1, this.2, Or.inl e⟩
    | none =>
      simp only
      refine propNew_triple'.bind (K := [l] ++ opropsF o.props ++ ([o.self] ++ opt strF o.name ++ mgrF o.mgr ++ obsF o.obs ++ ptr o.anno ++ ptr o.set ++ ptr o.get))
        (by simp) fun p hp => ?_
      cases p with
      | none => exact .pure (by simp only [restF, hl, got, opt]; perm) ⟨fun h => (by cases hp.1 h), fun _ h => by cases h⟩
      | some p =>
        obtain ⟨hf, ha⟩ := hp.2 p rfl
        refine .pure ?_ ⟨fun _ => rfl, fun x hx => ?_⟩
        · simp only [restF, hl, got, opropsF_append, opropsF_cons, opropsF_nil, opt, propF]; perm
        · cases hx
          refine ⟨rfl, hf.ok, ?_, Or.inr ⟨rfl, rfl⟩⟩
          show (Oom.OProp.val { p with code := code }).isReadable = true
          unfold Oom.OProp.val Property.isReadable
          simp only [ha]
          decide

theorem oobjF_rest (o : OObj) : (oobjF o).Perm (restF o ++ opropsF o.props) := by simp only [oobjF, restF]; perm

theorem oobjF_with (o : OObj) (ps : List OProp) : (restF o ++ opropsF ps).Perm (oobjF { o with props := ps }) := by simp only [oobjF, restF]; perm

/-- A call changed at most the property `code`. -/
structure Upd (code : Byte) (o o' : OObj) : Prop where
  same : o' = { o with props := o'.props }
  ok : OOk o'
  keep : ∀ p ∈ o.props, p.code ≠ code → p ∈ o'.props
  others : ∀ cs : List Byte, code ∈ cs → others cs o' = others cs o

theorem Upd.refl {o : OObj} (h : OOk o) (code : Byte) : Upd code o o := ⟨rfl, h, fun _ h _ => h, fun _ _ => rfl⟩

theorem Found.upd {o : OObj} {code : Byte} {r : List OProp × OProp × List OProp} (hf : Found o code r) (h : OOk o) {q : OProp}
    (hc : q.code = code) (hq : POk q) (hr : Readable q) : Upd code o { o with props := r.1 ++ q :: r.2.2 } := by
  obtain ⟨pre, p, post⟩ := r
  obtain ⟨h1, h2, h3, h4⟩ := hf
  simp only at h1 h2 h3 h4 ⊢
  have hmem : ∀ x, x ∈ pre ∨ x ∈ post → x ∈ o.props := by
    rcases h4 with h4 | ⟨h4, h5⟩
    · rw [h4]; intro x hx; simp only [List.mem_append, List.mem_cons]; rcases hx with hx | hx
      · exact .inl hx
      · exact .inr (.inr hx)
    · subst h4 h5; intro x hx; simpa using hx
  refine ⟨rfl, ⟨h.name, h.plist, h.mgr, ?_, fun _ => by simp⟩, ?_, ?_⟩
  · intro x hx
    simp only [List.mem_append, List.mem_cons] at hx
    rcases hx with hx | rfl | hx
    · exact h.props x (hmem x (.inl hx))
    · exact ⟨hq, hr⟩
    · exact h.props x (hmem x (.inr hx))
  · intro x hx hn
    rcases h4 with h4 | ⟨h4, h5⟩
    · rw [h4] at hx
      simp only [List.mem_append, List.mem_cons] at hx ⊢
      rcases hx with hx | rfl | hx
      · exact .inl hx
      · exact absurd h1 hn
      · exact .inr (.inr hx)
    · subst h4; simp [hx]
  · intro cs hcs
    have hd : ∀ (x : OProp), x.code = code → (!cs.contains (propView x).1) = false := by
      intro x hx; simp [propView, hx, hcs]
    unfold Spec.Short.others objView
    rcases h4 with h4 | ⟨h4, h5⟩
    · rw [h4]
      simp only [List.map_append, List.map_cons, List.filter_append]
      rw [List.filter_cons_of_neg (by rw [hd q hc]; simp), List.filter_cons_of_neg (by rw [hd p h1]; simp)]
    · subst h4 h5
      simp only [List.map_append, List.map_cons, List.filter_append, List.map_nil]
      rw [List.filter_cons_of_neg (by rw [hd q hc]; simp)]
      simp

theorem readable_of_attr {p q : OProp} (h : q.attr = p.attr) (hp : Readable p) : Readable q := by
  unfold Readable Oom.OProp.val Property.isReadable at *
  rw [h]; exact hp

theorem propSetData_attr (p : OProp) (d : List Byte) {s s' : St} {r : Bool × OProp} (h : Oom.propSetData p d s = .ok (r, s')) : r.2.attr = p.attr := by
  have bo : ∀ {α β : Type} (x : O α) (k : α → O β) (s : St), (x >>= k) s = x s >>= fun r => k r.1 r.2 := fun _ _ _ => rfl
  have hcl : ∀ {s : St} {q : OProp} {s' : St}, Oom.propClearData p s = .ok (q, s') → q.attr = p.attr := by
    intro s q s' h
    unfold Oom.propClearData at h
    simp only [bo, Res.bind_eq_ok] at h
    obtain ⟨_, _, _, _, h⟩ := h
    cases h; rfl
  have hco : ∀ {s : St} {q : Bool × OProp} {s' : St}, Oom.propSetCount p d.length s = .ok (q, s') → q.2.attr = p.attr := by
    intro s q s' h
    unfold Oom.propSetCount at h
    simp only [bo, Res.bind_eq_ok] at h
    obtain ⟨⟨q1, s1⟩, h1, h⟩ := h
    have := hcl h1
    by_cases hz : d.length = 0
    · rw [if_pos hz] at h; cases h; exact this
    · rw [if_neg hz, bo, Res.bind_eq_ok] at h
      obtain ⟨⟨a, s2⟩, _, h⟩ := h
      cases a with
      | none => cases h; exact this
      | some a => cases h; exact this
  unfold Oom.propSetData at h
  simp only [bo, Res.bind_eq_ok] at h
  obtain ⟨⟨q, s1⟩, h1, h⟩ := h
  have := hco h1
  by_cases hq : q.1 = true
  · rw [if_pos hq] at h
    cases hd : q.2.data with
    | none =>
      simp only [hd] at h
      by_cases hz : d.length = 0
      · rw [if_pos hz] at h; cases h; exact this
      · rw [if_neg hz] at h; cases h
    | some a =>
      simp only [hd, bo, Res.bind_eq_ok] at h
      obtain ⟨_, _, h⟩ := h
      cases h; exact this
  · rw [if_neg hq] at h; cases h; exact this

theorem propSetData_triple' (p : OProp) (d : List Byte) :
    OTriple g (propF p) (Oom.propSetData p d) (fun r => propF r.2)
      (fun r => POk r.2 ∧ (Heap.bytesOf r.2.data = d ∨ Heap.bytesOf r.2.data = []) ∧ (g = true → r.1 = true ∧ Heap.bytesOf r.2.data = d) ∧
        r.2.code = p.code ∧ r.2.attr = p.attr) := by
  intro rest s h
  obtain ⟨r, s', e, o, q1, q2, q3, q4, q5⟩ := propSetData_triple p d rest s h
  refine ⟨r, s', e, o, q1, ?_, fun hg => ⟨q4 hg, q2 (q4 hg)⟩, q5, propSetData_attr p d e⟩
  cases hr : r.1 with
  | true => exact .inl (q2 hr)
  | false => exact .inr (q3 hr)

/-- What `uecho_propertylist_set` leaves. -/
theorem objSet_triple (o : OObj) (h : OOk o) (code : Byte) (attr : CInt) (ha : attr &&& (Attr.read ||| Attr.readRequired) ≠ 0) (d : List Byte) :
    OTriple g (oobjF o) (Oom.objSet o code attr d) (fun r => oobjF r.2)
      (fun r => (g = true → r.1 = true) ∧ (r.1 = false → r.2 = o) ∧ Upd code o r.2 ∧
        (r.1 = true → ∃ p ∈ r.2.props, p.code = code ∧ p.attr = attr ∧ (Heap.bytesOf p.data = d ∨ Heap.bytesOf p.data = []))) := by
  refine (objGetByCode_triple o h code).bind (K := []) (by simp) fun r hr => ?_
  cases r with
  | none => exact .pure (by simpa using (oobjF_rest o).symm) ⟨fun hg => (by cases hr.1 hg), fun _ => rfl, .refl h code, fun h => by cases h⟩
  | some r =>
    have hf := hr.2 r rfl
    refine (propSetData_triple' r.2.1 d).bind (K := restF o ++ opropsF r.1 ++ opropsF r.2.2)
      (by simp only [opropsF_append, opropsF_cons]; perm) fun q hq => ?_
    refine (use_triple q.2.self).bind (K := strF q.2.name ++ ptr q.2.data ++ (restF o ++ opropsF r.1 ++ opropsF r.2.2))
      (by simp only [propF] <;> perm) fun _ _ => ?_
    refine .pure ?_ ⟨fun _ => rfl, fun h => (by cases h), ?_, fun _ => ?_⟩
    · refine List.Perm.trans ?_ (oobjF_with o _)
      simp only [opropsF_append, opropsF_cons, propF]; perm
    · refine hf.upd h (hq.2.2.2.1.trans hf.1) hq.1 ?_
      unfold Readable Oom.OProp.val Property.isReadable
      simpa using ha
    · exact ⟨{ q.2 with attr := attr }, by simp, hq.2.2.2.1.trans hf.1, rfl, hq.2.1⟩

theorem objSetData_triple (o : OObj) (h : OOk o) (code : Byte) (d : List Byte) :
    OTriple g (oobjF o) (Oom.objSetData o code d) (fun r => oobjF r.2)
      (fun r => (g = true → r.1 = true) ∧ (r.1 = false → r.2 = o) ∧ Upd code o r.2 ∧
        (r.1 = true → ∃ p ∈ r.2.props, p.code = code ∧ (Heap.bytesOf p.data = d ∨ Heap.bytesOf p.data = []) ∧ (g = true → Heap.bytesOf p.data = d))) := by
  refine (objGetByCode_triple o h code).bind (K := []) (by simp) fun r hr => ?_
  cases r with
  | none => exact .pure (by simpa using (oobjF_rest o).symm) ⟨fun hg => (by cases hr.1 hg), fun _ => rfl, .refl h code, fun h => by cases h⟩
  | some r =>
    have hf := hr.2 r rfl
    refine (propSetData_triple' r.2.1 d).bind (K := restF o ++ opropsF r.1 ++ opropsF r.2.2)
      (by simp only [opropsF_append, opropsF_cons]; perm) fun q hq => ?_
    refine .pure ?_ ⟨fun _ => rfl, fun h => (by cases h), ?_, fun _ => ?_⟩
    · refine List.Perm.trans ?_ (oobjF_with o _)
      simp only [opropsF_append, opropsF_cons]; perm
    · exact hf.upd h (hq.2.2.2.1.trans hf.1) hq.1 (readable_of_attr hq.2.2.2.2 hf.2.2.1)
    · exact ⟨q.2, by simp, hq.2.2.2.1.trans hf.1, hq.2.1, fun hg => (hq.2.2.1 hg).2⟩

theorem objSetAttr_triple (o : OObj) (h : OOk o) (code : Byte) (attr : CInt) (ha : attr &&& (Attr.read ||| Attr.readRequired) ≠ 0) :
    OTriple g (oobjF o) (Oom.objSetAttr o code attr) (fun r => oobjF r.2)
      (fun r => (g = true → r.1 = true) ∧ (r.1 = false → r.2 = o) ∧ Upd code o r.2 ∧ (r.1 = true → ∃ p ∈ r.2.props, p.code = code ∧ p.attr = attr)) := by
  refine (objGetByCode_triple o h code).bind (K := []) (by simp) fun r hr => ?_
  cases r with
  | none => exact .pure (by simpa using (oobjF_rest o).symm) ⟨fun hg => (by cases hr.1 hg), fun _ => rfl, .refl h code, fun h => by cases h⟩
  | some r =>
    have hf := hr.2 r rfl
    refine (use_triple r.2.1.self).bind (K := strF r.2.1.name ++ ptr r.2.1.data ++ (restF o ++ opropsF r.1 ++ opropsF r.2.2))
      (by simp only [opropsF_append, opropsF_cons, propF] <;> perm) fun _ _ => ?_
    refine .pure ?_ ⟨fun _ => rfl, fun h => (by cases h), ?_, fun _ => ?_⟩
    · refine List.Perm.trans ?_ (oobjF_with o _)
      simp only [opropsF_append, opropsF_cons, propF]; perm
    · refine hf.upd h hf.1 hf.2.1 ?_
      unfold Readable Oom.OProp.val Property.isReadable
      simpa using ha
    · exact ⟨{ r.2.1 with attr := attr }, by simp, hf.1, rfl⟩

theorem objRead_triple (o : OObj) (h : OOk o) (code : Byte) :
    OTriple g (oobjF o) (Oom.objRead o code) (fun r => oobjF r.2)
      (fun r => (g = true → r.1.isSome = true) ∧ (r.1 = none → r.2 = o) ∧ Upd code o r.2 ∧
        (∀ l, r.1 = some l → ∃ p ∈ r.2.props, p.code = code ∧ l = Heap.bytesOf p.data)) := by
  refine (objGetByCode_triple o h code).bind (K := []) (by simp) fun r hr => ?_
  cases r with
  | none => exact .pure (by simpa using (oobjF_rest o).symm) ⟨fun hg => (by cases hr.1 hg), fun _ => rfl, .refl h code, fun _ h => by cases h⟩
  | some r =>
    have hf := hr.2 r rfl
    refine (propRead_triple r.2.1 hf.2.1).bind (K := restF o ++ opropsF r.1 ++ opropsF r.2.2)
      (by simp only [opropsF_append, opropsF_cons] <;> perm) fun d hd => ?_
    refine .pure ?_ ⟨fun _ => rfl, fun h => (by cases h), ?_, fun l hl => ?_⟩
    · refine List.Perm.trans ?_ (oobjF_with o _)
      simp only [opropsF_append, opropsF_cons]; perm
    · exact hf.upd h hf.1 hf.2.1 hf.2.2.1
    · cases hl
      exact ⟨r.2.1, by simp, hf.1, hd⟩

theorem propSetInteger_attr (p : OProp) (v : CInt) (n : Nat) {s s' : St} {r : Bool × OProp} (h : Oom.propSetInteger p v n s = .ok (r, s'))
    (hc : ∀ d s s' r, Oom.propSetData p d s = .ok (r, s') → r.2.code = p.code) : r.2.attr = p.attr ∧ r.2.code = p.code := by
  have bo : ∀ {α β : Type} (x : O α) (k : α → O β) (s : St), (x >>= k) s = x s >>= fun r => k r.1 r.2 := fun _ _ _ => rfl
  unfold Oom.propSetInteger at h
  rw [bo, Res.bind_eq_ok] at h
  obtain ⟨⟨a, s1⟩, _, h⟩ := h
  cases a with
  | none => cases h; exact ⟨rfl, rfl⟩
  | some a =>
    simp only [bo, Res.bind_eq_ok] at h
    obtain ⟨⟨b, _⟩, _, _, _, ⟨q, _⟩, h1, _, _, h⟩ := h
    cases h
    exact ⟨propSetData_attr p b h1, hc _ _ _ _ h1⟩

theorem propSetData_code (p : OProp) (d : List Byte) (s s' : St) (r : Bool × OProp) (h : Oom.propSetData p d s = .ok (r, s')) : r.2.code = p.code := by
  have bo : ∀ {α β : Type} (x : O α) (k : α → O β) (s : St), (x >>= k) s = x s >>= fun r => k r.1 r.2 := fun _ _ _ => rfl
  have hcl : ∀ {s : St} {q : OProp} {s' : St}, Oom.propClearData p s = .ok (q, s') → q.code = p.code := by
    intro s q s' h
    unfold Oom.propClearData at h
    simp only [bo, Res.bind_eq_ok] at h
    obtain ⟨_, _, _, _, h⟩ := h
    cases h; rfl
  have hco : ∀ {s : St} {q : Bool × OProp} {s' : St}, Oom.propSetCount p d.length s = .ok (q, s') → q.2.code = p.code := by
    intro s q s' h
    unfold Oom.propSetCount at h
    simp only [bo, Res.bind_eq_ok] at h
    obtain ⟨⟨q1, s1⟩, h1, h⟩ := h
    have := hcl h1
    by_cases hz : d.length = 0
    · rw [if_pos hz] at h; cases h; exact this
    · rw [if_neg hz, bo, Res.bind_eq_ok] at h
      obtain ⟨⟨a, s2⟩, _, h⟩ := h
      cases a with
      | none => cases h; exact this
      | some a => cases h; exact this
  unfold Oom.propSetData at h
  simp only [bo, Res.bind_eq_ok] at h
  obtain ⟨⟨q, s1⟩, h1, h⟩ := h
  have := hco h1
  by_cases hq : q.1 = true
  · rw [if_pos hq] at h
    cases hd : q.2.data with
    | none =>
      simp only [hd] at h
      by_cases hz : d.length = 0
      · rw [if_pos hz] at h; cases h; exact this
      · rw [if_neg hz] at h; cases h
    | some a =>
      simp only [hd, bo, Res.bind_eq_ok] at h
      obtain ⟨_, _, h⟩ := h
      cases h; exact this
  · rw [if_neg hq] at h; cases h; exact this

theorem objSetInteger_triple (o : OObj) (h : OOk o) (code : Byte) (v : CInt) (n : Nat) {b : List Byte} (hb : integer2byte v n = .ok b) :
    OTriple g (oobjF o) (Oom.objSetInteger o code v n) (fun r => oobjF r.2) (fun r => (g = true → r.1 = true) ∧ Upd code o r.2) := by
  refine (objGetByCode_triple o h code).bind (K := []) (by simp) fun r hr => ?_
  cases r with
  | none => exact .pure (by simpa using (oobjF_rest o).symm) ⟨fun hg => (by cases hr.1 hg), .refl h code⟩
  | some r =>
    have hf := hr.2 r rfl
    have t : OTriple g (propF r.2.1) (Oom.propSetInteger r.2.1 v n) (fun q => propF q.2)
        (fun q => (POk q.2 ∧ (g = true → q.1 = true)) ∧ q.2.attr = r.2.1.attr ∧ q.2.code = r.2.1.code) := by
      intro rest s hs
      obtain ⟨q, s', e, ow, hq⟩ := propSetInteger_triple r.2.1 hf.2.1 v n hb rest s hs
      exact ⟨q, s', e, ow, hq, propSetInteger_attr _ _ _ e (propSetData_code _)⟩
    refine t.bind (K := restF o ++ opropsF r.1 ++ opropsF r.2.2) (by simp only [opropsF_append, opropsF_cons]; perm) fun q hq => ?_
    refine .pure ?_ ⟨hq.1.2, ?_⟩
    · refine List.Perm.trans ?_ (oobjF_with o _)
      simp only [opropsF_append, opropsF_cons]; perm
    · exact hf.upd h (hq.2.2.trans hf.1) hq.1.1 (readable_of_attr hq.2.1 hf.2.2.1)

/-! ### The property maps -/

theorem cachePush_triple (b : Bool) (c : Option (Nat × Unit) × Nat) :
    OTriple g (ptr c.1) (Oom.cachePush b c) (fun r => ptr r.1)
      (fun r => (b = true → r.1.isSome = true) ∧ (c.1.isSome = true → r.1.isSome = true) ∧ ((c.1 = none → c.2 = 0) → r.1 = none → r.2 = 0)) := by
  unfold Oom.cachePush
  split
  next hb =>
    refine mallocArray_triple.bind (K := ptr c.1) (by simp) fun a ha => ?_
    cases a with
    | none => cases ha
    | some a =>
      refine (freeOpt_triple c.1).bind (K := [a]) (by simp only [got] <;> perm) fun _ _ => ?_
      refine (use_triple a).bind (K := []) (by simp) fun _ _ => ?_
      exact .pure (by simp [ptr]) ⟨fun _ => rfl, fun _ => rfl, fun _ h => by cases h⟩
  next hb => exact .pure (.refl _) ⟨fun h => absurd h hb, id, id⟩

/-- What the loop leaves: only the caches changed. -/
structure Collected (o o' : OObj) : Prop where
  same : o' = { o with get := o'.get, getSize := o'.getSize, set := o'.set, setSize := o'.setSize, anno := o'.anno, annoSize := o'.annoSize }
  get : o.get.isSome = true → o'.get.isSome = true
  set : (o.set = none → o.setSize = 0) → o'.set = none → o'.setSize = 0
  anno : (o.anno = none → o.annoSize = 0) → o'.anno = none → o'.annoSize = 0

theorem collect_triple (ps : List OProp) (o : OObj) (hr : ∀ p ∈ ps, Readable p) :
    OTriple g (opropsF ps ++ ptr o.get ++ ptr o.set ++ ptr o.anno) (Oom.collect ps o)
      (fun r => opropsF ps ++ ptr r.get ++ ptr r.set ++ ptr r.anno)
      (fun r => Collected o r ∧ (ps ≠ [] → r.get.isSome = true) ∧ (ps = [] → r = o)) := by
  induction ps generalizing o with
  | nil => exact .pure (.refl _) ⟨⟨rfl, id, id, id⟩, fun h => absurd rfl h, fun _ => rfl⟩
  | cons p ps ih =>
    unfold Oom.collect
    refine (use_triple p.self).bind (K := strF p.name ++ ptr p.data ++ opropsF ps ++ ptr o.get ++ ptr o.set ++ ptr o.anno)
      (by simp only [opropsF_cons, propF] <;> perm) fun _ _ => ?_
    refine (cachePush_triple p.val.isReadable (o.get, o.getSize)).bind
      (K := [p.self] ++ strF p.name ++ ptr p.data ++ opropsF ps ++ ptr o.set ++ ptr o.anno) (by perm) fun x hx => ?_
    refine (cachePush_triple p.val.isWritable (o.set, o.setSize)).bind
      (K := [p.self] ++ strF p.name ++ ptr p.data ++ opropsF ps ++ ptr x.1 ++ ptr o.anno) (by perm) fun y hy => ?_
    refine (cachePush_triple p.val.isAnnounceable (o.anno, o.annoSize)).bind
      (K := [p.self] ++ strF p.name ++ ptr p.data ++ opropsF ps ++ ptr x.1 ++ ptr y.1) (by perm) fun z hz => ?_
    refine (ih { o with get := x.1, getSize := x.2, set := y.1, setSize := y.2, anno := z.1, annoSize := z.2 }
      (fun q hq => hr q (by simp [hq]))).conseq (K := propF p) (by simp only [propF] <;> perm) fun r h => ⟨?_, ?_⟩
    · simp only [opropsF_cons]; perm
    · obtain ⟨⟨h1, h2, h3, h4⟩, h5, h6⟩ := h
      have hgx : r.get.isSome = true := h2 (hx.1 (hr p (by simp)))
      refine ⟨⟨?_, fun _ => hgx, fun h => h3 (hy.2.2 h), fun h => h4 (hz.2.2 h)⟩, fun _ => hgx, fun h => by cases h⟩
      rw [h1]

theorem objSetMap_triple (o : OObj) (h : OOk o) (code : Byte) (c : Option (Nat × Unit)) (size : Nat) (K : List Nat) (hk : (oobjF o).Perm (ptr c ++ K))
    (hc : c = none → size = 0) :
    OTriple g (oobjF o) (Oom.objSetMap o code c size) oobjF (fun r => Upd code o r) := by
  unfold Oom.objSetMap
  rw [if_neg (by
    simp only [Bool.and_eq_true, Option.isNone_iff_eq_none, bne_iff_ne, ne_eq, not_and, Decidable.not_not]
    exact hc)]
  split
  · refine (useOpt_triple c).bind (K := K) hk fun _ _ => ?_
    refine (objSet_triple o h code Attr.read (by decide) _).bind (K := []) (by simpa using hk.symm) fun r hr => ?_
    exact .pure (by simp) hr.2.2.1
  · refine (useOpt_triple c).bind (K := K) hk fun _ _ => ?_
    refine (objSetData_triple o h code _).bind (K := []) (by simpa using hk.symm) fun r hr => ?_
    exact .pure (by simp) hr.2.2.1

/-- What the maps were rebuilt from stays. -/
structure Rebuilt (o o' : OObj) : Prop where
  ok : OOk o'
  obs : o'.obs = o.obs
  keep : ∀ p ∈ o.props, p.code ∉ mapCodes → p ∈ o'.props
  others : ∀ cs : List Byte, (∀ c ∈ mapCodes, c ∈ cs) → others cs o' = others cs o

theorem objUpdateMaps_triple (o : OObj) (h : OOk o) (hn : o.props ≠ []) :
    OTriple g (oobjF o) (Oom.objUpdateMaps o) oobjF (fun r => Rebuilt o r) := by
  unfold Oom.objUpdateMaps
  refine (objClearCaches_triple o).bind (K := opt strF o.name ++ got o.plist ++ opropsF o.props ++ mgrF o.mgr ++ obsF o.obs)
    (by simp only [oobjF] <;> perm) fun o1 h1 => ?_
  subst h1
  refine (collect_triple o.props { o with anno := none, set := none, get := none, annoSize := 0, setSize := 0 } (fun p hp => (h.props p hp).2)).bind
    (K := [o.self] ++ opt strF o.name ++ got o.plist ++ mgrF o.mgr ++ obsF o.obs) (by simp only [ptr] <;> perm) fun o2 h2 => ?_
  obtain ⟨⟨s1, _, s3, s4⟩, s5, _⟩ := h2
  have hg := s5 hn
  have hset := s3 (fun _ => rfl)
  have hanno := s4 (fun _ => rfl)
  have e1 : o2.self = o.self := by rw [s1]
  have e2 : o2.name = o.name := by rw [s1]
  have e3 : o2.plist = o.plist := by rw [s1]
  have e4 : o2.mgr = o.mgr := by rw [s1]
  have e5 : o2.obs = o.obs := by rw [s1]
  have e6 : o2.props = o.props := by rw [s1]
  have k2 : OOk o2 := ⟨e2 ▸ h.name, e3 ▸ h.plist, e4 ▸ h.mgr, e6 ▸ h.props, fun _ => e6 ▸ hn⟩
  refine (objSetMap_triple o2 k2 0x9F o2.get o2.getSize
    ([o2.self] ++ opt strF o2.name ++ got o2.plist ++ opropsF o2.props ++ mgrF o2.mgr ++ obsF o2.obs ++ ptr o2.anno ++ ptr o2.set)
    (by simp only [oobjF]; perm) (fun hx => by rw [hx] at hg; cases hg)).bind (K := [])
    (by simp only [oobjF, e1, e2, e3, e4, e5, e6]; perm) fun o3 u3 => ?_
  have f1 : o3.set = o2.set := by rw [u3.same]
  have f2 : o3.setSize = o2.setSize := by rw [u3.same]
  have f3 : o3.anno = o2.anno := by rw [u3.same]
  have f4 : o3.annoSize = o2.annoSize := by rw [u3.same]
  have f5 : o3.obs = o2.obs := by rw [u3.same]
  refine (objSetMap_triple o3 u3.ok 0x9E o3.set o3.setSize
    ([o3.self] ++ opt strF o3.name ++ got o3.plist ++ opropsF o3.props ++ mgrF o3.mgr ++ obsF o3.obs ++ ptr o3.anno ++ ptr o3.get)
    (by simp only [oobjF]; perm) (by rw [f1, f2]; exact hset)).bind (K := []) (by simp) fun o4 u4 => ?_
  have f6 : o4.anno = o3.anno := by rw [u4.same]
  have f7 : o4.annoSize = o3.annoSize := by rw [u4.same]
  have f8 : o4.obs = o3.obs := by rw [u4.same]
  refine (objSetMap_triple o4 u4.ok 0x9D o4.anno o4.annoSize
    ([o4.self] ++ opt strF o4.name ++ got o4.plist ++ opropsF o4.props ++ mgrF o4.mgr ++ obsF o4.obs ++ ptr o4.set ++ ptr o4.get)
    (by simp only [oobjF]; perm) (by rw [f6, f7, f3, f4]; exact hanno)).conseq (K := []) (by simp) fun o5 u5 => ⟨by simp, ?_⟩
  have f9 : o5.obs = o4.obs := by rw [u5.same]
  refine ⟨u5.ok, by rw [f9, f8, f5, e5], fun p hp hm => ?_, fun cs hcs => ?_⟩
  · simp only [mapCodes, List.mem_cons, List.not_mem_nil, or_false, not_or] at hm
    exact u5.keep p (u4.keep p (u3.keep p (e6 ▸ hp) hm.2.2) hm.2.1) hm.1
  · rw [u5.others cs (hcs _ (by simp [mapCodes])), u4.others cs (hcs _ (by simp [mapCodes])), u3.others cs (hcs _ (by simp [mapCodes]))]
    unfold Spec.Short.others objView
    rw [e6]

theorem objSetProperty_triple (o : OObj) (h : OOk o) (code : Byte) (attr : CInt) (ha : attr &&& (Attr.read ||| Attr.readRequired) ≠ 0) :
    OTriple g (oobjF o) (Oom.objSetProperty o code attr) (fun r => oobjF r.2)
      (fun r => (g = true → r.1 = true) ∧ OOk r.2 ∧ (r.1 = false → r.2 = o) ∧
        (r.1 = true → OnlyProps (code :: mapCodes) o r.2 ∧ ((∃ p ∈ r.2.props, propView p = (code, attr, [])) ∨ code ∈ mapCodes))) := by
  unfold Oom.objSetProperty
  refine (objSet_triple o h code attr ha []).bind (K := []) (by simp) fun r hr => ?_
  obtain ⟨h1, h2, h3, h4⟩ := hr
  by_cases hb : r.1 = true
  · rw [if_pos hb]
    obtain ⟨p, hp, hc, hat, hd⟩ := h4 hb
    refine (objUpdateMaps_triple r.2 h3.ok (List.ne_nil_of_mem hp)).bind (K := []) (by simp) fun o' ho => ?_
    have e5 : r.2.obs = o.obs := by rw [h3.same]
    refine .pure (by simp) ⟨fun _ => rfl, ho.ok, fun h => (by cases h), fun _ => ⟨⟨?_, ?_⟩, ?_⟩⟩
    · rw [ho.others _ (fun c hc => List.mem_cons_of_mem _ hc), h3.others _ (by simp)]
    · unfold handlersOf; rw [ho.obs, e5]
    · by_cases hm : code ∈ mapCodes
      · exact .inr hm
      · refine .inl ⟨p, ho.keep p hp (hc ▸ hm), ?_⟩
        unfold propView
        rw [hc, hat]
        rcases hd with hd | hd <;> rw [hd]
  · rw [if_neg hb]
    have hb' : r.1 = false := by simpa using hb
    refine .pure (by simp) ⟨fun hg => absurd (h1 hg) hb, h3.ok, fun _ => h2 hb', fun h => by cases h⟩

/-! ### Handlers -/

theorem erase_split {e c : Byte} : ∀ {l pre post : List HObs} {x : HObs}, splitBy (fun x => e == x.esv && c == x.code) l = some (pre, x, post) →
    (pre ++ post).map (fun x => (x.esv, x.code)) = (l.map fun x => (x.esv, x.code)).erase (e, c) := by
  intro l
  induction l with
  | nil => intro _ _ _ h; cases h
  | cons y l ih =>
    intro pre post x h
    simp only [splitBy] at h
    split at h
    next hy =>
      cases h
      simp only [Bool.and_eq_true, beq_iff_eq] at hy
      simp [hy.1, hy.2]
    next hy =>
      cases hs : splitBy (fun x => e == x.esv && c == x.code) l with
      | none => rw [hs] at h; cases h
      | some r =>
        rw [hs] at h
        cases h
        have := ih hs
        rw [List.map_cons, List.erase_cons_tail, List.cons_append, List.map_cons, this]
        simp only [Bool.and_eq_true, beq_iff_eq, not_and] at hy
        intro hh
        simp only [beq_iff_eq, Prod.mk.injEq] at hh
        exact hy hh.1.symm hh.2.symm

theorem erase_none {e c : Byte} {l : List HObs} (h : splitBy (fun x => e == x.esv && c == x.code) l = none) :
    (l.map fun x => (x.esv, x.code)).erase (e, c) = l.map fun x => (x.esv, x.code) := by
  apply List.erase_of_not_mem
  intro hm
  simp only [List.mem_map, Prod.mk.injEq] at hm
  obtain ⟨x, hx, h1, h2⟩ := hm
  have := splitBy_none h x hx
  simp [h1, h2] at this

theorem objSetHandler_triple (o : OObj) (h : OOk o) (e c : Byte) :
    OTriple g (oobjF o) (Oom.objSetHandler o e c) (fun r => oobjF r.2)
      (fun r => (g = true → r.1 = true) ∧ OOk r.2 ∧ objView r.2 = objView o ∧
        handlersOf r.2 = (handlersOf o).erase (e, c) ++ (if r.1 then [(e, c)] else [])) := by
  obtain ⟨m, l, hm⟩ := h.mgr
  unfold Oom.objSetHandler
  refine (use_triple o.self).bind (K := opt strF o.name ++ got o.plist ++ opropsF o.props ++ mgrF o.mgr ++ obsF o.obs ++ ptr o.anno ++ ptr o.set ++ ptr o.get)
    (by simp only [oobjF] <;> perm) fun _ _ => ?_
  rw [hm]
  simp only
  refine (otouch_triple (P := [m] ++ [l] ++ obsF o.obs) (by intro x hx; simpa [obsF] using hx)).bind
    (K := [o.self] ++ opt strF o.name ++ got o.plist ++ opropsF o.props ++ ptr o.anno ++ ptr o.set ++ ptr o.get) (by simp only [mgrF, got] <;> perm)
    fun _ _ => ?_
  have t : OTriple g (obsF o.obs) (Oom.dropHandler o.obs e c) (fun r => obsF r) (fun r => r.map (fun x => (x.esv, x.code)) = (handlersOf o).erase (e, c)) := by
    unfold Oom.dropHandler
    cases hs : splitBy (fun x => e == x.esv && c == x.code) o.obs with
    | none => exact .pure (.refl _) (erase_none hs).symm
    | some r =>
      obtain ⟨pre, x, post⟩ := r
      obtain ⟨eq, _⟩ := splitBy_eq hs
      refine (free_triple x.self).bind (K := obsF pre ++ obsF post) ?_ fun _ _ => .pure (by simp [obsF]) (erase_split hs)
      rw [eq]; unfold obsF
      rw [List.map_append, List.map_cons, show x.self :: List.map HObs.self post = [x.self] ++ List.map HObs.self post from rfl]
      perm
  refine t.bind (K := [m] ++ [l] ++ ([o.self] ++ opt strF o.name ++ got o.plist ++ opropsF o.props ++ ptr o.anno ++ ptr o.set ++ ptr o.get)) (by perm)
    fun obs hobs => ?_
  refine malloc_triple.bind (K := obsF obs ++ ([m] ++ [l] ++ ([o.self] ++ opt strF o.name ++ got o.plist ++ opropsF o.props ++ ptr o.anno ++ ptr o.set ++ ptr o.get)))
    (by perm) fun a ha => ?_
  cases a with
  | none =>
    refine .pure (by simp only [oobjF, got, mgrF, hm]; perm) ⟨fun hg => (by cases ha hg), ⟨h.name, h.plist, ⟨m, l, rfl⟩, h.props, h.size⟩, rfl, ?_⟩
    unfold handlersOf; simp [hobs, handlersOf]
  | some a =>
    refine .pure ?_ ⟨fun _ => rfl, ⟨h.name, h.plist, ⟨m, l, rfl⟩, h.props, h.size⟩, rfl, ?_⟩
    · simp only [oobjF, got, mgrF, hm, obsF, List.map_append, List.map_cons, List.map_nil]; perm
    · unfold handlersOf; simp [hobs, handlersOf]

/-! ### Histories -/

theorem Upd.only {code : Byte} {o o' : OObj} (u : Upd code o o') : OnlyProps [code] o o' :=
  ⟨u.others _ (by simp), by unfold handlersOf; rw [u.same]⟩

theorem objCall_triple (o : OObj) (h : OOk o) (c : ObjCall) (hc : c.Fair) :
    OTriple g (oobjF o) (objCall o c) (fun r => oobjF r.2) (fun r => OOk r.2 ∧ ObjMeans o c r.1 r.2 ∧ (g = true → ObjExpected c r.1)) := by
  cases c with
  | setProperty c a =>
    refine (objSetProperty_triple o h c a hc).bind (K := []) (by simp) fun r hr => .pure (by simp) ⟨hr.2.1, ?_, fun hg => ?_⟩
    · show ObjMeans o (.setProperty c a) (.done r.1) r.2
      cases hb : r.1 with
      | true => exact hr.2.2.2 hb
      | false => have := hr.2.2.1 hb; exact ⟨by rw [this], by rw [this]⟩
    · show Reply.done r.1 = .done true
      rw [hr.1 hg]
  | setData c d =>
    refine (objSetData_triple o h c d).bind (K := []) (by simp) fun r hr => .pure (by simp) ⟨hr.2.2.1.ok, ?_, fun hg => ?_⟩
    · show ObjMeans o (.setData c d) (.done r.1) r.2
      cases hb : r.1 with
      | true =>
        obtain ⟨p, hp, h1, h2, _⟩ := hr.2.2.2 hb
        exact ⟨hr.2.2.1.only, p, hp, h1, h2⟩
      | false => have := hr.2.1 hb; exact ⟨by rw [this], by rw [this]⟩
    · show Reply.done r.1 = .done true
      rw [hr.1 hg]
  | setInteger c v n =>
    obtain ⟨b, hb⟩ : ∃ b, integer2byte v n = .ok b := by
      obtain ⟨h1, h2⟩ := hc
      obtain rfl | rfl | rfl | rfl : n = 1 ∨ n = 2 ∨ n = 3 ∨ n = 4 := by omega
      all_goals exact ⟨_, rfl⟩
    refine (objSetInteger_triple o h c v n hb).bind (K := []) (by simp) fun r hr => .pure (by simp) ⟨hr.2.ok, ?_, fun hg => ?_⟩
    · exact hr.2.only
    · show Reply.done r.1 = .done true
      rw [hr.1 hg]
  | setAttr c a =>
    refine (objSetAttr_triple o h c a hc).bind (K := []) (by simp) fun r hr => .pure (by simp) ⟨hr.2.2.1.ok, ?_, fun hg => ?_⟩
    · show ObjMeans o (.setAttr c a) (.done r.1) r.2
      cases hb : r.1 with
      | true => exact ⟨hr.2.2.1.only, hr.2.2.2 hb⟩
      | false => have := hr.2.1 hb; exact ⟨by rw [this], by rw [this]⟩
    · show Reply.done r.1 = .done true
      rw [hr.1 hg]
  | setHandler e c =>
    refine (objSetHandler_triple o h e c).bind (K := []) (by simp) fun r hr => .pure (by simp) ⟨hr.2.1, ?_, fun hg => ?_⟩
    · show ObjMeans o (.setHandler e c) (.done r.1) r.2
      have := hr.2.2.2
      cases hb : r.1 with
      | true => rw [hb] at this; exact ⟨hr.2.2.1, this⟩
      | false => rw [hb] at this; exact ⟨hr.2.2.1, by simpa using this⟩
    · show Reply.done r.1 = .done true
      rw [hr.1 hg]
  | read c =>
    refine (objRead_triple o h c).bind (K := []) (by simp) fun r hr => .pure (by simp) ⟨hr.2.2.1.ok, ?_, fun hg => ?_⟩
    · obtain ⟨r1, r2⟩ := r
      cases r1 with
      | none => have := hr.2.1 rfl; simp only at this; exact ⟨by rw [this], by rw [this]⟩
      | some l =>
        obtain ⟨p, hp, h1, h2⟩ := hr.2.2.2 l rfl
        exact ⟨hr.2.2.1.only, p, hp, h1, by rw [h2]⟩
    · have := hr.1 hg
      obtain ⟨r1, r2⟩ := r
      cases r1 with
      | none => cases this
      | some l => trivial

theorem objCalls_triple (cs : List ObjCall) (hcs : ∀ c ∈ cs, c.Fair) (o : OObj) (h : OOk o) :
    OTriple g (oobjF o) (objCalls cs o) (fun r => oobjF r.2) (fun r => OOk r.2) := by
  induction cs generalizing o with
  | nil => exact .pure (.refl _) h
  | cons c cs ih =>
    unfold objCalls
    refine (objCall_triple o h c (hcs c (by simp))).bind (K := []) (by simp) fun r hr => ?_
    exact (ih (fun x hx => hcs x (by simp [hx])) r.2 hr.1).bind (K := []) (by simp) fun q hq => .pure (by simp) hq

end Uecho.Lemmas.Short
