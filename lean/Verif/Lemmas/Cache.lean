import Verif.Lemmas.Controller
/-! # Lemmas about the controller's cache of property values and the node table -/
set_option linter.unusedSimpArgs false
namespace Uecho.Lemmas
open Uecho Uecho.Spec

theorem hasProperty_iff (o : Obj) (c : Byte) : o.hasProperty c = true ↔ dataOf o c ≠ none := by
  unfold Obj.hasProperty dataOf
  cases o.getProperty c <;> simp

theorem ensureProp (junk : Nat → Byte) {o : Obj} (c : Byte) (hr : Readable o) :
    ∃ o1 a0, Ctrl.ensureProperty junk o c = .ok (o1, a0) ∧
      Readable o1 ∧ objEoj o1 = objEoj o ∧ o1.hasNode = o.hasNode ∧ (∃ p, o1.getProperty c = some p) ∧
      (o.hasProperty c = true → o1 = o) ∧ (∀ k, o.hasProperty k = true → o1.hasProperty k = true) ∧
      (∀ k, ¬ IsMapCode k → dataOf o1 k = if k = c then some ((dataOf o c).getD []) else dataOf o k) := by
  unfold Ctrl.ensureProperty
  by_cases hc : o.hasProperty c = true
  · refine ⟨o, [], by rw [if_pos hc], hr, rfl, rfl, ?_, fun _ => rfl, fun _ h => h, ?_⟩
    · unfold Obj.hasProperty at hc
      exact Option.isSome_iff_exists.1 hc
    · intro k _
      split
      · rename_i e; subst e
        have := (hasProperty_iff o k).1 hc
        cases h : dataOf o k with
        | none => exact absurd h this
        | some d => rfl
      · rfl
  · rw [if_neg hc]
    have hnone : o.getProperty c = none := by
      unfold Obj.hasProperty at hc; simpa using hc
    obtain ⟨o1, a, h1, h2, h3, h4, h5⟩ := setProperty_absent junk Attr.none hnone hr
    have hhas := fun k => setProperty_absent_has junk h1 k
    refine ⟨o1, a, h1, h2, h3, h4, ?_, fun h => absurd h hc, ?_, ?_⟩
    · have : o1.hasProperty c = true := by rw [hhas]; simp
      unfold Obj.hasProperty at this
      exact Option.isSome_iff_exists.1 this
    · intro k hk; rw [hhas, hk]; simp
    · intro k hk
      simp only [IsMapCode, not_or] at hk
      unfold dataOf
      rw [h5 k hk.1 hk.2.1 hk.2.2]
      split
      · rename_i e; subst e; rw [hnone]; rfl
      · rfl

/-- the store of the reported data -/
def storeProp (o : Obj) (c : Byte) (p : Property) (d : List Byte) : Obj :=
  { o with props := Message.modifyFirst c (fun _ => (p.setData d).1) o.props }

theorem storeProp_get {o : Obj} {c : Byte} {p : Property} (hp : o.getProperty c = some p) (d : List Byte) (k : Byte) :
    (storeProp o c p d).getProperty k = if k = c then some { p with data := d } else o.getProperty k := by
  have hcode : p.code = c := find_code hp
  have h0 : PropertyList.getByCode o.props c = (o.props, p) := by
    unfold PropertyList.getByCode
    rw [show PropertyList.find o.props c = some p from hp]
  have : ∀ l : List Property, PropertyList.find l c = some p →
      PropertyList.find (Message.modifyFirst c (fun _ => (p.setData d).1) l) k =
        if k = c then some { p with data := d } else PropertyList.find l k := by
    intro l
    induction l with
    | nil => intro h; simp [PropertyList.find] at h
    | cons q qs ih =>
      intro h
      simp only [Message.modifyFirst]
      by_cases hq : q.code == c
      · rw [if_pos hq]
        have hq' : q.code = c := by simpa using hq
        simp only [PropertyList.find, List.find?_cons, hq, Option.some.injEq] at h
        subst h
        simp only [PropertyList.find, List.find?_cons, setData_fst, hq']
        by_cases hk : k = c
        · simp [hk]
        · have : (c == k) = false := by simpa using fun e => hk e.symm
          simp [hk, this]
      · rw [if_neg hq]
        have hqb : (q.code == c) = false := by simpa using hq
        simp only [PropertyList.find, List.find?_cons, hqb] at h
        have ih' := ih h
        simp only [PropertyList.find, List.find?_cons] at ih' ⊢
        by_cases hk : q.code == k
        · have hne : k ≠ c := by
            intro e; subst e; rw [hqb] at hk; cases hk
          simp [hk, hne]
        · have hkb : (q.code == k) = false := by simpa using hk
          simp only [hkb]; exact ih'
  exact this o.props hp

theorem storeProp_readable {o : Obj} {c : Byte} {p : Property} (hp : o.getProperty c = some p) (d : List Byte)
    (hr : Readable o) : Readable (storeProp o c p d) := by
  unfold Readable storeProp
  simp only
  have key : ∀ l : List Property, PropertyList.find l c = some p → (∃ q ∈ l, q.isReadable = true) →
      ∃ q ∈ Message.modifyFirst c (fun _ => (p.setData d).1) l, q.isReadable = true := by
    intro l
    induction l with
    | nil => intro h; simp [PropertyList.find] at h
    | cons q qs ih =>
      intro h hx
      simp only [Message.modifyFirst]
      by_cases hq : q.code == c
      · rw [if_pos hq]
        simp only [PropertyList.find, List.find?_cons, hq, Option.some.injEq] at h
        subst h
        obtain ⟨r, hr, hrr⟩ := hx
        rcases List.mem_cons.1 hr with rfl | hr
        · exact ⟨(r.setData d).1, by simp, by rw [setData_fst]; exact hrr⟩
        · exact ⟨r, by simp [hr], hrr⟩
      · rw [if_neg hq]
        have hqb : (q.code == c) = false := by simpa using hq
        simp only [PropertyList.find, List.find?_cons, hqb] at h
        obtain ⟨r, hr, hrr⟩ := hx
        rcases List.mem_cons.1 hr with rfl | hr
        · exact ⟨r, by simp, hrr⟩
        · obtain ⟨s, hs, hsr⟩ := ih h ⟨r, hr, hrr⟩
          exact ⟨s, by simp [hs], hsr⟩
  exact key o.props hp hr

theorem isDataEqual_iff (p : Property) (d : List Byte) : p.isDataEqual d = decide (p.data = d) := by
  unfold Property.isDataEqual
  by_cases h : p.data = d
  · simp [h]
  · simp [h]

/-- what a report does to the cached object -/
structure Cached (qs : List Prop8) (o o' : Obj) (u u' : Bool) : Prop where
  read : Readable o'
  eoj : objEoj o' = objEoj o
  node : o'.hasNode = o.hasNode
  keep : ∀ k, o.hasProperty k = true → o'.hasProperty k = true
  data : ∀ k, (¬ IsMapCode k ∨ ∀ q ∈ qs, o.hasProperty q.1 = true) →
    dataOf o' k = (lastOf qs k).or (dataOf o k)
  upd : ((∀ q ∈ qs, ¬ IsMapCode q.1) ∨ ∀ q ∈ qs, o.hasProperty q.1 = true) →
    u' = (u || changes (dataOf o) qs)

theorem changes_congr : ∀ (qs : List Prop8) {σ τ : Byte → Option (List Byte)},
    (∀ q ∈ qs, (σ q.1).getD [] = (τ q.1).getD []) → changes σ qs = changes τ qs
  | [], _, _, _ => rfl
  | q :: qs, σ, τ, h => by
      simp only [changes]
      rw [h q (by simp)]
      congr 1
      apply changes_congr qs
      intro q' hq'
      by_cases e : q'.1 = q.1
      · simp [e]
      · simp only [e, if_false]; exact h q' (by simp [hq'])

theorem mkProp_code (q : Prop8) : (mkProp q).code = q.1 := rfl
theorem mkProp_data (q : Prop8) : (mkProp q).data = q.2 := rfl

theorem updateProps_spec (orc : Oracle) : ∀ (qs : List Prop8) (k : Nat) (o : Obj) (u : Bool), Readable o →
    ∃ o' ann u', Ctrl.updateProps orc k (qs.map mkProp) o u = .ok (o', ann, u') ∧ Cached qs o o' u u'
  | [], k, o, u, hr => by
      refine ⟨o, [], u, rfl, hr, rfl, rfl, fun _ h => h, ?_, ?_⟩
      · intro k _; simp [lastOf]
      · intro _; simp [changes]
  | q :: qs, k, o, u, hr => by
      obtain ⟨o1, a0, h1, h2, h3, h4, ⟨p, h5⟩, h6, h7, h8⟩ := ensureProp (orc.junk k) q.1 hr
      simp only [List.map_cons]
      unfold Ctrl.updateProps
      rw [mkProp_code, mkProp_data]
      have hd1 : dataOf o1 q.1 = some p.data := by unfold dataOf; rw [h5]; rfl
      -- the object after this property
      have hstep : ∃ o2 a2, (∀ u, Readable o2 ∧
          (if p.isDataEqual q.2 then Ctrl.updateProps orc (k + 1) (qs.map mkProp) o1 u >>= fun x =>
              Res.ok (x.1, a0 ++ x.2.1, x.2.2)
            else Ctrl.updateProps orc (k + 1) (qs.map mkProp) (storeProp o1 q.1 p q.2) true >>= fun x =>
              Res.ok (x.1, a0 ++ PropertyList.ann (p.setData q.2) ++ x.2.1, x.2.2)) =
            (Ctrl.updateProps orc (k + 1) (qs.map mkProp) o2 (u || decide (p.data ≠ q.2)) >>= fun x =>
              Res.ok (x.1, a2 ++ x.2.1, x.2.2))) ∧
          objEoj o2 = objEoj o1 ∧ o2.hasNode = o1.hasNode ∧ (∀ c, o1.hasProperty c = true → o2.hasProperty c = true) ∧
          ∀ c, dataOf o2 c = if c = q.1 then some q.2 else dataOf o1 c := by
        by_cases heq : p.data = q.2
        · refine ⟨o1, a0, ?_, rfl, rfl, fun _ h => h, ?_⟩
          · intro u
            refine ⟨h2, ?_⟩
            rw [isDataEqual_iff, if_pos (by simpa using heq)]
            simp [heq]
          · intro c
            split
            · rename_i e; rw [e, hd1, heq]
            · rfl
        · refine ⟨storeProp o1 q.1 p q.2, a0 ++ PropertyList.ann (p.setData q.2), ?_, rfl, rfl, ?_, ?_⟩
          · intro u
            refine ⟨storeProp_readable h5 _ h2, ?_⟩
            rw [isDataEqual_iff, if_neg (by simpa using heq)]
            simp [heq]
          · intro c hc
            unfold Obj.hasProperty at hc ⊢
            rw [storeProp_get h5]
            split
            · rfl
            · exact hc
          · intro c
            unfold dataOf
            rw [storeProp_get h5]
            split <;> rfl
      obtain ⟨o2, a2, hs, g1, g2, g3, g4⟩ := hstep
      obtain ⟨o', ann, u', j1, j2⟩ := updateProps_spec orc qs (k + 1) o2 (u || decide (p.data ≠ q.2)) (hs u).1
      refine ⟨o', a2 ++ ann, u', ?_, ?_⟩
      · have := (hs u).2
        rw [j1] at this
        rw [h1]
        simp only [Res.bind_ok, h5, Res.pure_eq] at this ⊢
        exact this
      · have hk : ∀ c, o.hasProperty c = true → o2.hasProperty c = true := fun c hc => g3 c (h7 c hc)
        refine ⟨j2.read, ?_, ?_, ?_, ?_, ?_⟩
        · rw [j2.eoj, g1, h3]
        · rw [j2.node, g2, h4]
        · intro c hc; exact j2.keep c (hk c hc)
        · intro c hc
          have hc2 : ¬ IsMapCode c ∨ ∀ q ∈ qs, o2.hasProperty q.1 = true := by
            rcases hc with hc | hc
            · exact .inl hc
            · exact .inr fun q' hq' => hk _ (hc q' (by simp [hq']))
          rw [j2.data c hc2, g4 c]
          simp only [lastOf]
          cases lastOf qs c with
          | some d => rfl
          | none =>
            simp only [Option.none_or]
            by_cases hq : c = q.1
            · simp [hq]
            · have hq' : ¬ q.1 = c := fun e => hq e.symm
              simp only [hq, hq', if_false, Option.none_or]
              rcases hc with hc | hc
              · rw [h8 c hc, if_neg hq]
              · rw [h6 (hc q (by simp))]
        · intro hc
          have hc2 : (∀ q ∈ qs, ¬ IsMapCode q.1) ∨ ∀ q ∈ qs, o2.hasProperty q.1 = true := by
            rcases hc with hc | hc
            · exact .inl fun q' hq' => hc q' (by simp [hq'])
            · exact .inr fun q' hq' => hk _ (hc q' (by simp [hq']))
          have hpd : p.data = (dataOf o q.1).getD [] := by
            rcases hc with hc | hc
            · have := h8 q.1 (hc q (by simp))
              rw [hd1] at this; simpa using this
            · rw [← h6 (hc q (by simp)), hd1]; rfl
          rw [j2.upd hc2]
          simp only [changes]
          rw [← hpd, Bool.or_assoc]
          congr 1
          congr 1
          · by_cases e : p.data = q.2 <;> simp [e]
          · apply changes_congr
            intro q' hq'
            rw [g4]
            by_cases e : q'.1 = q.1
            · simp [e]
            · simp only [e, if_false]
              rcases hc with hc | hc
              · rw [h8 _ (hc q' (by simp [hq'])), if_neg e]
              · rw [h6 (hc q (by simp))]

/-! ### discovery -/

theorem getD6 {f : Frame} {d : List Byte} (hs : SearchAnswer f d) (src : Option String) :
    (reqMsg f src).getPropertyByCode 0xD6#8 = .ok (some (mkProp (0xD6, d))) := by
  have hb := hs.2
  have h1 : (reqMsg f src).opc = 1#8 := by simp [reqMsg, parsed, hb]
  have h2 : (reqMsg f src).ep = [mkProp (0xD6, d)] := by simp [reqMsg, parsed, hb]
  unfold Message.getPropertyByCode Message.propGetByCode
  rw [h1, h2]; rfl

theorem handleSearch_nil (e : Endian) (db : Db) (orc : Oracle) (c : Ctrl) {f : Frame} (hs : SearchAnswer f [])
    (src : Option String) : Ctrl.handleSearch e db orc c (reqMsg f src) = .ok (c, []) := by
  unfold Ctrl.handleSearch
  rw [getD6 hs]; rfl

/-- the status of a search answer -/
def searchStatus (c : Ctrl) (a : String) (st : List NodeStatus) : List CEvent :=
  if c.hasNodeListener then st.map (CEvent.status (some a)) else []

theorem handleSearch_spec (e : Endian) (db : Db) (orc : Oracle) {c : Ctrl} (hi : CInv c) {f : Frame} {d : List Byte}
    (hs : SearchAnswer f d) (hd : d ≠ []) (a : String) :
    (∃ i n n', c.getNode (some a) = some n ∧ c.nodes[i]? = some n ∧ n.address = some a ∧
      Ctrl.handleSearch e db orc c (reqMsg f (some a)) = .ok ({ c with nodes := c.nodes.set i n' },
        searchStatus c a (if newCodes (eojs n) (listedCodes d) = [] then [] else [.updated])) ∧
      DInv n' ∧ n'.address = some a ∧ eojs n' = eojs n ++ newCodes (eojs n) (listedCodes d) ∧
      (newCodes (eojs n) (listedCodes d) = [] → n' = n) ∧
      ∀ o ∈ n.objs, objEoj o ≠ profileEoj → o ∈ n'.objs) ∨
    (∃ n', c.getNode (some a) = none ∧ (∀ n ∈ c.nodes, n.address ≠ some a) ∧
      Ctrl.handleSearch e db orc c (reqMsg f (some a)) = .ok ({ c with nodes := c.nodes ++ [n'] },
        searchStatus c a [.added]) ∧
      DInv n' ∧ n'.address = some a ∧ eojs n' = [profileEoj] ++ newCodes [profileEoj] (listedCodes d)) := by
  have hlen : ¬ d.length < 1 := by
    cases d with
    | nil => exact absurd rfl hd
    | cons x xs => simp
  have h2 : (reqMsg f (some a)).fromAddr = some a := rfl
  rcases nodeIdx_spec hi a with ⟨g1, g2, g3⟩ | ⟨i, n, g1, g2, g3, g4⟩
  · right
    obtain ⟨n, eff, k1, k2, k3, k4⟩ := nodeNew e db orc.nodeJunk orc.nodeRnd orc.nodeTid
    have hD : DInv (n.setAddress (some a)) := ⟨⟨k2.inv.codes, k2.inv.node, k2.inv.classes⟩, k2.bound, k2.read⟩
    obtain ⟨n', j1, j2, j3, j4, j5, j6⟩ := searchLoop_spec e db orc d d.length 1 0 (n.setAddress (some a)) false hD (by omega)
    have hx : eojs (n.setAddress (some a)) = [profileEoj] := k3
    rw [hx] at j1 j4
    refine ⟨n', g1, g3, ?_, j2, j3, j4⟩
    unfold Ctrl.handleSearch
    rw [getD6 hs]
    simp only [Res.bind_ok, mkProp_data, hlen, if_false, h2, Ctrl.obtainNode, g2, k1, Res.pure_eq]
    have hrd : rd (c.nodes ++ [n.setAddress (some a)]) c.nodes.length = .ok (n.setAddress (some a)) := by
      unfold rd; simp
    rw [hrd]
    simp only [Res.bind_ok, j1]
    have hset : (c.nodes ++ [n.setAddress (some a)]).set c.nodes.length n' = c.nodes ++ [n'] := by simp
    rw [hset, show n'.address = some a from j3]
    rfl
  · left
    have hD := hi.node n (List.mem_of_getElem? g3)
    obtain ⟨n', j1, j2, j3, j4, j5, j6⟩ := searchLoop_spec e db orc d d.length 1 0 n false hD (by omega)
    refine ⟨i, n, n', g1, g3, g4, ?_, j2, by rw [j3, g4], j4, j5, j6⟩
    unfold Ctrl.handleSearch
    rw [getD6 hs]
    simp only [Res.bind_ok, mkProp_data, hlen, if_false, h2, Ctrl.obtainNode, g2, Res.pure_eq]
    have hrd : rd c.nodes i = .ok n := by
      unfold rd
      rw [g3]
    rw [hrd]
    simp only [Res.bind_ok, j1]
    rw [show n'.address = some a by rw [j3, g4]]
    have : triples (List.drop 1 d) = listedCodes d := rfl
    rw [this]
    by_cases hn : newCodes (eojs n) (listedCodes d) = []
    · simp [hn, searchStatus]
    · simp [hn, searchStatus]

/-! ### reports -/

theorem slots_reported {f : Frame} (hf : f.WF) (src : Option String) :
    (if (reqMsg f src).isReadWrite then Message.slots (reqMsg f src).opcGet (reqMsg f src).epGet
      else Message.slots (reqMsg f src).opc (reqMsg f src).ep) = .ok ((reported f).map mkProp) := by
  have hsl : ∀ ps : List Prop8, ps.length ≤ 255 →
      Message.slots (BitVec.ofNat 8 ps.length) (ps.map mkProp) = .ok (ps.map mkProp) := by
    intro ps h
    unfold Message.slots
    rw [ofNat8_toNat h]
    rw [if_pos (by simp)]
    rw [List.take_of_length_le (by simp)]
  unfold Frame.WF at hf
  cases hb : f.body with
  | plain ps =>
    rw [hb] at hf
    have hrw : (reqMsg f src).isReadWrite = false := isReadWrite_false (m := reqMsg f src) hf.1
    have h1 : (reqMsg f src).opc = BitVec.ofNat 8 ps.length := by simp [reqMsg, parsed, hb]
    have h2 : (reqMsg f src).ep = ps.map mkProp := by simp [reqMsg, parsed, hb]
    rw [hrw, h1, h2]
    simp only [Bool.false_eq_true, if_false, hsl ps hf.2.1, reported, hb]
  | setGet s g =>
    rw [hb] at hf
    have hrw : (reqMsg f src).isReadWrite = true := isReadWrite_true (m := reqMsg f src) hf.1
    have h1 : (reqMsg f src).opcGet = BitVec.ofNat 8 g.length := by simp [reqMsg, parsed, hb]
    have h2 : (reqMsg f src).epGet = g.map mkProp := by simp [reqMsg, parsed, hb]
    rw [hrw, h1, h2]
    simp only [if_true, hsl g hf.2.2.1, reported, hb]

/-- the cached node after a report -/
theorem updateNode_spec (e : Endian) (orc : Oracle) {n : Node} (hD : DInv n) {f : Frame} (hf : f.WF)
    (src : Option String) :
    (destObj n f.seoj = none ∧ Ctrl.updateNode e orc n (reqMsg f src) = .ok (n, false)) ∨
    ∃ i o o' t u, destObj n f.seoj = some o ∧ n.objs[i]? = some o ∧
      (∀ j y, j < i → n.objs[j]? = some y → objEoj y ≠ f.seoj) ∧
      Ctrl.updateNode e orc n (reqMsg f src) = .ok ({ n with objs := n.objs.set i o', lastTid := t }, u) ∧
      Cached (reported f) o o' false u ∧ DInv { n with objs := n.objs.set i o', lastTid := t } := by
  have h1 : (reqMsg f src).getSourceObjectCode = .ok (BitVec.ofNat 32 (eojNat f.seoj)) := codeOfEoj_eq f.seoj
  have hf' := findIdx_dest f.seoj n.objs
  unfold Ctrl.updateNode
  rw [h1]
  simp only [Res.bind_ok]
  cases hd : destObj n f.seoj with
  | none =>
    left
    have hd' := hd
    unfold destObj at hd'
    rw [hd'] at hf'
    simp only at hf'
    rw [hf']
    exact ⟨rfl, rfl⟩
  | some o =>
    right
    have hd' := hd
    unfold destObj at hd'
    rw [hd'] at hf'
    obtain ⟨i, g1, g2, g3⟩ := hf'
    obtain ⟨o', ann, u, j1, j2⟩ := updateProps_spec orc (reported f) 0 o false (hD.read o (destObj_mem hd))
    have hn : o'.hasNode = true := by rw [j2.node]; exact hD.inv.node o (destObj_mem hd)
    refine ⟨i, o, o', iterT ann.length n.lastTid, u, rfl, g2, g3, ?_, j2, ?_⟩
    · rw [g1]
      simp only
      have hsl := slots_reported hf src
      have hrd : rd n.objs i = .ok o := by unfold rd; rw [g2]
      cases hrw : (reqMsg f src).isReadWrite with
      | true =>
        rw [hrw] at hsl
        simp only [if_true] at hsl ⊢
        rw [hsl]
        simp only [Res.bind_ok, hrd, j1, announceAll_eq, hn, if_true, Res.pure_eq]
      | false =>
        rw [hrw] at hsl
        simp only [Bool.false_eq_true, if_false] at hsl ⊢
        rw [hsl]
        simp only [Res.bind_ok, hrd, j1, announceAll_eq, hn, if_true, Res.pure_eq]
    · have hids : SameIds n { n with objs := n.objs.set i o', lastTid := iterT ann.length n.lastTid } :=
        .set g2 ⟨j2.eoj, j2.node⟩ _
      refine ⟨hids.inv hD.inv, hD.bound, ?_⟩
      intro y hy
      rcases List.mem_or_eq_of_mem_set hy with hy | rfl
      · exact hD.read y hy
      · exact j2.read

theorem reports_iff (v : Byte) :
    (Esv.isNotification v || Esv.isReadResponse v || Esv.isNotifyResponse v) = decide (Reports v) := by
  revert v; decide +kernel

/-- statuses of a message from a known node -/
def nodeStatus (esv : Byte) (u : Bool) : List NodeStatus :=
  (if esv = 0x73 then [.announced] else []) ++ (if Esv.isResponse esv then [.responded] else []) ++
    (if u then [.updated] else [])

theorem handleNode_spec (e : Endian) (orc : Oracle) {c : Ctrl} (hi : CInv c) {f : Frame} (hf : f.WF)
    {i : Nat} {n : Node} {a : String} (hn : c.nodes[i]? = some n) (ha : n.address = some a) :
    ∃ n' u, Ctrl.handleNode e orc c i (reqMsg f (some a)) =
        .ok ({ c with nodes := c.nodes.set i n' }, searchStatus c a (nodeStatus f.esv u)) ∧
      DInv n' ∧ n'.address = some a ∧ eojs n' = eojs n ∧
      (¬ (Reports f.esv ∧ (destObj n f.seoj).isSome) → n' = n ∧ u = false) ∧
      (Reports f.esv → ∀ o, destObj n f.seoj = some o → ∃ j o' t, n.objs[j]? = some o ∧
        (∀ l y, l < j → n.objs[l]? = some y → objEoj y ≠ f.seoj) ∧
        n' = { n with objs := n.objs.set j o', lastTid := t } ∧ Cached (reported f) o o' false u) := by
  have hD := hi.node n (List.mem_of_getElem? hn)
  have hrd : rd c.nodes i = .ok n := by unfold rd; rw [hn]
  have hesv : (reqMsg f (some a)).esv = f.esv := rfl
  have hnot : (Esv.isNotification f.esv = true) = (f.esv = 0x73) := by
    simp [Esv.isNotification]
  unfold Ctrl.handleNode
  rw [hrd, hesv]
  simp only [Res.bind_ok, reports_iff, decide_eq_true_eq, Res.pure_eq]
  by_cases hr : Reports f.esv
  · rw [if_pos hr]
    rcases updateNode_spec e orc hD hf (some a) with ⟨g1, g2⟩ | ⟨j, o, o', t, u, g1, g2, g3, g4, g5, g6⟩
    · rw [g2]
      refine ⟨n, false, ?_, hD, ha, rfl, fun _ => ⟨rfl, rfl⟩, ?_⟩
      · simp only [Res.bind_ok, ha, searchStatus, nodeStatus, hnot]
      · intro _ o ho; rw [g1] at ho; cases ho
    · rw [g4]
      refine ⟨_, u, ?_, g6, ha, ?_, ?_, ?_⟩
      · simp only [Res.bind_ok, ha, searchStatus, nodeStatus, hnot]
      · unfold eojs
        exact (SameIds.set g2 ⟨g5.eoj, g5.node⟩ t).eojs
      · intro hc; exact absurd ⟨hr, by rw [g1]; rfl⟩ hc
      · intro _ o1 ho1
        rw [g1] at ho1; cases ho1
        exact ⟨j, o', t, g2, g3, rfl, g5⟩
  · rw [if_neg hr]
    refine ⟨n, false, ?_, hD, ha, rfl, fun _ => ⟨rfl, rfl⟩, fun h => absurd h hr⟩
    simp only [Res.bind_ok, ha, searchStatus, nodeStatus, hnot]

end Uecho.Lemmas
