import Verif.Lemmas.Network
/-! Lemmas for C102: the objects a controller lists for a node. -/
namespace Uecho.Lemmas
open Uecho Uecho.Spec Uecho.Props

/-- the instance list 0xD6 of the profile is right and no other object has one -/
structure Kept (n : Node) : Prop where
  inv : NInv n
  device : ∀ o ∈ n.objs, objEoj o ≠ profileEoj → ∀ d, dataOf o 0xD6 = some d → d = []
  profile : ∀ o ∈ n.objs, objEoj o = profileEoj → dataOf o 0xD6 = some (instanceListData (instances n))

theorem nodup_dest {n : Node} (h : (n.objs.map objEoj).Nodup) {o : Obj} (ho : o ∈ n.objs) : destObj n (objEoj o) = some o := by
  unfold destObj
  revert ho h
  generalize n.objs = l
  induction l with
  | nil => simp
  | cons y ys ih =>
    intro h ho
    simp only [List.map_cons, List.nodup_cons, List.mem_map, not_exists, not_and] at h
    rw [List.find?_cons]
    rcases List.mem_cons.1 ho with rfl | ho
    · simp
    · have : objEoj y ≠ objEoj o := fun he => h.1 o ho he.symm
      have hb : (objEoj y == objEoj o) = false := by simpa using this
      rw [hb]; exact ih h.2 ho

/-- only the values of some objects have changed, and not those of 0xD6 -/
theorem Kept.same {n n' : Node} (h : Kept n) (hs : SameIds n n')
    (hd : ∀ o' ∈ n'.objs, ∃ o ∈ n.objs, objEoj o = objEoj o' ∧ dataOf o' 0xD6 = dataOf o 0xD6) : Kept n' := by
  have hins : instances n' = instances n := by unfold instances; rw [hs.eojs]
  refine ⟨hs.inv h.inv, ?_, ?_⟩
  · intro o' ho' hne
    obtain ⟨o, ho, he, hd⟩ := hd o' ho'
    rw [hd]; exact h.device o ho (by rw [he]; exact hne)
  · intro o' ho' hp
    obtain ⟨o, ho, he, hd⟩ := hd o' ho'
    rw [hd, hins]; exact h.profile o ho (by rw [he]; exact hp)

theorem Kept.objs {n n' : Node} (h : Kept n) (h1 : n'.objs = n.objs) (h2 : n'.classes = n.classes) : Kept n' :=
  h.same ⟨by rw [h1], h2⟩ (fun o ho => ⟨o, by rw [← h1]; exact ho, rfl, rfl⟩)

theorem addObject_kept {e : Endian} {n n' : Node} {o : Obj} {eff : List Effect} {r : Bool} (h : Kept n)
    (ho : objEoj o = profileEoj ∨ ∀ d, dataOf o 0xD6 = some d → d = []) (ha : n.addObject e o = .ok (n', eff, r)) : Kept n' := by
  rcases addObject_ids e ha with ⟨rfl, _⟩ | ⟨hnew, hids⟩
  · exact h
  rw [addObject_new e hnew] at ha
  have hinv := appended_inv h.inv hnew
  have hins : instances n' = instances (appended n o) := by unfold instances; rw [hids.eojs]
  have hdev : ∀ y ∈ (appended n o).objs, objEoj y ≠ profileEoj → ∀ d, dataOf y 0xD6 = some d → d = [] := by
    intro y hy hne
    simp only [appended, List.mem_append, List.mem_singleton] at hy
    rcases hy with hy | rfl
    · exact h.device y hy hne
    · rcases ho with ho | ho
      · exact absurd ho hne
      · exact ho
  refine ⟨hids.inv hinv, ?_, ?_⟩
  · intro y hy hne
    exact hdev y (updateProfile_objs ha y hy hne) hne
  · intro y hy hp
    rw [hins]
    cases hd : destObj (appended n o) profileEoj with
    | none =>
      rw [updateProfile_none e hd] at ha
      simp only [Res.ok.injEq, Prod.mk.injEq] at ha
      rw [← ha.1] at hy
      have := nodup_dest hinv.codes hy
      rw [hp, hd] at this; cases this
    | some p =>
      obtain ⟨i, p', eff', t, h1, h2, h3, h4, _, _, _, h8, _⟩ := updateProfile_some e hd (hinv.node p (destObj_mem hd))
      rw [h4] at ha
      simp only [Res.ok.injEq, Prod.mk.injEq] at ha
      have hp' : objEoj p' = profileEoj := by rw [h3.eoj]; exact destObj_code hd
      have hdest : destObj n' profileEoj = some p' := by
        rw [← ha.1]; unfold destObj; simp only
        rw [Props.find_set (y := profileEoj) h1 h2 (destObj_code hd) hp', if_pos rfl]
      have := nodup_dest (hids.inv hinv).codes hy
      rw [hp, hdest] at this
      cases this
      exact h8

theorem onObj_kept {e : Endian} {n n' : Node} {i : Nat} {f : Obj → Res Obj.Out} {eff : List Effect} (h : Kept n)
    (hf : ∀ o o' a, n.objs[i]? = some o → f o = .ok (o', a) →
      objEoj o' = objEoj o ∧ o'.hasNode = o.hasNode ∧ dataOf o' 0xD6 = dataOf o 0xD6)
    (ha : n.onObj e i f = .ok (n', eff)) : Kept n' := by
  unfold Node.onObj at ha
  split at ha
  · cases ha
  · rename_i o ho
    simp only [Res.bind_eq_ok, announceAll_eq, Res.ok.injEq] at ha
    obtain ⟨⟨o', a⟩, h1, ha⟩ := ha
    obtain ⟨g1, g2, g3⟩ := hf o o' a ho h1
    have key : ∀ t, Kept { n with objs := n.objs.set i o', lastTid := t } := by
      intro t
      refine h.same (.set ho ⟨g1, g2⟩ t) ?_
      intro y hy
      rcases List.mem_or_eq_of_mem_set hy with hy | rfl
      · exact ⟨y, hy, rfl, rfl⟩
      · exact ⟨o, List.mem_of_getElem? ho, g1.symm, g3⟩
    simp only at ha
    split at ha <;> simp only [Prod.mk.injEq] at ha <;> rw [← ha.1] <;> exact key _

theorem setManufacturerCode_data {v : CInt} {o o' : Obj} {a : List Property} (h : o.setManufacturerCode v = .ok (o', a)) :
    objEoj o' = objEoj o ∧ o'.hasNode = o.hasNode ∧ dataOf o' 0xD6 = dataOf o 0xD6 ∧ ∀ p ∈ a, p.code ≠ 0xD6 := by
  unfold Obj.setManufacturerCode at h
  obtain ⟨bs, h1, _⟩ := setPropertyIntegerData_eq o 0x8A#8 v 3 (by omega)
  rw [h1] at h
  simp only [Res.ok.injEq] at h
  have hd := setPropertyData_data o 0x8A#8 0xD6 bs
  have hfr := setPropertyData_frame o 0x8A#8 bs
  have hann : ∀ p ∈ (o.setPropertyData 0x8A#8 bs).2, p.code = 0x8A#8 := by
    intro p hp
    simp only [Obj.setPropertyData, PropertyList.setData] at hp
    rw [(ann_setData hp).1]
    unfold PropertyList.getByCode
    split
    · rename_i q hq
      exact getProperty_code (o := o) hq
    · rfl
  rw [h] at hd hfr hann
  refine ⟨hfr.eoj, hfr.node, hd, ?_⟩
  intro p hp hc
  rw [hann p hp] at hc
  exact absurd hc (by decide)

theorem setManufacturerCode_kept {e : Endian} {v : CInt} : ∀ {is : List Nat} {n n' : Node} {eff : List Effect}, Kept n →
    Node.setManufacturerCode e v is n = .ok (n', eff) → Kept n'
  | [], n, n', eff, hk, h => by
      simp only [Node.setManufacturerCode, Res.ok.injEq, Prod.mk.injEq] at h
      rw [← h.1]; exact hk
  | i :: is, n, n', eff, hk, h => by
      simp only [Node.setManufacturerCode, Res.bind_eq_ok, Res.pure_eq, Res.ok.injEq, Prod.mk.injEq] at h
      obtain ⟨⟨n1, _⟩, h1, ⟨_, _⟩, h2, rfl, _⟩ := h
      refine setManufacturerCode_kept (onObj_kept hk ?_ h1) h2
      intro o o' a _ hf
      have := setManufacturerCode_data hf
      exact ⟨this.1, this.2.1, this.2.2.1⟩

theorem announce_objs {e : Endian} {n n' : Node} {eff : List Effect} (h : n.announce e = .ok (n', eff)) :
    n'.objs = n.objs ∧ n'.classes = n.classes := by
  unfold Node.announce at h
  split at h
  · simp only [Res.ok.injEq, Prod.mk.injEq] at h
    rw [← h.1]; exact ⟨rfl, rfl⟩
  · split at h
    · simp only [Res.ok.injEq, Prod.mk.injEq] at h
      rw [← h.1]; exact ⟨rfl, rfl⟩
    · rw [announceProperty_eq] at h
      simp only [Res.ok.injEq, Prod.mk.injEq] at h
      rw [← h.1]; exact ⟨rfl, rfl⟩

theorem receive_kept {e : Endian} {n n' : Node} {g : Datagram} {eff : List Effect} (hk : Kept n) (hn : HandlersSet n)
    (hp : ∀ x, ¬ Overwrites x 0xD6 g) (h : n.receive e g.loc (some g.sender) g.bytes = .ok (n', eff)) : Kept n' := by
  have hids := receive_ids e h
  refine hk.same hids ?_
  intro o' ho'
  have hmem : objEoj o' ∈ n.objs.map objEoj := by rw [← hids.eojs]; exact List.mem_map.2 ⟨o', ho', rfl⟩
  obtain ⟨o, ho, he⟩ := List.mem_map.1 hmem
  have hd := nodup_dest hk.inv.codes ho
  obtain ⟨o2, h1, _, _, h2⟩ := receive_at hn h (objEoj o) hd
  have hd' := nodup_dest (hids.inv hk.inv).codes ho'
  rw [he, hd'] at h1
  cases h1
  refine ⟨o, ho, he, ?_⟩
  unfold dataOf
  rw [h2 0xD6 (hp _)]

theorem empty_D6 {o : Obj} (h : Empty o) : ∀ d, dataOf o 0xD6 = some d → d = [] := fun d => h 0xD6 d (by decide)

theorem setObject_kept {e : Endian} {db : Db} (hdb : Blank db) {junk : Nat → Byte} {n n' : Node} {c : CInt} {eff : List Effect} {r : Bool}
    (hk : Kept n) (h : n.setObject e db junk c = .ok (n', eff, r)) : Kept n' := by
  unfold Node.setObject at h
  split at h
  · simp only [Res.ok.injEq, Prod.mk.injEq] at h
    rw [← h.1]; exact hk
  · simp only [Res.bind_eq_ok] at h
    obtain ⟨⟨o, a⟩, h1, h2⟩ := h
    exact addObject_kept hk (.inr (empty_D6 (setCode_empty hdb h1))) h2

theorem kept_none (t : BitVec 32) : Kept ⟨[], [], t, none, [], false⟩ :=
  ⟨⟨by simp, by simp, rfl⟩, by simp, by simp⟩

theorem profileNew_eoj {db : Db} {junk rnd : Nat → Byte} {o : Obj} (h : NodeProfile.new db junk rnd = .ok o) :
    objEoj o = profileEoj := by
  obtain ⟨o1, h1, h2, _⟩ := profileNew db junk rnd
  rw [h1] at h
  simp only [Res.ok.injEq] at h
  rw [← h]; exact h2

theorem new_kept {e : Endian} {db : Db} {junk rnd : Nat → Byte} {t : BitVec 32} {n : Node} {eff : List Effect}
    (h : Node.new e db junk rnd t = .ok (n, eff)) : Kept n := by
  unfold Node.new at h
  simp only [Res.bind_eq_ok, Res.pure_eq, Res.ok.injEq, Prod.mk.injEq] at h
  obtain ⟨o, h0, ⟨n1, _, _⟩, h, rfl, rfl⟩ := h
  exact (addObject_kept (kept_none t) (.inl (profileNew_eoj h0)) h).objs rfl rfl

theorem act_kept {e : Endian} {db : Db} (hdb : Blank db) {n n' : Node} {x : Act} {eff : List Effect} (hk : Kept n)
    (hs : x.Sane e n) (hp : Plain n x) (h : x.run e db n = .ok (n', eff)) : Kept n' := by
  cases x with
  | addObject o =>
    simp only [Act.run, Res.bind_eq_ok, Res.pure_eq, Res.ok.injEq, Prod.mk.injEq] at h
    obtain ⟨⟨_, _, _⟩, h, rfl, _⟩ := h
    exact addObject_kept hk hp h
  | setObject junk c =>
    simp only [Act.run, Res.bind_eq_ok, Res.pure_eq, Res.ok.injEq, Prod.mk.injEq] at h
    obtain ⟨⟨_, _, _⟩, h, rfl, _⟩ := h
    exact setObject_kept hdb hk h
  | clear =>
    simp only [Act.run, Res.ok.injEq, Prod.mk.injEq] at h
    rw [← h.1]
    exact ⟨⟨by simp [Node.clear], by simp [Node.clear], rfl⟩, by simp [Node.clear], by simp [Node.clear]⟩
  | edit i f => exact onObj_kept hk (fun o o' a h1 h2 => ⟨(hp o o' a h1 h2).1, (hp o o' a h1 h2).2.1, (hp o o' a h1 h2).2.2.1⟩) h
  | setManufacturerCode v => exact setManufacturerCode_kept hk h
  | announce => exact hk.objs (announce_objs h).1 (announce_objs h).2
  | start b => exact hk.objs (announce_objs h).1 (announce_objs h).2
  | announceMessage m =>
    simp only [Act.run, Res.bind_eq_ok, Res.pure_eq, Res.ok.injEq, Prod.mk.injEq] at h
    obtain ⟨⟨_, _, _⟩, h, rfl, _⟩ := h
    rw [announceMessage_eq e n (reachable_inv hs)] at h
    simp only [Res.ok.injEq] at h
    split at h <;> simp only [Prod.mk.injEq] at h <;> rw [← h.1] <;> exact hk.objs rfl rfl
  | sendMessage a m =>
    simp only [Act.run, Res.bind_eq_ok, Res.pure_eq, Res.ok.injEq, Prod.mk.injEq] at h
    obtain ⟨⟨_, _, _⟩, h, rfl, _⟩ := h
    rw [sendMessage_ids e h]
    exact hk.objs rfl rfl
  | receive g => exact receive_kept hk hs hp h
  | _ =>
    simp only [Act.run, Res.ok.injEq, Prod.mk.injEq] at h
    rw [← h.1]; exact hk.objs rfl rfl

/-! ### the instance lists a node sends -/

/-- an instance list of the node at some moment, or nothing -/
def Listed (past : List Node) (d : List Byte) : Prop := d = [] ∨ ∃ p ∈ past, d = instanceListData (instances p)

/-- the sections of a frame have no more properties than a frame can say -/
def Small (f : Frame) : Prop :=
  match f.body with
  | .plain ps => ps.length ≤ 255
  | .setGet _ _ => IsSetGet f.esv

def OkFrame (past : List Node) (f : Frame) : Prop :=
  Small f ∧ ∀ d, SearchAnswer f d → d.length ≤ 255 ∧ Listed past d

def OkSent (past : List Node) (sent : List Effect) : Prop :=
  ∀ to bs, Effect.send to bs ∈ sent → ∃ f, bs = (encode f).map some ∧ OkFrame past f

theorem OkFrame.mono {a b : List Node} {f : Frame} (h : OkFrame a f) (hs : ∀ p ∈ a, p ∈ b) : OkFrame b f := by
  refine ⟨h.1, fun d hd => ⟨(h.2 d hd).1, ?_⟩⟩
  rcases (h.2 d hd).2 with h | ⟨p, hp, h⟩
  · exact .inl h
  · exact .inr ⟨p, hs p hp, h⟩

theorem OkSent.mono {a b : List Node} {s : List Effect} (h : OkSent a s) (hs : ∀ p ∈ a, p ∈ b) : OkSent b s := by
  intro to bs hb
  obtain ⟨f, h1, h2⟩ := h to bs hb
  exact ⟨f, h1, h2.mono hs⟩

theorem OkSent.nil {past : List Node} : OkSent past [] := by intro _ _ h; cases h

theorem OkSent.append {past : List Node} {a b : List Effect} (ha : OkSent past a) (hb : OkSent past b) : OkSent past (a ++ b) := by
  intro to bs h
  rcases List.mem_append.1 h with h | h
  · exact ha _ _ h
  · exact hb _ _ h

theorem OkSent.sends {past : List Node} {to : Option String} {f : Frame} (h : OkFrame past f) : OkSent past [sends to f] := by
  intro to' bs hb
  simp only [Spec.sends, List.mem_singleton, Effect.send.injEq] at hb
  exact ⟨f, hb.2, h⟩

/-- what a receiver decodes is what was meant -/
theorem decoded_answer {f0 g : Frame} {rest d : List Byte} (hs : Small f0) (hg : g.WF) (he : encode f0 = encode g ++ rest)
    (ha : SearchAnswer g d) : ∃ d0, SearchAnswer f0 d0 ∧ (d0.length ≤ 255 → d0 = d) := by
  obtain ⟨hesv, hb⟩ := ha
  have hwf := hg
  unfold Frame.WF at hwf
  rw [hb] at hwf
  unfold encode at he
  simp only [List.cons_append, List.nil_append, List.cons.injEq] at he
  obtain ⟨_, _, _, _, _, _, _, _, _, _, h11, he⟩ := he
  rw [hb] at he
  unfold Small at hs
  cases hb0 : f0.body with
  | setGet s t =>
    rw [hb0] at hs
    rw [h11] at hs
    exact absurd hs hwf.1
  | plain ps =>
    rw [hb0] at hs he
    simp only at hs
    simp only [encodeBody, encodeSection, List.length_singleton, List.flatMap_cons, List.flatMap_nil, List.append_nil,
      List.cons_append, List.cons.injEq] at he
    obtain ⟨h1, h2⟩ := he
    have hl : ps.length = 1 := by
      have := congrArg BitVec.toNat h1
      simp only [BitVec.toNat_ofNat] at this
      omega
    match ps, hl with
    | [(k, d0)], _ =>
      simp only [List.flatMap_cons, List.flatMap_nil, List.append_nil, encodeProp, List.cons_append, List.cons.injEq] at h2
      obtain ⟨rfl, h3, h4⟩ := h2
      refine ⟨d0, ⟨by rw [h11]; exact hesv, hb0⟩, fun hd0 => ?_⟩
      have hd : d.length ≤ 255 := hwf.2.2 _ (List.mem_singleton.2 rfl)
      have hlen : d0.length = d.length := by
        have := congrArg BitVec.toNat h3
        simp only [BitVec.toNat_ofNat] at this
        omega
      exact (List.append_inj (s₁ := d0) (t₁ := []) (by simpa using h4) hlen).1

theorem annFrame_ok {past : List Node} {t : Byte × Byte} {p : Property}
    (h : p.code = 0xD6 → p.data.length ≤ 255 ∧ Listed past p.data) : OkFrame past (annFrame t p) := by
  refine ⟨by simp [Small, annFrame], ?_⟩
  intro d hd
  have := hd.2
  simp only [annFrame, Body.plain.injEq, List.cons.injEq, Prod.mk.injEq, and_true] at this
  rw [← this.2]
  exact h this.1

theorem annEff_ok {past : List Node} {e : Endian} {t : BitVec 32} {ps : List Property}
    (h : ∀ p ∈ ps, p.code = 0xD6 → p.data.length ≤ 255 ∧ Listed past p.data) : OkSent past (annEff e t ps) := by
  intro to bs hb
  obtain ⟨p, hp, t', hx⟩ := annEff_mem hb
  simp only [Spec.sends, Effect.send.injEq] at hx
  exact ⟨_, hx.2, annFrame_ok (h p hp)⟩

theorem onObj_ok {past : List Node} {e : Endian} {n n' : Node} {i : Nat} {f : Obj → Res Obj.Out} {eff : List Effect}
    (hf : ∀ o o' a, n.objs[i]? = some o → f o = .ok (o', a) →
      ∀ p ∈ a, p.code = 0xD6 → p.data.length ≤ 255 ∧ Listed past p.data)
    (h : n.onObj e i f = .ok (n', eff)) : OkSent past eff := by
  unfold Node.onObj at h
  split at h
  · cases h
  · rename_i o ho
    simp only [Res.bind_eq_ok, announceAll_eq, Res.ok.injEq] at h
    obtain ⟨⟨o', a⟩, h1, h⟩ := h
    have := hf o o' a ho h1
    split at h
    · simp only [Prod.mk.injEq] at h
      obtain ⟨_, rfl⟩ := h
      split
      · exact annEff_ok this
      · exact .nil
    · simp only [Prod.mk.injEq] at h
      obtain ⟨_, rfl⟩ := h
      exact .nil

theorem setPropertyData_ann {o : Obj} {c : Byte} {d : List Byte} {p : Property} (h : p ∈ (o.setPropertyData c d).2) :
    p.code = c ∧ p.data = d := by
  simp only [Obj.setPropertyData, PropertyList.setData] at h
  have := ann_setData h
  refine ⟨?_, this.2⟩
  rw [this.1]
  unfold PropertyList.getByCode
  split
  · rename_i q hq
    exact getProperty_code (o := o) hq
  · rfl

theorem profileUpdate_ann {cs : List Class} {os : List Obj} {o o' : Obj} {ann : List Property}
    (h : Node.profileUpdate cs os o = .ok (o', ann)) : ∀ p ∈ ann, p.code = 0xD6 →
      p.data = instanceListData ((os.map objEoj).filter fun x => x.1 ≠ 0x0E) := by
  unfold Node.profileUpdate NodeProfile.setClassCount NodeProfile.setInstanceCount at h
  obtain ⟨b4, h4, l4, v4⟩ := setPropertyIntegerData_eq o 0xD4#8 (BitVec.ofNat 32 cs.length) 2 (by omega)
  rw [h4] at h
  simp only [Res.bind_ok, setClassList_eq] at h
  obtain ⟨b3, h3, l3, v3⟩ := setPropertyIntegerData_eq ((o.setPropertyData 0xD4#8 b4).1.setPropertyData 0xD7#8
    (classListData ((cs.map fun c => (c.grp, c.cls)).filter fun x => x.1 ≠ 0x0E))).1 0xD3#8
    (BitVec.ofNat 32 (os.filter (fun o => !o.isProfile)).length) 3 (by omega)
  rw [h3] at h
  simp only [Res.bind_ok, setInstanceList_eq, Res.pure_eq, Res.ok.injEq, Prod.mk.injEq] at h
  obtain ⟨_, rfl⟩ := h
  intro p hp hc
  simp only [List.mem_append] at hp
  rcases hp with ((hp | hp) | hp) | hp | hp <;> have := setPropertyData_ann hp
  · rw [this.1] at hc; exact absurd hc (by decide)
  · rw [this.1] at hc; exact absurd hc (by decide)
  · rw [this.1] at hc; exact absurd hc (by decide)
  · exact this.2
  · rw [this.1] at hc; exact absurd hc (by decide)

theorem updateProfile_ok {past : List Node} {e : Endian} {n n' : Node} {eff : List Effect} {r : Bool}
    (hl : (instanceListData (instances n)).length ≤ 255) (hL : Listed past (instanceListData (instances n)))
    (h : n.updateProfile e = .ok (n', eff, r)) : OkSent past eff := by
  unfold Node.updateProfile at h
  split at h
  · simp only [Res.ok.injEq, Prod.mk.injEq] at h
    rw [← h.2.1]; exact .nil
  · split at h
    · cases h
    · split at h
      · simp only [Res.bind_eq_ok, Res.pure_eq, Res.ok.injEq, Prod.mk.injEq] at h
        obtain ⟨⟨_, _⟩, h, _, rfl, _⟩ := h
        refine onObj_ok (fun o o' a _ h1 p hp hc => ?_) h
        have := profileUpdate_ann h1 p hp hc
        rw [this]; exact ⟨hl, hL⟩
      · simp only [Res.ok.injEq, Prod.mk.injEq] at h
        rw [← h.2.1]; exact .nil

theorem kept_short {n : Node} (hk : Kept n) (hf : Fits n) {o : Obj} (ho : o ∈ n.objs) (hp : objEoj o = profileEoj) :
    (instanceListData (instances n)).length ≤ 255 := by
  have := hk.profile o ho hp
  unfold dataOf at this
  cases hg : o.getProperty 0xD6 with
  | none => rw [hg] at this; cases this
  | some p =>
    rw [hg] at this
    simp only [Option.map_some, Option.some.injEq] at this
    rw [← this]
    exact fits_get (hf o ho) hg

theorem addObject_ok {past : List Node} {e : Endian} {n n' : Node} {o : Obj} {eff : List Effect} {r : Bool} (hk : Kept n)
    (ho : objEoj o = profileEoj ∨ ∀ d, dataOf o 0xD6 = some d → d = []) (hf : Fits n') (hp : n' ∈ past)
    (h : n.addObject e o = .ok (n', eff, r)) : OkSent past eff := by
  have hk' := addObject_kept hk ho h
  rcases addObject_ids e h with ⟨_, rfl, _⟩ | ⟨hnew, hids⟩
  · exact .nil
  rw [addObject_new e hnew] at h
  have hins : instances n' = instances (appended n o) := by unfold instances; rw [hids.eojs]
  by_cases hd : ∃ p ∈ n'.objs, objEoj p = profileEoj
  · obtain ⟨p, hp1, hp2⟩ := hd
    refine updateProfile_ok ?_ (.inr ⟨n', hp, by rw [hins]⟩) h
    rw [← hins]
    exact kept_short hk' hf hp1 hp2
  · have : destObj (appended n o) profileEoj = none := by
      cases hx : destObj (appended n o) profileEoj with
      | none => rfl
      | some p =>
        exfalso
        apply hd
        have : profileEoj ∈ n'.objs.map objEoj := by
          rw [hids.eojs, List.mem_map]; exact ⟨p, destObj_mem hx, destObj_code hx⟩
        obtain ⟨q, hq, he⟩ := List.mem_map.1 this
        exact ⟨q, hq, he⟩
    rw [updateProfile_none e this] at h
    simp only [Res.ok.injEq, Prod.mk.injEq] at h
    rw [← h.2.1]; exact .nil

theorem setManufacturerCode_ok {past : List Node} {e : Endian} {v : CInt} : ∀ {is : List Nat} {n n' : Node} {eff : List Effect},
    Node.setManufacturerCode e v is n = .ok (n', eff) → OkSent past eff
  | [], n, n', eff, h => by
      simp only [Node.setManufacturerCode, Res.ok.injEq, Prod.mk.injEq] at h
      rw [← h.2]; exact .nil
  | i :: is, n, n', eff, h => by
      simp only [Node.setManufacturerCode, Res.bind_eq_ok, Res.pure_eq, Res.ok.injEq, Prod.mk.injEq] at h
      obtain ⟨⟨_, _⟩, h1, ⟨_, _⟩, h2, _, rfl⟩ := h
      refine .append (onObj_ok (fun o o' a _ hf p hp hc => ?_) h1) (setManufacturerCode_ok h2)
      exact absurd hc ((setManufacturerCode_data hf).2.2.2 p hp)

theorem announce_ok {past : List Node} {e : Endian} {n n' : Node} {eff : List Effect} (h : n.announce e = .ok (n', eff)) :
    OkSent past eff := by
  unfold Node.announce at h
  split at h
  · simp only [Res.ok.injEq, Prod.mk.injEq] at h
    rw [← h.2]; exact .nil
  · split at h
    · simp only [Res.ok.injEq, Prod.mk.injEq] at h
      rw [← h.2]; exact .nil
    · rename_i p hp
      rw [announceProperty_eq] at h
      simp only [Res.ok.injEq, Prod.mk.injEq] at h
      obtain ⟨_, rfl⟩ := h
      split
      · exact .nil
      · refine .sends (annFrame_ok fun hc => ?_)
        rw [getProperty_code hp] at hc
        exact absurd hc (by decide)

theorem raw_ok {past : List Node} {e : Endian} {t : BitVec 32} {m : Message} (hm : Inv m) (hp : ∀ d, ¬ SearchAnswer (toFrame m) d) :
    OkFrame past (toFrame { m.setTid e t with seoj := profileEoj }) := by
  rw [setTid_eq]
  refine ⟨?_, ?_⟩
  · unfold Small toFrame
    simp only
    by_cases h : IsSetGet m.esv
    · rw [if_pos h]; exact h
    · rw [if_neg h]
      show (view m.ep).length ≤ 255
      unfold view
      rw [List.length_map, hm.ep]
      have := m.opc.isLt
      omega
  · intro d hd
    exact absurd hd (hp d)

theorem receive_ok {past : List Node} {e : Endian} {n n' : Node} {g : Datagram} {eff : List Effect} (hk : Kept n) (hf : Fits n)
    (hn : n ∈ past) (hn' : n' ∈ past) (hs : HandlersSet n)
    (hp : ∀ x, ¬ Overwrites x 0xD6 g) (h : n.receive e g.loc (some g.sender) g.bytes = .ok (n', eff)) : OkSent past eff := by
  have hk' := receive_kept hk hs hp h
  have hmem : ∀ q ∈ past, Kept q → ∀ o x d, destObj q x = some o → dataOf o 0xD6 = some d → Listed past d := by
    intro q hq hkq o x d ho hd
    by_cases hx : objEoj o = profileEoj
    · rw [hkq.profile o (destObj_mem ho) hx] at hd
      exact .inr ⟨q, hq, (Option.some.inj hd).symm⟩
    · exact .inl (hkq.device o (destObj_mem ho) hx d hd)
  intro to bs hb
  obtain ⟨f, rest, o, hwf, hg, hreq, ho, ho', hcase⟩ := receive_sends hs h hb
  rcases hcase with ⟨t, p, hpm, rfl⟩ | ⟨v, hv, rfl⟩
  · refine ⟨_, rfl, annFrame_ok fun hc => ?_⟩
    have hw := (outAnn_mem hwf hreq hpm).2
    exact absurd ⟨f, rest, hwf, hg, rfl, by rw [← hc]; exact List.mem_map.2 ⟨_, hw, rfl⟩⟩ (hp f.deoj)
  · have hrw := respFrame_wf hwf hreq (hf o (destObj_mem ho)) hv
    refine ⟨_, rfl, ?_, ?_⟩
    · unfold Small
      unfold Frame.WF at hrw
      split
      · rename_i ps hps; rw [hps] at hrw; exact hrw.2.1
      · rename_i s g hps; rw [hps] at hrw; exact hrw.1
    · intro d hd
      have hb : (respFrame o f v).body = .plain [(0xD6, d)] := hd.2
      refine ⟨?_, ?_⟩
      · unfold Frame.WF at hrw
        rw [hb] at hrw
        exact hrw.2.2 _ (List.mem_singleton.2 rfl)
      · have hR : Reports v := by
          have : v = 0x72 ∨ v = 0x73 ∨ v = 0x7A := hd.1
          unfold Reports
          rcases this with h | h | h <;> simp [h]
        have hq : ((0xD6, d) : Prop8) ∈ reported (respFrame o f v) := by
          unfold reported; rw [hb]; exact List.mem_singleton.2 rfl
        rcases respFrame_values hwf hreq hv hR hq with h | h | h
        · exact .inl h
        · exact hmem n hn hk o _ d ho h
        · exact hmem n' hn' hk' _ _ d ho' h

theorem act_ok {past : List Node} {e : Endian} {db : Db} (hdb : Blank db) {n n' : Node} {x : Act} {eff : List Effect} (hk : Kept n)
    (hs : x.Sane e n) (hp : Plain n x) (hf : Fits n) (hf' : Fits n') (hn : n ∈ past) (hn' : n' ∈ past)
    (h : x.run e db n = .ok (n', eff)) : OkSent past eff := by
  cases x with
  | addObject o =>
    simp only [Act.run, Res.bind_eq_ok, Res.pure_eq, Res.ok.injEq, Prod.mk.injEq] at h
    obtain ⟨⟨_, _, _⟩, h, rfl, rfl⟩ := h
    exact addObject_ok hk hp hf' hn' h
  | setObject junk c =>
    simp only [Act.run, Res.bind_eq_ok, Res.pure_eq, Res.ok.injEq, Prod.mk.injEq] at h
    obtain ⟨⟨_, _, _⟩, h, rfl, rfl⟩ := h
    unfold Node.setObject at h
    split at h
    · simp only [Res.ok.injEq, Prod.mk.injEq] at h
      rw [← h.2.1]; exact .nil
    · simp only [Res.bind_eq_ok] at h
      obtain ⟨⟨o, a⟩, h1, h2⟩ := h
      exact addObject_ok hk (.inr (empty_D6 (setCode_empty hdb h1))) hf' hn' h2
  | edit i f => exact onObj_ok (fun o o' a h1 h2 p h3 h4 => absurd h4 ((hp o o' a h1 h2).2.2.2 p h3)) h
  | setManufacturerCode v => exact setManufacturerCode_ok h
  | announce => exact announce_ok h
  | start b => exact announce_ok h
  | announceMessage m =>
    simp only [Act.run, Res.bind_eq_ok, Res.pure_eq, Res.ok.injEq, Prod.mk.injEq] at h
    obtain ⟨⟨_, _, _⟩, h, rfl, rfl⟩ := h
    rw [announceMessage_eq e n (reachable_inv hs)] at h
    simp only [Res.ok.injEq] at h
    split at h <;> simp only [Prod.mk.injEq] at h <;> rw [← h.2.2]
    · exact .nil
    · exact .sends (raw_ok (reachable_inv hs) hp)
  | sendMessage a m =>
    simp only [Act.run, Res.bind_eq_ok, Res.pure_eq, Res.ok.injEq, Prod.mk.injEq] at h
    obtain ⟨⟨_, _, _⟩, h, rfl, rfl⟩ := h
    cases a with
    | none => rw [sendMessage_none e n (reachable_inv hs) h]; exact .nil
    | some a =>
      rw [sendMessage_eq e n a (reachable_inv hs)] at h
      simp only [Res.ok.injEq] at h
      split at h <;> simp only [Prod.mk.injEq] at h <;> rw [← h.2.2]
      · exact .nil
      · exact .sends (raw_ok (reachable_inv hs) hp)
  | receive g => exact receive_ok hk hf hn hn' hs hp h
  | _ =>
    simp only [Act.run, Res.ok.injEq, Prod.mk.injEq] at h
    rw [← h.2]; exact .nil

/-! ### the world -/

theorem world_kept {e : Endian} {db : Db} (hdb : Blank db) {a : String} {past : List Node} {sent : List Effect} {n : Node} {c : Ctrl}
    (h : World e db a Plain past sent n c) : Kept n := by
  induction h with
  | init _ _ _ _ hn _ => exact new_kept hn
  | act x _ hs hp hx ih => exact act_kept hdb ih hs hp hx
  | user _ _ ih => exact ih
  | hear _ _ _ _ _ _ _ ih => exact ih
  | other _ _ _ _ _ _ _ ih => exact ih

theorem world_ok {e : Endian} {db : Db} (hdb : Blank db) {a : String} {past : List Node} {sent : List Effect} {n : Node} {c : Ctrl}
    (h : World e db a Plain past sent n c) (hfit : ∀ p ∈ past, Fits p) : OkSent past sent := by
  induction h with
  | @init n eff l junk rnd tid0 req0 hn _ =>
    have hnew := hn
    unfold Node.new at hn
    simp only [Res.bind_eq_ok, Res.pure_eq, Res.ok.injEq, Prod.mk.injEq] at hn
    obtain ⟨o, h0, ⟨n1, _, _⟩, h, rfl, rfl⟩ := hn
    have hb : Fits n1 := hfit (n1.setLastTid 0#32) (List.mem_singleton.2 rfl)
    have h2 : OkSent [n1] _ := addObject_ok (kept_none tid0) (.inl (profileNew_eoj h0)) hb (List.mem_singleton.2 rfl) h
    intro to bs hbs
    obtain ⟨f, g1, g2, g3⟩ := h2 to bs hbs
    refine ⟨f, g1, g2, fun d hd => ⟨(g3 d hd).1, ?_⟩⟩
    rcases (g3 d hd).2 with h | ⟨p, hp, hx⟩
    · exact .inl h
    · rw [List.mem_singleton] at hp
      subst hp
      exact .inr ⟨_, List.mem_singleton.2 rfl, hx⟩
  | @act past sent n c n' eff x hw hs hp hx ih =>
    have hsub : ∀ p ∈ past, p ∈ n' :: past := fun p hp => List.mem_cons_of_mem _ hp
    refine ((ih fun p hp => hfit p (hsub p hp)).mono hsub).append ?_
    exact act_ok hdb (world_kept hdb hw) hs hp (hfit _ (hsub _ (world_past hw))) (hfit _ (List.mem_cons_self ..))
      (hsub _ (world_past hw)) (List.mem_cons_self ..) hx
  | user _ _ ih => exact ih hfit
  | hear _ _ _ _ _ _ _ ih => exact ih hfit
  | other _ _ _ _ _ _ _ ih => exact ih hfit

theorem listed_instances (xs : List (Byte × Byte × Byte)) : ∀ x ∈ listedCodes (instanceListData xs), x ∈ xs := by
  intro x hx
  unfold listedCodes instanceListData at hx
  rw [List.drop_one, List.tail_cons, triples_flat] at hx
  exact List.mem_of_mem_take hx

theorem newCodes_sub {old xs : List (Byte × Byte × Byte)} {x} (h : x ∈ newCodes old xs) : x ∈ xs := by
  unfold newCodes at h
  have := (List.mem_filter.1 h).1
  have key : ∀ l : List (Byte × Byte × Byte), x ∈ firsts l → x ∈ l := by
    intro l
    induction l with
    | nil => simp [firsts]
    | cons y ys ih =>
      simp only [firsts, List.mem_cons, List.mem_filter]
      rintro (h | ⟨h, _⟩)
      · exact .inl h
      · exact .inr (ih h)
  exact key _ this

/-- every object listed for the node `a`, but its profile, satisfies `P` -/
def ListOk (a : String) (P : Byte × Byte × Byte → Prop) (c : Ctrl) : Prop :=
  ∀ m ∈ c.nodes, m.address = some a → ∀ x ∈ eojs m, x ≠ profileEoj → P x

theorem receive_list {e : Endian} {db : Db} {orc : Oracle} {c c' : Ctrl} (hi : CInv c) {h h' : Heap}
    {loc : Option String} {a b : String} {d : List Byte} {ev : List CEvent} {P : Byte × Byte × Byte → Prop}
    (hP : b = a → ∀ f rest l, f.WF → d = encode f ++ rest → SearchAnswer f l → ∀ x ∈ listedCodes l, P x)
    (hr : c.receive e db orc h loc (some b) d = .ok (c', h', ev)) (hc : ListOk a P c) : ListOk a P c' := by
  cases hd : decode d with
  | none =>
    rw [receive_bad e db orc c h loc b hd] at hr
    simp only [Res.ok.injEq, Prod.mk.injEq] at hr
    rw [← hr.1]; exact hc
  | some x =>
    obtain ⟨f, r⟩ := x
    obtain ⟨rfl, hf⟩ := decode_sound hd
    obtain ⟨n1, ns, st, _, rfl, hseen, _⟩ := recv_seen e db orc hi hf hr
    have hset : ∀ {i : Nat} {n n' : Node}, c.nodes[i]? = some n → n.address = some b → n'.address = some b →
        (∀ x ∈ eojs n', x ∈ eojs n ∨ b = a → x ∈ eojs n ∨ P x) → ListOk a P { c with node := n1, nodes := c.nodes.set i n' } := by
      intro i n n' h1 h2 h3 h4 m hm ha x hx hne
      rcases List.mem_or_eq_of_mem_set hm with hm | rfl
      · exact hc m hm ha x hx hne
      · have hab : b = a := by rw [h3] at ha; exact Option.some.inj ha
        rcases h4 x hx (.inr hab) with h | h
        · exact hc n (List.mem_of_getElem? h1) (by rw [h2, hab]) x h hne
        · exact h
    cases hseen with
    | ignored => exact hc
    | known ha hne _ h1 h2 _ h3 h4 _ _ =>
      refine hset h1 h2 h3 fun x hx hor => ?_
      rw [h4] at hx
      rcases List.mem_append.1 hx with hx | hx
      · exact .inl hx
      · rcases hor with h | hab
        · exact .inl h
        · exact .inr (hP hab f r _ hf rfl ha x (newCodes_sub hx))
    | report _ _ _ h1 h2 _ h3 h4 _ _ =>
      refine hset h1 h2 h3 fun x hx _ => ?_
      rw [h4] at hx; exact .inl hx
    | added ha _ _ _ _ h3 h4 =>
      intro m hm hadr x hx hne
      rcases List.mem_append.1 hm with hm | hm
      · exact hc m hm hadr x hx hne
      · rw [List.mem_singleton] at hm
        subst hm
        have hab : b = a := by rw [h3] at hadr; exact Option.some.inj hadr
        rw [h4] at hx
        rcases List.mem_append.1 hx with hx | hx
        · exact absurd (List.mem_singleton.1 hx) hne
        · exact hP hab f r _ hf rfl ha x (newCodes_sub hx)

theorem world_list {e : Endian} {db : Db} (hdb : Blank db) {a : String} {past : List Node} {sent : List Effect} {n : Node} {c : Ctrl}
    (h : World e db a Plain past sent n c) (hfit : ∀ p ∈ past, Fits p) :
    ListOk a (fun x => ∃ p ∈ past, x ∈ instances p) c := by
  induction h with
  | init => intro m hm; simp [Ctrl.new] at hm
  | act x _ _ _ _ ih =>
    intro m hm ha x hx hne
    obtain ⟨p, hp, h⟩ := ih (fun p hp => hfit p (List.mem_cons_of_mem _ hp)) m hm ha x hx hne
    exact ⟨p, List.mem_cons_of_mem _ hp, h⟩
  | user _ hs ih =>
    rcases ctrlStep_nodes hs with h | h
    · intro m hm; rw [h] at hm; exact ih hfit m hm
    · intro m hm; rw [h] at hm; cases hm
  | @hear past sent n c c' h h' ev orc loc to d hw hd hr ih =>
    refine receive_list (reach_cinv (world_reach hw)) (b := a) ?_ hr (ih hfit)
    intro _ f rest l hf hdf hl x hx
    obtain ⟨f0, h1, h2, h3⟩ := world_ok hdb hw hfit to _ hd
    have hde : d = encode f0 := (List.map_inj_right (fun _ _ h => Option.some.inj h)).1 h1
    rw [hde] at hdf
    obtain ⟨d0, h4, h5⟩ := decoded_answer h2 hf hdf hl
    have := h5 (h3 d0 h4).1
    subst this
    rcases (h3 d0 h4).2 with h | ⟨p, hp, h⟩
    · subst h; simp [listedCodes, triples] at hx
    · subst h
      exact ⟨p, hp, listed_instances _ x hx⟩
  | @other past sent n c c' h h' ev orc loc b d hw hb hr ih =>
    refine receive_list (reach_cinv (world_reach hw)) (b := b) ?_ hr (ih hfit)
    intro h; exact absurd h hb

end Uecho.Lemmas
