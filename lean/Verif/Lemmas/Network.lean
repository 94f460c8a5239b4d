import Verif.Spec.Network
import Verif.Props.Remote
import Verif.Props.Controller
/-! Lemmas about `Spec.World`. -/
namespace Uecho.Lemmas
open Uecho Uecho.Spec Uecho.Props

/-! ### what a node sends -/

/-- every datagram is a frame with the node profile as its source -/
def FromProfile (eff : List Effect) : Prop :=
  ∀ to bs, Effect.send to bs ∈ eff → ∃ f, bs = (encode f).map some ∧ f.seoj = profileEoj

theorem FromProfile.nil : FromProfile [] := by intro _ _ h; cases h
theorem FromProfile.append {a b : List Effect} (ha : FromProfile a) (hb : FromProfile b) : FromProfile (a ++ b) := by
  intro to bs h
  rcases List.mem_append.1 h with h | h
  · exact ha _ _ h
  · exact hb _ _ h

theorem annEff_profile (e : Endian) (t : BitVec 32) (ps : List Property) : FromProfile (annEff e t ps) := by
  intro to bs h
  obtain ⟨p, _, t', hx⟩ := annEff_mem h
  simp only [sends, Effect.send.injEq] at hx
  exact ⟨_, hx.2, rfl⟩

theorem announceAll_profile {e : Endian} {n n' : Node} {o : Obj} {ps : List Property} {eff : List Effect}
    (h : n.announceAll e o ps = .ok (n', eff)) : FromProfile eff := by
  rw [announceAll_eq] at h
  simp only [Res.ok.injEq] at h
  split at h
  · simp only [Prod.mk.injEq] at h
    obtain ⟨_, rfl⟩ := h
    split
    · exact annEff_profile _ _ _
    · exact .nil
  · simp only [Prod.mk.injEq] at h
    obtain ⟨_, rfl⟩ := h
    exact .nil

theorem onObj_profile {e : Endian} {n n' : Node} {i : Nat} {f : Obj → Res Obj.Out} {eff : List Effect}
    (h : n.onObj e i f = .ok (n', eff)) : FromProfile eff := by
  unfold Node.onObj at h
  split at h
  · cases h
  · simp only [Res.bind_eq_ok] at h
    obtain ⟨_, _, h⟩ := h
    exact announceAll_profile h

theorem updateProfile_profile {e : Endian} {n n' : Node} {eff : List Effect} {r : Bool}
    (h : n.updateProfile e = .ok (n', eff, r)) : FromProfile eff := by
  unfold Node.updateProfile at h
  split at h
  · simp only [Res.ok.injEq, Prod.mk.injEq] at h
    rw [← h.2.1]; exact .nil
  · split at h
    · cases h
    · split at h
      · simp only [Res.bind_eq_ok, Res.pure_eq, Res.ok.injEq, Prod.mk.injEq] at h
        obtain ⟨⟨_, _⟩, h, _, rfl, _⟩ := h
        exact onObj_profile h
      · simp only [Res.ok.injEq, Prod.mk.injEq] at h
        rw [← h.2.1]; exact .nil

theorem addObject_profile {e : Endian} {n n' : Node} {o : Obj} {eff : List Effect} {r : Bool}
    (h : n.addObject e o = .ok (n', eff, r)) : FromProfile eff := by
  unfold Node.addObject at h
  split at h
  · simp only [Res.ok.injEq, Prod.mk.injEq] at h
    rw [← h.2.1]; exact .nil
  · exact updateProfile_profile h

theorem setObject_profile {e : Endian} {db : Db} {junk : Nat → Byte} {n n' : Node} {c : CInt} {eff : List Effect} {r : Bool}
    (h : n.setObject e db junk c = .ok (n', eff, r)) : FromProfile eff := by
  unfold Node.setObject at h
  split at h
  · simp only [Res.ok.injEq, Prod.mk.injEq] at h
    rw [← h.2.1]; exact .nil
  · simp only [Res.bind_eq_ok] at h
    obtain ⟨_, _, h⟩ := h
    exact addObject_profile h

theorem new_profile {e : Endian} {db : Db} {junk rnd : Nat → Byte} {t : BitVec 32} {n : Node} {eff : List Effect}
    (h : Node.new e db junk rnd t = .ok (n, eff)) : FromProfile eff := by
  unfold Node.new at h
  simp only [Res.bind_eq_ok, Res.pure_eq, Res.ok.injEq, Prod.mk.injEq] at h
  obtain ⟨_, _, ⟨_, _, _⟩, h, _, rfl⟩ := h
  exact addObject_profile h

theorem setManufacturerCode_profile {e : Endian} {v : CInt} : ∀ {is : List Nat} {n n' : Node} {eff : List Effect},
    Node.setManufacturerCode e v is n = .ok (n', eff) → FromProfile eff
  | [], n, n', eff, h => by
      simp only [Node.setManufacturerCode, Res.ok.injEq, Prod.mk.injEq] at h
      rw [← h.2]; exact .nil
  | i :: is, n, n', eff, h => by
      simp only [Node.setManufacturerCode, Res.bind_eq_ok, Res.pure_eq, Res.ok.injEq, Prod.mk.injEq] at h
      obtain ⟨⟨_, _⟩, h1, ⟨_, _⟩, h2, _, rfl⟩ := h
      exact (onObj_profile h1).append (setManufacturerCode_profile h2)

theorem sends_profile {to : Option String} {f : Frame} (h : f.seoj = profileEoj) : FromProfile [sends to f] := by
  intro to' bs hb
  simp only [sends, List.mem_singleton, Effect.send.injEq] at hb
  exact ⟨f, hb.2, h⟩

theorem announceProperty_profile {e : Endian} {n n' : Node} {c : CInt} {p : Property} {eff : List Effect}
    (h : n.announceProperty e c p = .ok (n', eff)) : FromProfile eff := by
  rw [announceProperty_eq] at h
  simp only [Res.ok.injEq, Prod.mk.injEq] at h
  obtain ⟨_, rfl⟩ := h
  split
  · exact .nil
  · exact sends_profile rfl

theorem announce_profile {e : Endian} {n n' : Node} {eff : List Effect} (h : n.announce e = .ok (n', eff)) :
    FromProfile eff := by
  unfold Node.announce at h
  split at h
  · simp only [Res.ok.injEq, Prod.mk.injEq] at h
    rw [← h.2]; exact .nil
  · split at h
    · simp only [Res.ok.injEq, Prod.mk.injEq] at h
      rw [← h.2]; exact .nil
    · exact announceProperty_profile h

theorem announceMessage_profile {e : Endian} {n n' : Node} {m m' : Message} {eff : List Effect} (hm : Inv m)
    (h : n.announceMessage e m = .ok (n', m', eff)) : FromProfile eff := by
  rw [announceMessage_eq e n hm] at h
  simp only [Res.ok.injEq] at h
  split at h
  · simp only [Prod.mk.injEq] at h
    rw [← h.2.2]; exact .nil
  · simp only [Prod.mk.injEq] at h
    rw [← h.2.2]; exact sends_profile rfl

theorem sendMessage_none (e : Endian) (n : Node) {m : Message} (h : Inv m) {n' : Node} {m' : Message} {eff : List Effect}
    (hs : n.sendMessage e none m = .ok (n', m', eff)) : eff = [] := by
  unfold Node.sendMessage at hs
  simp only at hs
  split at hs
  · simp only [Res.pure_eq, Res.ok.injEq, Prod.mk.injEq] at hs
    exact hs.2.2.symm
  · simp only [Res.bind_eq_ok, Node.sendBytes, Res.pure_eq, Res.ok.injEq, Prod.mk.injEq] at hs
    obtain ⟨_, _, _, _, _, _, _, rfl, _, _, rfl⟩ := hs
    rfl

theorem sendMessage_profile {e : Endian} {n n' : Node} {a : Option String} {m m' : Message} {eff : List Effect} (hm : Inv m)
    (h : n.sendMessage e a m = .ok (n', m', eff)) : FromProfile eff := by
  cases a with
  | none => rw [sendMessage_none e n hm h]; exact .nil
  | some a =>
    rw [sendMessage_eq e n a hm] at h
    simp only [Res.ok.injEq] at h
    split at h
    · simp only [Prod.mk.injEq] at h
      rw [← h.2.2]; exact .nil
    · simp only [Prod.mk.injEq] at h
      rw [← h.2.2]; exact sends_profile rfl

theorem act_profile {e : Endian} {db : Db} {n n' : Node} {x : Act} {eff : List Effect} (hs : x.Sane e n)
    (hx : ∀ g, x ≠ .receive g) (h : x.run e db n = .ok (n', eff)) : FromProfile eff := by
  cases x with
  | addObject o =>
    simp only [Act.run, Res.bind_eq_ok, Res.pure_eq, Res.ok.injEq, Prod.mk.injEq] at h
    obtain ⟨⟨_, _, _⟩, h, _, rfl⟩ := h
    exact addObject_profile h
  | setObject junk c =>
    simp only [Act.run, Res.bind_eq_ok, Res.pure_eq, Res.ok.injEq, Prod.mk.injEq] at h
    obtain ⟨⟨_, _, _⟩, h, _, rfl⟩ := h
    exact setObject_profile h
  | edit i f => exact onObj_profile h
  | setManufacturerCode v => exact setManufacturerCode_profile h
  | announce => exact announce_profile h
  | start b => exact announce_profile h
  | announceMessage m =>
    simp only [Act.run, Res.bind_eq_ok, Res.pure_eq, Res.ok.injEq, Prod.mk.injEq] at h
    obtain ⟨⟨_, _, _⟩, h, _, rfl⟩ := h
    exact announceMessage_profile (reachable_inv hs) h
  | sendMessage a m =>
    simp only [Act.run, Res.bind_eq_ok, Res.pure_eq, Res.ok.injEq, Prod.mk.injEq] at h
    obtain ⟨⟨_, _, _⟩, h, _, rfl⟩ := h
    exact sendMessage_profile (reachable_inv hs) h
  | receive g => exact absurd rfl (hx g)
  | _ =>
    simp only [Act.run, Res.ok.injEq, Prod.mk.injEq] at h
    rw [← h.2]; exact .nil

/-! ### what a node sends on receiving a datagram -/

theorem receive_sends {e : Endian} {n n' : Node} {g : Datagram} {eff : List Effect} (hn : HandlersSet n)
    (h : n.receive e g.loc (some g.sender) g.bytes = .ok (n', eff)) {to : Option String} {bs : List (Option Byte)}
    (hm : Effect.send to bs ∈ eff) :
    ∃ f rest o, f.WF ∧ g.bytes = encode f ++ rest ∧ IsRequestEsv f.esv ∧ destObj n f.deoj = some o ∧
      destObj n' f.deoj = some (outObj o f) ∧
      ((∃ t p, p ∈ outAnn o f ∧ bs = (encode (annFrame t p)).map some) ∨
       ∃ v, outEsv o f = some v ∧ bs = (encode (respFrame o f v)).map some) := by
  cases hd : decode g.bytes with
  | none =>
    have hno : ¬ ∃ f rest, f.WF ∧ g.bytes = encode f ++ rest := by
      rintro ⟨f, rest, hf, hb⟩
      rw [hb, decode_complete hf] at hd; cases hd
    rw [C41_malformed_ignored e n g.loc (some g.sender) g.bytes hno] at h
    simp only [Res.ok.injEq, Prod.mk.injEq] at h
    rw [← h.2] at hm; cases hm
  | some y =>
    obtain ⟨f, rest⟩ := y
    obtain ⟨hb, hf⟩ := decode_sound hd
    rw [hb] at h
    cases hto : destObj n f.deoj with
    | none =>
      rw [receive_unknown e n g.loc g.sender hf rest hto] at h
      simp only [Res.ok.injEq, Prod.mk.injEq] at h
      rw [← h.2] at hm
      split at hm <;> simp at hm
    | some o =>
      by_cases hreq : IsRequestEsv f.esv
      · obtain ⟨i, hi, hj, hrec⟩ := receive_request e n g.loc g.sender hf rest hto hreq (hn o (destObj_mem hto))
        rw [hrec] at h
        simp only [Res.ok.injEq, Prod.mk.injEq] at h
        obtain ⟨rfl, rfl⟩ := h
        refine ⟨f, rest, o, hf, hb, hreq, hto, ?_, ?_⟩
        · have hfr := outObj_frame o f
          unfold destObj
          simp only
          rw [Props.find_set (y := f.deoj) hi hj (destObj_code hto) (by rw [hfr.eoj]; exact destObj_code hto), if_pos rfl]
        · rcases List.mem_append.1 hm with hm | hm
          · rcases List.mem_append.1 hm with hm | hm
            · rcases sends_ne_calls hm with h | ⟨_, h⟩ <;> cases h
            · split at hm
              · obtain ⟨p, hp, t, hx⟩ := annEff_mem hm
                simp only [sends, Effect.send.injEq] at hx
                exact .inl ⟨t, p, hp, hx.2⟩
              · cases hm
          · unfold respEff at hm
            split at hm
            · cases hm
            · rename_i v hv
              split at hm
              · simp only [sends, List.mem_singleton, Effect.send.injEq] at hm
                exact .inr ⟨v, hv, hm.2⟩
              · cases hm
      · rw [receive_nonrequest e n g.loc g.sender hf rest hto hreq] at h
        simp only [Res.ok.injEq, Prod.mk.injEq] at h
        rw [← h.2] at hm
        rcases sends_ne_calls hm with h | ⟨_, h⟩ <;> cases h

theorem fits_get {o : Obj} (h : ∀ p ∈ o.props, p.data.length ≤ 255) {c : Byte} {p : Property}
    (hp : o.getProperty c = some p) : p.data.length ≤ 255 := h p (List.mem_of_find?_eq_some hp)

theorem modifyFirst_all (c : Byte) (f : Property → Property) (P : Property → Prop) (hf : ∀ q, P q → P (f q)) :
    ∀ {ps : List Property}, (∀ p ∈ ps, P p) → ∀ p ∈ Message.modifyFirst c f ps, P p
  | [], _, p, h => by simp [Message.modifyFirst] at h
  | q :: qs, hq, p, h => by
      unfold Message.modifyFirst at h
      split at h
      · rcases List.mem_cons.1 h with rfl | h
        · exact hf _ (hq _ (List.mem_cons_self ..))
        · exact hq _ (List.mem_cons_of_mem _ h)
      · rcases List.mem_cons.1 h with rfl | h
        · exact hq _ (List.mem_cons_self ..)
        · exact modifyFirst_all c f P hf (fun p hp => hq p (List.mem_cons_of_mem _ hp)) p h

theorem stepObj_fits {esv : Byte} {o : Obj} {q : Prop8} (h : ∀ p ∈ o.props, p.data.length ≤ 255) (hq : q.2.length ≤ 255) :
    ∀ p ∈ (stepObj esv o q).props, p.data.length ≤ 255 := by
  unfold stepObj
  split
  · exact modifyFirst_all _ _ (fun p => p.data.length ≤ 255) (fun _ _ => hq) h
  · exact h

theorem runObj_fits {esv : Byte} : ∀ {qs : List Prop8} {o : Obj}, (∀ p ∈ o.props, p.data.length ≤ 255) →
    (∀ q ∈ qs, q.2.length ≤ 255) → ∀ p ∈ (runObj esv o qs).props, p.data.length ≤ 255
  | [], _, h, _ => h
  | q :: qs, o, h, hq => by
      unfold runObj
      exact runObj_fits (stepObj_fits h (hq q (List.mem_cons_self ..))) (fun x hx => hq x (List.mem_cons_of_mem _ hx))

theorem runRes_fits {esv : Byte} : ∀ {qs : List Prop8} {o : Obj}, (∀ p ∈ o.props, p.data.length ≤ 255) →
    (∀ q ∈ qs, q.2.length ≤ 255) → ∀ r ∈ runRes esv o qs, r.2.length ≤ 255
  | [], _, _, _, r, h => by simp [runRes] at h
  | q :: qs, o, h, hq, r, hr => by
      unfold runRes at hr
      rcases List.mem_cons.1 hr with rfl | hr
      · unfold stepRes
        simp only
        have := hq q (List.mem_cons_self ..)
        split
        · rename_i p hp
          have := fits_get h hp
          split
          · split
            · exact this
            · simp
          · split
            · assumption
            · simp
        · split
          · exact this
          · simp
      · exact runRes_fits (stepObj_fits h (hq q (List.mem_cons_self ..)))
          (fun x hx => hq x (List.mem_cons_of_mem _ hx)) r hr

theorem respFrame_wf {o : Obj} {f : Frame} {v : Byte} (hf : f.WF) (hreq : IsRequestEsv f.esv)
    (ho : ∀ p ∈ o.props, p.data.length ≤ 255) (hv : outEsv o f = some v) : (respFrame o f v).WF := by
  have hsg := responseEsv_setGet _ _ _ hv
  unfold Frame.WF at hf ⊢
  unfold respFrame outBody
  cases hb : f.body with
  | plain ps =>
    rw [hb] at hf
    refine ⟨?_, by rw [runRes_length]; exact hf.2.1, runRes_fits ho hf.2.2⟩
    intro h
    exact hf.1 (by rw [hsg.1 h]; decide)
  | setGet s g =>
    rw [hb] at hf
    refine ⟨?_, ⟨by rw [runRes_length]; exact hf.2.1.1, runRes_fits ho hf.2.1.2⟩,
      ⟨by rw [runRes_length]; exact hf.2.2.1, runRes_fits (runObj_fits ho hf.2.1.2) hf.2.2.2⟩⟩
    exact hsg.2 ((setGet_request hreq).1 hf.1)

/-- a value in a read section is the value of the property, or nothing -/
theorem readSection_value {o : Obj} {esv : Byte} {qs : List Prop8} {q : Prop8}
    (h : q ∈ readSection o.observers esv o.getProperty qs) : q.2 = [] ∨ dataOf o q.1 = some q.2 := by
  unfold readSection at h
  obtain ⟨r, _, rfl⟩ := List.mem_map.1 h
  simp only
  unfold dataOf
  cases hp : o.getProperty r.1 with
  | none => exact .inl rfl
  | some p =>
    simp only [Option.map_some, Option.some.injEq]
    split
    · exact .inr rfl
    · exact .inl rfl

theorem respEsv_reports : ∀ (v : Byte) (b : Bool) (w : Byte), Node.responseEsv v b = some w → Reports w →
    v = 0x6E ∨ isR v = true := by
  intro v b w h hr
  unfold Node.responseEsv at h
  split at h
  · rename_i hv; subst hv; split at h <;> simp at h <;> subst h <;> revert hr <;> decide
  split at h
  · rename_i hv; subst hv; split at h <;> simp at h <;> subst h <;> revert hr <;> decide
  split at h
  · rename_i hv; subst hv; right; rfl
  split at h
  · rename_i hv; left; exact hv
  split at h
  · rename_i hv; subst hv; right; rfl
  split at h
  · rename_i hv; subst hv; right; rfl
  · simp at h

/-- what a response reports was the value of the property before or after the request -/
theorem respFrame_values {o : Obj} {f : Frame} {v : Byte} (hf : f.WF) (hreq : IsRequestEsv f.esv)
    (hv : outEsv o f = some v) (hr : Reports v) {q : Prop8} (hq : q ∈ reported (respFrame o f v)) :
    q.2 = [] ∨ dataOf o q.1 = some q.2 ∨ dataOf (outObj o f) q.1 = some q.2 := by
  have hcase := respEsv_reports _ _ _ hv hr
  unfold Frame.WF at hf
  unfold reported respFrame outBody at hq
  cases hb : f.body with
  | plain ps =>
    rw [hb] at hf hq
    simp only at hq
    have hR : isR f.esv = true := by
      rcases hcase with h | h
      · exact absurd (by rw [h]; decide) hf.1
      · exact h
    rw [runRes_read hR] at hq
    rcases readSection_value hq with h | h
    · exact .inl h
    · exact .inr (.inl h)
  | setGet s g =>
    rw [hb] at hf hq
    simp only at hq
    rw [runRes_read rfl] at hq
    rcases readSection_value hq with h | h
    · exact .inl h
    · right; right
      unfold outObj
      rw [hb]; exact h

/-! ### objects a controller creates -/

/-- no property but the maps has a value -/
def Empty (o : Obj) : Prop := ∀ k d, ¬ IsMapCode k → dataOf o k = some d → d = []

theorem addProperty_blank {o : Obj} {q : Property} (h : ∀ p ∈ o.props, p.data = []) (hq : q.data = []) :
    ∀ p ∈ (o.addProperty q).props, p.data = [] := by
  intro p hp
  simp only [Obj.addProperty, PropertyList.add, List.mem_append, List.mem_singleton] at hp
  rcases hp with hp | rfl
  · exact h p (List.mem_of_mem_eraseP hp)
  · exact hq

theorem addMissing_blank : ∀ {qs : List Property} {o : Obj}, (∀ p ∈ o.props, p.data = []) → (∀ q ∈ qs, q.data = []) →
    ∀ p ∈ (o.addMissing qs).props, p.data = []
  | [], _, h, _ => h
  | q :: qs, o, h, hq => by
      rw [Obj.addMissing]
      have hqs : ∀ x ∈ qs, x.data = [] := fun x hx => hq x (List.mem_cons_of_mem _ hx)
      split
      · exact addMissing_blank h hqs
      · refine addMissing_blank (addProperty_blank h ?_) hqs
        rw [copy_prop]; exact hq q (List.mem_cons_self ..)

theorem addStandardWithCode_blank {db : Db} (hdb : Blank db) {o : Obj} (g c : Byte) (h : ∀ p ∈ o.props, p.data = []) :
    ∀ p ∈ (o.addStandardWithCode db g c).1.props, p.data = [] := by
  unfold Obj.addStandardWithCode
  split
  · exact h
  · rename_i s hs
    have hm : s ∈ db := List.mem_of_find?_eq_some hs
    exact addMissing_blank (o := o.setName s.name) h (hdb s hm)

theorem setCode_empty {db : Db} (hdb : Blank db) {junk : Nat → Byte} {v : CInt} {o : Obj} {a : List Property}
    (h : Obj.new.setCode db junk v = .ok (o, a)) : Empty o := by
  intro k d hk hd
  unfold Obj.setCode at h
  simp only [IsMapCode, not_or] at hk
  have hf := updatePropertyMaps_find h k hk.1 hk.2.1 hk.2.2
  unfold dataOf at hd
  rw [hf] at hd
  simp only [Option.map_eq_some_iff] at hd
  obtain ⟨p, hp, rfl⟩ := hd
  have hm := List.mem_of_find?_eq_some hp
  refine addStandardWithCode_blank hdb _ _ (addStandardWithCode_blank hdb _ _ ?_) p hm
  intro q hq
  cases hq

theorem updateProfile_objs {e : Endian} {n n' : Node} {eff : List Effect} {r : Bool}
    (h : n.updateProfile e = .ok (n', eff, r)) : ∀ o ∈ n'.objs, objEoj o ≠ profileEoj → o ∈ n.objs := by
  cases hd : destObj n profileEoj with
  | none =>
    rw [updateProfile_none e hd] at h
    simp only [Res.ok.injEq, Prod.mk.injEq] at h
    rw [← h.1]; exact fun o ho _ => ho
  | some p =>
    cases hp : p.hasNode with
    | false =>
      rw [updateProfile_detached e hd hp] at h
      simp only [Res.ok.injEq, Prod.mk.injEq] at h
      rw [← h.1]; exact fun o ho _ => ho
    | true =>
      obtain ⟨i, p', eff', t, h1, _, h2, h3, _⟩ := updateProfile_some e hd hp
      rw [h3] at h
      simp only [Res.ok.injEq, Prod.mk.injEq] at h
      rw [← h.1]
      intro o ho hne
      rcases List.mem_or_eq_of_mem_set ho with ho | rfl
      · exact ho
      · exact absurd (by rw [h2.eoj]; exact destObj_code hd) hne

theorem addObject_objs {e : Endian} {n n' : Node} {o : Obj} {eff : List Effect} {r : Bool}
    (h : n.addObject e o = .ok (n', eff, r)) :
    ∀ y ∈ n'.objs, objEoj y ≠ profileEoj → y ∈ n.objs ∨ y = o.setParentNode true := by
  unfold Node.addObject at h
  split at h
  · simp only [Res.ok.injEq, Prod.mk.injEq] at h
    rw [← h.1]; exact fun o ho _ => .inl ho
  · intro y hy hne
    have := updateProfile_objs h y hy hne
    simpa using this

theorem setObject_objs {e : Endian} {db : Db} (hdb : Blank db) {junk : Nat → Byte} {n n' : Node} {c : CInt} {eff : List Effect} {r : Bool}
    (h : n.setObject e db junk c = .ok (n', eff, r)) :
    ∀ y ∈ n'.objs, objEoj y ≠ profileEoj → y ∈ n.objs ∨ Empty y := by
  unfold Node.setObject at h
  split at h
  · simp only [Res.ok.injEq, Prod.mk.injEq] at h
    rw [← h.1]; exact fun o ho _ => .inl ho
  · simp only [Res.bind_eq_ok] at h
    obtain ⟨⟨o, a⟩, h1, h2⟩ := h
    intro y hy hne
    rcases addObject_objs h2 y hy hne with h | rfl
    · exact .inl h
    · have := setCode_empty hdb h1
      exact .inr this

theorem searchLoop_objs {e : Endian} {db : Db} (hdb : Blank db) {orc : Oracle} {data : List Byte} :
    ∀ {fuel idx k : Nat} {n n' : Node} {u u' : Bool}, Ctrl.searchLoop e db orc data fuel idx k n u = .ok (n', u') →
      ∀ y ∈ n'.objs, objEoj y ≠ profileEoj → y ∈ n.objs ∨ Empty y
  | 0, idx, k, n, n', u, u', h => by
      simp only [Ctrl.searchLoop, Res.ok.injEq, Prod.mk.injEq] at h
      rw [← h.1]; exact fun o ho _ => .inl ho
  | fuel + 1, idx, k, n, n', u, u', h => by
      unfold Ctrl.searchLoop at h
      split at h
      · simp only [Res.bind_eq_ok] at h
        obtain ⟨b, _, code, _, h⟩ := h
        split at h
        · exact searchLoop_objs hdb h
        · simp only [Res.bind_eq_ok] at h
          obtain ⟨⟨n1, e1, r1⟩, h1, h2⟩ := h
          intro y hy hne
          rcases searchLoop_objs hdb h2 y hy hne with h | h
          · exact setObject_objs hdb h1 y h hne
          · exact .inr h
      · simp only [Res.ok.injEq, Prod.mk.injEq] at h
        rw [← h.1]; exact fun o ho _ => .inl ho

theorem onObj_address {e : Endian} {n n' : Node} {i : Nat} {f : Obj → Res Obj.Out} {eff : List Effect}
    (h : n.onObj e i f = .ok (n', eff)) : n'.address = n.address := by
  unfold Node.onObj at h
  split at h
  · cases h
  · simp only [Res.bind_eq_ok, announceAll_eq, Res.ok.injEq] at h
    obtain ⟨⟨o, a⟩, _, h⟩ := h
    simp only at h
    split at h <;> simp only [Prod.mk.injEq] at h <;> rw [← h.1]

theorem updateProfile_address {e : Endian} {n n' : Node} {eff : List Effect} {r : Bool}
    (h : n.updateProfile e = .ok (n', eff, r)) : n'.address = n.address := by
  unfold Node.updateProfile at h
  split at h
  · simp only [Res.ok.injEq, Prod.mk.injEq] at h
    rw [← h.1]
  · split at h
    · cases h
    · split at h
      · simp only [Res.bind_eq_ok, Res.pure_eq, Res.ok.injEq, Prod.mk.injEq] at h
        obtain ⟨⟨_, _⟩, h, rfl, _⟩ := h
        exact onObj_address h
      · simp only [Res.ok.injEq, Prod.mk.injEq] at h
        rw [← h.1]

theorem setObject_address {e : Endian} {db : Db} {junk : Nat → Byte} {n n' : Node} {c : CInt} {eff : List Effect} {r : Bool}
    (h : n.setObject e db junk c = .ok (n', eff, r)) : n'.address = n.address := by
  unfold Node.setObject Node.addObject at h
  split at h
  · simp only [Res.ok.injEq, Prod.mk.injEq] at h
    rw [← h.1]
  · simp only [Res.bind_eq_ok] at h
    obtain ⟨_, _, h⟩ := h
    split at h
    · simp only [Res.ok.injEq, Prod.mk.injEq] at h
      rw [← h.1]
    · have := updateProfile_address h
      exact this

theorem searchLoop_address {e : Endian} {db : Db} {orc : Oracle} {data : List Byte} :
    ∀ {fuel idx k : Nat} {n n' : Node} {u u' : Bool}, Ctrl.searchLoop e db orc data fuel idx k n u = .ok (n', u') →
      n'.address = n.address
  | 0, idx, k, n, n', u, u', h => by
      simp only [Ctrl.searchLoop, Res.ok.injEq, Prod.mk.injEq] at h
      rw [← h.1]
  | fuel + 1, idx, k, n, n', u, u', h => by
      unfold Ctrl.searchLoop at h
      split at h
      · simp only [Res.bind_eq_ok] at h
        obtain ⟨b, _, code, _, h⟩ := h
        split at h
        · exact searchLoop_address h
        · simp only [Res.bind_eq_ok] at h
          obtain ⟨⟨n1, e1, r1⟩, h1, h2⟩ := h
          rw [searchLoop_address h2]; exact setObject_address h1
      · simp only [Res.ok.injEq, Prod.mk.injEq] at h
        rw [← h.1]

theorem new_objs {e : Endian} {db : Db} {junk rnd : Nat → Byte} {t : BitVec 32} {n : Node} {eff : List Effect}
    (h : Node.new e db junk rnd t = .ok (n, eff)) : ∀ y ∈ n.objs, objEoj y = profileEoj := by
  obtain ⟨n1, eff1, g1, _, g2, _⟩ := nodeNew e db junk rnd t
  rw [g1] at h
  simp only [Res.ok.injEq, Prod.mk.injEq] at h
  rw [← h.1]
  intro y hy
  have : objEoj y ∈ eojs n1 := List.mem_map.2 ⟨y, hy, rfl⟩
  rw [g2] at this
  simpa using this

/-! ### what a controller's cache contains -/

/-- the value was the value of the property in one of these states -/
def Was (past : List Node) (x : Byte × Byte × Byte) (k : Byte) (d : List Byte) : Prop :=
  d = [] ∨ ∃ p ∈ past, value p x k = some d

def Good (past : List Node) (o : Obj) : Prop := ∀ k d, ¬ IsMapCode k → dataOf o k = some d → Was past (objEoj o) k d

theorem Good.mono {a b : List Node} {o : Obj} (h : Good a o) (hs : ∀ p ∈ a, p ∈ b) : Good b o := by
  intro k d hk hd
  rcases h k d hk hd with h | ⟨p, hp, hv⟩
  · exact .inl h
  · exact .inr ⟨p, hs p hp, hv⟩

/-- the cached devices of the node with this address -/
def CacheOk (a : String) (P : Obj → Prop) (c : Ctrl) : Prop :=
  ∀ m ∈ c.nodes, m.address = some a → ∀ o ∈ m.objs, objEoj o ≠ profileEoj → P o

theorem handleSearch_cache {e : Endian} {db : Db} (hdb : Blank db) {orc : Oracle} {c c' : Ctrl} (hi : CInv c) {m : Message}
    {ev : List CEvent} {a : String} {P : Obj → Prop} (hP : ∀ o, Empty o → P o)
    (h : Ctrl.handleSearch e db orc c m = .ok (c', ev)) (hc : CacheOk a P c) : CacheOk a P c' := by
  unfold Ctrl.handleSearch at h
  simp only [Res.bind_eq_ok] at h
  obtain ⟨q, _, h⟩ := h
  split at h
  · simp only [Res.pure_eq, Res.ok.injEq, Prod.mk.injEq] at h
    rw [← h.1]; exact hc
  · split at h
    · simp only [Res.pure_eq, Res.ok.injEq, Prod.mk.injEq] at h
      rw [← h.1]; exact hc
    · split at h
      · simp only [Res.pure_eq, Res.ok.injEq, Prod.mk.injEq] at h
        rw [← h.1]; exact hc
      · rename_i b hb
        simp only [Res.bind_eq_ok, Res.pure_eq, Res.ok.injEq, Prod.mk.injEq] at h
        obtain ⟨⟨ns, i, added⟩, h1, n0, h2, ⟨n', u⟩, h3, rfl, _⟩ := h
        simp only at h2 h3
        have hns : ∀ y ∈ ns, y ∈ c.nodes ∨ ∀ o ∈ y.objs, objEoj o = profileEoj := by
          unfold Ctrl.obtainNode at h1
          split at h1
          · simp only [Res.ok.injEq, Prod.mk.injEq] at h1
            rw [← h1.1]; exact fun y hy => .inl hy
          · simp only [Res.bind_eq_ok, Res.pure_eq, Res.ok.injEq, Prod.mk.injEq] at h1
            obtain ⟨⟨n1, e1⟩, g1, rfl, _⟩ := h1
            intro y hy
            rcases List.mem_append.1 hy with hy | hy
            · exact .inl hy
            · simp only [List.mem_singleton] at hy
              subst hy
              exact .inr (new_objs (n := n1) g1)
        have hall : ∀ y ∈ ns, y.address = some a → ∀ o ∈ y.objs, objEoj o ≠ profileEoj → P o := by
          intro y hy ha o ho hne
          rcases hns y hy with h | h
          · exact hc y h ha o ho hne
          · exact absurd (h o ho) hne
        have hn0 : n0 ∈ ns := by
          unfold rd at h2
          split at h2
          · rename_i x hx
            cases h2
            exact List.mem_of_getElem? hx
          · cases h2
        have haddr : n'.address = n0.address := searchLoop_address h3
        intro y hy ha o ho hne
        rcases List.mem_or_eq_of_mem_set hy with hy | rfl
        · exact hall y hy ha o ho hne
        · rcases searchLoop_objs hdb h3 o ho hne with h | h
          · exact hall n0 hn0 (by rw [← haddr]; exact ha) o h hne
          · exact hP o h

theorem handleNode_cache {e : Endian} {orc : Oracle} {c c' : Ctrl} (hi : CInv c) {f : Frame} (hf : f.WF) {i : Nat} {n : Node}
    {a b : String} (hn : c.nodes[i]? = some n) (hb : n.address = some b) {ev : List CEvent} {P : Obj → Prop}
    (hP : b = a → Reports f.esv → f.seoj ≠ profileEoj → ∀ o o', P o → objEoj o = f.seoj → objEoj o' = objEoj o →
      (∀ k, ¬ IsMapCode k → dataOf o' k = (lastOf (reported f) k).or (dataOf o k)) → P o')
    (h : Ctrl.handleNode e orc c i (reqMsg f (some b)) = .ok (c', ev)) (hc : CacheOk a P c) : CacheOk a P c' := by
  obtain ⟨n', u, g1, _, g2, _, g3, g4⟩ := handleNode_spec e orc hi hf hn hb
  rw [g1] at h
  simp only [Res.ok.injEq, Prod.mk.injEq] at h
  rw [← h.1]
  intro y hy ha o ho hne
  rcases List.mem_or_eq_of_mem_set hy with hy | rfl
  · exact hc y hy ha o ho hne
  · have hab : b = a := by rw [g2] at ha; exact Option.some.inj ha
    have hnm := List.mem_of_getElem? hn
    by_cases hr : Reports f.esv ∧ (destObj n f.seoj).isSome
    · obtain ⟨hr, hs⟩ := hr
      obtain ⟨o1, ho1⟩ := Option.isSome_iff_exists.1 hs
      obtain ⟨j, o2, t, k1, _, k3, k4⟩ := g4 hr o1 ho1
      rw [k3] at ho
      rcases List.mem_or_eq_of_mem_set ho with ho | rfl
      · exact hc n hnm (by rw [hb, hab]) o ho hne
      · have he : objEoj o1 = f.seoj := destObj_code ho1
        have hne' : f.seoj ≠ profileEoj := by rw [← he, ← k4.eoj]; exact hne
        refine hP hab hr hne' o1 o (hc n hnm (by rw [hb, hab]) o1 (destObj_mem ho1) (by rw [he]; exact hne')) he k4.eoj ?_
        intro k hk
        exact k4.data k (.inl hk)
    · rw [(g3 hr).1] at ho
      exact hc n hnm (by rw [hb, hab]) o ho hne

theorem receive_cache {e : Endian} {db : Db} (hdb : Blank db) {orc : Oracle} {c c' : Ctrl} (hi : CInv c) {h h' : Heap}
    {loc : Option String} {a b : String} {d : List Byte} {ev : List CEvent} {P : Obj → Prop} (hE : ∀ o, Empty o → P o)
    (hP : b = a → ∀ f rest, f.WF → d = encode f ++ rest → Reports f.esv → f.seoj ≠ profileEoj → ∀ o o', P o → objEoj o = f.seoj →
      objEoj o' = objEoj o → (∀ k, ¬ IsMapCode k → dataOf o' k = (lastOf (reported f) k).or (dataOf o k)) → P o')
    (hr : c.receive e db orc h loc (some b) d = .ok (c', h', ev)) (hc : CacheOk a P c) : CacheOk a P c' := by
  cases hd : decode d with
  | none =>
    rw [receive_bad e db orc c h loc b hd] at hr
    simp only [Res.ok.injEq, Prod.mk.injEq] at hr
    rw [← hr.1]; exact hc
  | some x =>
    obtain ⟨f, r⟩ := x
    obtain ⟨rfl, hf⟩ := decode_sound hd
    obtain ⟨n1, eff, s2, ev3, _, _, _, _, g5⟩ := (recv e db orc hf hr).ex
    have hi1 : CInv { c with node := n1 } := ⟨hi.node, hi.addr, hi.nodup⟩
    rcases g5 with ⟨d, hs, g5⟩ | ⟨_, _, rfl, _⟩ | ⟨_, _, i, hx, g5⟩
    · exact handleSearch_cache hdb hi1 hE g5 hc
    · exact hc
    · rcases nodeIdx_spec hi b with ⟨_, j, _⟩ | ⟨i', n, _, j, j1, j2⟩
      · rw [hx] at j; cases j
      · rw [hx] at j
        cases j
        exact handleNode_cache hi1 hf j1 j2 (fun hb hR hne o o' => hP hb f r hf rfl hR hne o o') g5 hc

theorem ctrlStep_nodes {e : Endian} {db : Db} {c c' : Ctrl} (h : CtrlStep e db c c') : c'.nodes = c.nodes ∨ c'.nodes = [] := by
  cases h with
  | start b hs =>
    unfold Ctrl.start at hs
    simp only [Res.bind_eq_ok, Res.pure_eq, Res.ok.injEq, Prod.mk.injEq] at hs
    obtain ⟨_, _, rfl, _⟩ := hs
    exact .inr rfl
  | announce m hs =>
    unfold Ctrl.announceMessage at hs
    simp only [Res.bind_eq_ok, Res.pure_eq, Res.ok.injEq, Prod.mk.injEq] at hs
    obtain ⟨_, _, rfl, _⟩ := hs
    exact .inl rfl
  | search esv hs =>
    unfold Ctrl.searchWithEsv Ctrl.announceMessage at hs
    simp only [Res.bind_eq_ok, Res.pure_eq, Res.ok.injEq, Prod.mk.injEq] at hs
    obtain ⟨_, _, _, _, rfl, _⟩ := hs
    exact .inl rfl
  | searchObject code esv hs =>
    unfold Ctrl.searchObjectWithEsv Ctrl.announceMessage at hs
    simp only [Res.bind_eq_ok, Res.pure_eq, Res.ok.injEq, Prod.mk.injEq] at hs
    obtain ⟨_, _, _, _, _, _, rfl, _⟩ := hs
    exact .inl rfl
  | postBegin a req res s hs =>
    unfold Ctrl.postBegin at hs
    simp only at hs
    split at hs
    · simp at hs
    · simp only [Res.bind_eq_ok, Res.pure_eq, Res.ok.injEq, Prod.mk.injEq] at hs
      obtain ⟨_, _, rfl, _⟩ := hs
      exact .inl rfl
  | _ => exact .inl rfl

theorem world_reach {e : Endian} {db : Db} {a : String} {ok : Node → Act → Prop} {past : List Node} {sent : List Effect}
    {n : Node} {c : Ctrl} (h : World e db a ok past sent n c) : CtrlReach e db c := by
  induction h with
  | init junk rnd tid0 req0 _ hl => exact .new req0 hl
  | act x _ _ _ _ ih => exact ih
  | user _ hs ih =>
    cases hs with
    | setMessageListener b => exact .setMessageListener b ih
    | setNodeListener b => exact .setNodeListener b ih
    | enableOption p => exact .enableOption p ih
    | disableOption p => exact .disableOption p ih
    | localNode hn => exact .localNode ih hn
    | start b hs => exact .start b ih hs
    | announce m hs => exact .announce m ih hs
    | search esv hs => exact .search esv ih hs
    | searchObject c esv hs => exact .searchObject c esv ih hs
    | postBegin a req res s hs => exact .postBegin a req res s ih hs
    | postEnd => exact .postEnd ih
  | hear orc loc to d _ _ hr ih => exact .receive orc loc _ d ih hr
  | other orc loc b d _ _ hr ih => exact .receive orc loc b d ih hr

/-! ### what the host has sent -/

/-- a frame of the host's: from its profile, or reporting values it had -/
def Truthful (past : List Node) (f : Frame) : Prop :=
  f.seoj = profileEoj ∨ f.WF ∧ (Reports f.esv → ∀ q ∈ reported f, Was past f.seoj q.1 q.2)

def SentOk (past : List Node) (sent : List Effect) : Prop :=
  ∀ to bs, Effect.send to bs ∈ sent → ∃ f, bs = (encode f).map some ∧ Truthful past f

theorem Truthful.mono {a b : List Node} {f : Frame} (h : Truthful a f) (hs : ∀ p ∈ a, p ∈ b) : Truthful b f := by
  rcases h with h | ⟨h1, h2⟩
  · exact .inl h
  · refine .inr ⟨h1, fun hr q hq => ?_⟩
    rcases h2 hr q hq with h | ⟨p, hp, hv⟩
    · exact .inl h
    · exact .inr ⟨p, hs p hp, hv⟩

theorem FromProfile.sentOk {eff : List Effect} (h : FromProfile eff) (past : List Node) : SentOk past eff := by
  intro to bs hb
  obtain ⟨f, h1, h2⟩ := h to bs hb
  exact ⟨f, h1, .inl h2⟩

theorem world_past {e : Endian} {db : Db} {a : String} {ok : Node → Act → Prop} {past : List Node} {sent : List Effect}
    {n : Node} {c : Ctrl} (h : World e db a ok past sent n c) : n ∈ past := by
  induction h with
  | init => simp
  | act => simp
  | user _ _ ih => exact ih
  | hear _ _ _ _ _ _ _ ih => exact ih
  | other _ _ _ _ _ _ _ ih => exact ih

theorem world_sent {e : Endian} {db : Db} {a : String} {ok : Node → Act → Prop} {past : List Node} {sent : List Effect}
    {n : Node} {c : Ctrl} (h : World e db a ok past sent n c) (hfit : ∀ p ∈ past, Fits p) : SentOk past sent := by
  induction h with
  | init junk rnd tid0 req0 hn _ => exact (new_profile hn).sentOk _
  | @act past sent n c n' eff x hw hs _ hx ih =>
    have hsub : ∀ p ∈ past, p ∈ n' :: past := fun p hp => List.mem_cons_of_mem _ hp
    have ih := ih (fun p hp => hfit p (hsub p hp))
    intro to bs hb
    rcases List.mem_append.1 hb with hb | hb
    · obtain ⟨f, h1, h2⟩ := ih to bs hb
      exact ⟨f, h1, h2.mono hsub⟩
    · by_cases hg : ∃ g, x = .receive g
      · obtain ⟨g, rfl⟩ := hg
        obtain ⟨f, rest, o, hf, _, hreq, ho, ho', hcase⟩ := receive_sends hs hx hb
        rcases hcase with ⟨t, p, _, rfl⟩ | ⟨v, hv, rfl⟩
        · exact ⟨_, rfl, .inl rfl⟩
        · refine ⟨_, rfl, .inr ⟨respFrame_wf hf hreq ?_ hv, fun hr q hq => ?_⟩⟩
          · exact hfit n (hsub n (world_past hw)) o (destObj_mem ho)
          · rcases respFrame_values hf hreq hv hr hq with h | h | h
            · exact .inl h
            · refine .inr ⟨n, hsub n (world_past hw), ?_⟩
              show (destObj n f.deoj).bind _ = _
              rw [ho]; exact h
            · refine .inr ⟨n', List.mem_cons_self .., ?_⟩
              show (destObj n' f.deoj).bind _ = _
              rw [ho']; exact h
      · exact (act_profile hs (fun g hg' => hg ⟨g, hg'⟩) hx).sentOk _ to bs hb
  | user _ _ ih => exact ih hfit
  | hear _ _ _ _ _ _ _ ih => exact ih hfit
  | other _ _ _ _ _ _ _ ih => exact ih hfit

theorem encode_seoj {f g : Frame} {r : List Byte} (h : encode f = encode g ++ r) : f.seoj = g.seoj := by
  unfold encode at h
  simp only [List.cons_append, List.nil_append, List.cons.injEq] at h
  obtain ⟨_, _, _, _, h1, h2, h3, _⟩ := h
  exact Prod.ext h1 (Prod.ext h2 h3)

theorem lastOf_mem : ∀ {qs : List Prop8} {k : Byte} {d : List Byte}, lastOf qs k = some d → (k, d) ∈ qs
  | [], _, _, h => by simp [lastOf] at h
  | q :: qs, k, d, h => by
      unfold lastOf at h
      cases hl : lastOf qs k with
      | some d' =>
        rw [hl] at h
        simp only [Option.some_or, Option.some.injEq] at h
        subst h
        exact List.mem_cons_of_mem _ (lastOf_mem hl)
      | none =>
        rw [hl] at h
        simp only [Option.none_or] at h
        split at h
        · rename_i hq
          simp only [Option.some.injEq] at h
          subst h; subst hq
          exact List.mem_cons_self ..
        · cases h

theorem world_cache {e : Endian} {db : Db} (hdb : Blank db) {a : String} {ok : Node → Act → Prop} {past : List Node}
    {sent : List Effect} {n : Node} {c : Ctrl} (h : World e db a ok past sent n c) (hfit : ∀ p ∈ past, Fits p) :
    CacheOk a (Good past) c := by
  have hE : ∀ past, ∀ o, Empty o → Good past o := fun _ o h k d hk hd => .inl (h k d hk hd)
  induction h with
  | init => intro m hm; simp [Ctrl.new] at hm
  | act x _ _ _ _ ih =>
    intro m hm ha o ho hne
    exact (ih (fun p hp => hfit p (List.mem_cons_of_mem _ hp)) m hm ha o ho hne).mono fun p hp => List.mem_cons_of_mem _ hp
  | user _ hs ih =>
    rcases ctrlStep_nodes hs with h | h
    · intro m hm; rw [h] at hm; exact ih hfit m hm
    · intro m hm; rw [h] at hm; cases hm
  | @hear past sent n c c' h h' ev orc loc to d hw hd hr ih =>
    refine receive_cache hdb (reach_cinv (world_reach hw)) (hE _) (b := a) ?_ hr (ih hfit)
    intro _ f rest hf hdf hR hne o o' hg he he' hdat k d' hk hd'
    obtain ⟨f0, h1, h2⟩ := world_sent hw hfit to _ hd
    have hde : d = encode f0 := (List.map_inj_right (fun _ _ h => Option.some.inj h)).1 h1
    rw [hde] at hdf
    have hseoj := encode_seoj hdf
    rcases h2 with h2 | ⟨h2, h3⟩
    · exact absurd (by rw [← hseoj]; exact h2) hne
    · have hff : f0 = f := by
        have h4 := decode_complete (r := []) h2
        rw [List.append_nil, hdf, decode_complete hf] at h4
        simp only [Option.some.injEq, Prod.mk.injEq] at h4
        exact h4.1.symm
      subst hff
      rw [hdat k hk] at hd'
      cases hl : lastOf (reported f0) k with
      | some d1 =>
        rw [hl] at hd'
        simp only [Option.some_or, Option.some.injEq] at hd'
        subst hd'
        rw [he', he]
        exact h3 hR _ (lastOf_mem hl)
      | none =>
        rw [hl] at hd'
        simp only [Option.none_or] at hd'
        rw [he']
        exact hg k d' hk hd'
  | @other past sent n c c' h h' ev orc loc b d hw hb hr ih =>
    refine receive_cache hdb (reach_cinv (world_reach hw)) (hE _) (b := b) ?_ hr (ih hfit)
    intro h; exact absurd h hb

end Uecho.Lemmas
