import Verif.Spec.Frame
/-! Lemmas: pure parser of property sections and its relation to the model. -/
set_option linter.unusedSimpArgs false
namespace Uecho.Lemmas
open Uecho Uecho.Spec

/-- Pure parser of `n` properties (helper, not part of any statement). -/
def pp : Nat → List Byte → Option (List Prop8 × List Byte)
  | 0, s => some ([], s)
  | n + 1, c :: k :: s =>
      if k.toNat ≤ s.length then
        match pp n (s.drop k.toNat) with
        | some (ps, r) => some ((c, s.take k.toNat) :: ps, r)
        | none => none
      else none
  | _ + 1, _ => none

def ppSection : List Byte → Option (List Prop8 × List Byte)
  | [] => none
  | n :: s => pp n.toNat s

theorem pp_sound : ∀ n s ps r, pp n s = some (ps, r) →
    s = ps.flatMap encodeProp ++ r ∧ ps.length = n ∧ ∀ p ∈ ps, p.2.length ≤ 255
  | 0, s, ps, r, h => by
      simp [pp] at h; obtain ⟨rfl, rfl⟩ := h; simp
  | n + 1, [], ps, r, h => by simp [pp] at h
  | n + 1, [_], ps, r, h => by simp [pp] at h
  | n + 1, c :: k :: s, ps, r, h => by
      simp only [pp] at h
      split at h
      · rename_i hk
        split at h
        · rename_i ps' r' h'
          simp at h; obtain ⟨rfl, rfl⟩ := h
          obtain ⟨h1, h2, h3⟩ := pp_sound n _ _ _ h'
          have hlen : (s.take k.toNat).length = k.toNat := by simp [hk]
          refine ⟨?_, by simp [h2], ?_⟩
          · have : s = s.take k.toNat ++ s.drop k.toNat := (List.take_append_drop _ _).symm
            rw [h1] at this
            simp only [List.flatMap_cons, encodeProp, hlen]
            simp only [List.cons_append, List.append_assoc, BitVec.ofNat_toNat, BitVec.setWidth_eq]
            rw [← this]
          · intro p hp
            simp at hp
            rcases hp with rfl | hp
            · simp; have := k.isLt; omega
            · exact h3 p hp
        · simp at h
      · simp at h

theorem pp_complete : ∀ ps r, (∀ p ∈ ps, p.2.length ≤ 255) →
    pp ps.length (ps.flatMap encodeProp ++ r) = some (ps, r)
  | [], r, _ => by simp [pp]
  | (c, d) :: ps, r, h => by
      have hd : d.length ≤ 255 := h (c, d) (by simp)
      have ih := pp_complete ps r (fun p hp => h p (by simp [hp]))
      have hk : (BitVec.ofNat 8 d.length).toNat = d.length := by simp; omega
      simp only [List.flatMap_cons, encodeProp, List.length_cons, List.cons_append, List.append_assoc,
        pp, hk]
      simp [ih]

/-- What parsing stores in a slot. -/
def fill (p : Property) (q : Prop8) : Property := { p with code := q.1, data := q.2 }

theorem setData_fst (p : Property) (d : List Byte) : (p.setData d).1 = { p with data := d } := by
  unfold Property.setData Property.setCount
  by_cases h : d.length = 0
  · have : d = [] := List.eq_nil_of_length_eq_zero h
    subst this; simp [Property.clearData]
  · simp [h, Property.clearData]

theorem rd_eq {α} {a : List α} {i : Nat} (h : i < a.length) : rd a i = .ok a[i] := by
  simp [rd, h]

theorem propertyParse_spec (data : List Byte) (len : Nat) (hl : len ≤ data.length) (h1 : 1 ≤ len) :
    ∀ (ps : List Property) (off : Nat), off ≤ len →
    ∃ ok ps' off', Message.propertyParse data len ps off = .ok (ok, ps', off') ∧
      ps'.length = ps.length ∧
      (match pp ps.length ((data.take len).drop off) with
       | some (qs, r) => ok = true ∧ ps' = List.zipWith fill ps qs ∧ off' ≤ len ∧
            r = (data.take len).drop off'
       | none => ok = false)
  | [], off, ho => by
      refine ⟨true, [], off, by simp [Message.propertyParse], rfl, ?_⟩
      simp [pp, ho]
  | p :: ps, off, ho => by
      unfold Message.propertyParse
      have hs1 : szSub len 1 = len - 1 := by simp [szSub, h1]
      rw [hs1]
      by_cases h : len - 1 < off
      · have : off = len := by omega
        subst this
        refine ⟨false, p :: ps, off, by simp [h], rfl, ?_⟩
        simp [pp]
      · have hlt : off < len := by omega
        have hr : rd data off = .ok data[off] := rd_eq (by omega)
        have hd : (data.take len).drop off = data[off] :: (data.take len).drop (off + 1) := by
          rw [List.drop_eq_getElem_cons (by simp; omega)]; simp
        simp only [h, if_false, hr, Res.bind_ok]
        by_cases h' : len - 1 < off + 1
        · have : off + 1 = len := by omega
          refine ⟨false, p.setCode data[off] :: ps, off + 1, by simp [h'], by simp, ?_⟩
          rw [hd]
          have : (data.take len).drop (off + 1) = [] := List.drop_eq_nil_of_le (by simp; omega)
          rw [this]; simp [pp]
        · have hlt' : off + 1 < len := by omega
          have hr' : rd data (off + 1) = .ok data[off + 1] := rd_eq (by omega)
          have hd' : (data.take len).drop (off + 1) =
              data[off + 1] :: (data.take len).drop (off + 2) := by
            rw [List.drop_eq_getElem_cons (by simp; omega)]; simp
          simp only [h', if_false, hr', Res.bind_ok]
          generalize hk : data[off + 1] = k at *
          have hs2 : szSub (off + 1 + 1 + k.toNat) 1 = off + 1 + k.toNat := by
            simp [szSub]
          rw [hs2]
          have hrem : ((data.take len).drop (off + 2)).length = len - (off + 2) := by
            simp; omega
          by_cases h2 : len - 1 < off + 1 + k.toNat
          · refine ⟨false, p.setCode data[off] :: ps, off + 1 + 1, by simp [h2], by simp, ?_⟩
            rw [hd, hd']
            simp only [List.length_cons, pp]
            rw [hrem]
            have : ¬ k.toNat ≤ len - (off + 2) := by omega
            simp [this]
          · have hr2 : rdN data (off + 1 + 1) k.toNat = .ok ((data.drop (off + 2)).take k.toNat) := by
              unfold rdN; rw [if_pos (by omega)]
            simp only [h2, if_false, hr2, Res.bind_ok]
            have htk : (data.drop (off + 2)).take k.toNat =
                ((data.take len).drop (off + 2)).take k.toNat := by
              rw [List.drop_take, List.take_take]
              congr 1; omega
            have hdd : ((data.take len).drop (off + 2)).drop k.toNat =
                (data.take len).drop (off + 1 + 1 + k.toNat) := by
              rw [List.drop_drop]
            obtain ⟨ok, ps', off', he, hlen, hm⟩ :=
              propertyParse_spec data len hl h1 ps (off + 1 + 1 + k.toNat) (by omega)
            rw [he]
            refine ⟨ok, _, off', by simp [setData_fst]; rfl, by simp [hlen], ?_⟩
            rw [hd, hd']
            simp only [List.length_cons, pp]
            rw [hrem, if_pos (by omega), hdd]
            cases hpp : pp ps.length ((data.take len).drop (off + 1 + 1 + k.toNat)) with
            | none => rw [hpp] at hm; simpa using hm
            | some x =>
              obtain ⟨qs, r⟩ := x
              rw [hpp] at hm
              simp only at hm ⊢
              obtain ⟨a, b, c, d⟩ := hm
              refine ⟨a, ?_, c, d⟩
              rw [b, htk]; rfl

/-! ## Message invariants -/

/-- Every property array has exactly as many slots as its count. -/
structure MsgWF (m : Message) : Prop where
  ep : m.ep.length = m.opc.toNat
  epSet : m.epSet.length = m.opcSet.toNat
  epGet : m.epGet.length = m.opcGet.toNat

theorem slots_eq {o : Byte} {l : List Property} (h : l.length = o.toNat) :
    Message.slots o l = .ok l := by
  unfold Message.slots
  rw [if_pos (by omega), ← h, List.take_length]

theorem clear_eq {m : Message} (h : MsgWF m) :
    m.clear = .ok { m with fromAddr := none, toAddr := none, opc := 0, ep := [],
                           opcSet := 0, epSet := [], opcGet := 0, epGet := [] } := by
  simp [Message.clear, Message.clearProperties, slots_eq h.ep, slots_eq h.epSet, slots_eq h.epGet]

theorem isReadWrite_iff (e : Byte) : Esv.isReadWrite e = true ↔ IsSetGet e := by
  simp [Esv.isReadWrite, IsSetGet, or_assoc]

/-- Pure decoder of a whole frame (helper). -/
def decode : List Byte → Option (Frame × List Byte)
  | d0 :: d1 :: t0 :: t1 :: s0 :: s1 :: s2 :: e0 :: e1 :: e2 :: v :: s =>
      if d0 = 0x10#8 ∧ d1 = 0x81#8 then
        if IsSetGet v then
          match ppSection s with
          | none => none
          | some (ps, r) =>
            match ppSection r with
            | none => none
            | some (gs, r) => some (⟨(t0, t1), (s0, s1, s2), (e0, e1, e2), v, .setGet ps gs⟩, r)
        else
          match ppSection s with
          | none => none
          | some (ps, r) => some (⟨(t0, t1), (s0, s1, s2), (e0, e1, e2), v, .plain ps⟩, r)
      else none
  | _ => none

theorem ppSection_sound {s ps r} (h : ppSection s = some (ps, r)) :
    s = encodeSection ps ++ r ∧ SectionOK ps := by
  cases s with
  | nil => simp [ppSection] at h
  | cons n s =>
    obtain ⟨h1, h2, h3⟩ := pp_sound _ _ _ _ h
    refine ⟨?_, ?_, h3⟩
    · simp [encodeSection, h2, ← h1]
    · have := n.isLt; omega

theorem ppSection_complete {ps r} (h : SectionOK ps) :
    ppSection (encodeSection ps ++ r) = some (ps, r) := by
  have : (BitVec.ofNat 8 ps.length).toNat = ps.length := by
    have := h.1; simp; omega
  simp only [encodeSection, List.cons_append, ppSection, this]
  exact pp_complete ps r h.2

theorem decode_sound {s f r} (h : decode s = some (f, r)) : s = encode f ++ r ∧ f.WF := by
  unfold decode at h
  split at h
  · split at h
    · rename_i hd
      obtain ⟨rfl, rfl⟩ := hd
      split at h
      · rename_i hv
        split at h
        · simp at h
        · rename_i h1
          split at h
          · simp at h
          · rename_i h2
            simp at h; obtain ⟨rfl, rfl⟩ := h
            obtain ⟨a1, b1⟩ := ppSection_sound h1
            obtain ⟨a2, b2⟩ := ppSection_sound h2
            refine ⟨?_, hv, b1, b2⟩
            simp [encode, encodeBody, a1, a2]
      · rename_i hv
        split at h
        · simp at h
        · rename_i h1
          simp at h; obtain ⟨rfl, rfl⟩ := h
          obtain ⟨a1, b1⟩ := ppSection_sound h1
          refine ⟨?_, hv, b1⟩
          simp [encode, encodeBody, a1]
    · simp at h
  · simp at h

theorem decode_complete {f : Frame} {r} (h : f.WF) : decode (encode f ++ r) = some (f, r) := by
  obtain ⟨⟨t0, t1⟩, ⟨s0, s1, s2⟩, ⟨e0, e1, e2⟩, v, b⟩ := f
  cases b with
  | plain ps =>
    obtain ⟨h1, h2⟩ := h
    simp only at h1
    simp [encode, encodeBody, decode, h1, ppSection_complete h2]
  | setGet ps gs =>
    obtain ⟨h1, h2, h3⟩ := h
    simp only at h1
    simp [encode, encodeBody, decode, h1, ppSection_complete h2, ppSection_complete h3]

/-- Property object created by the parser. -/
def mkProp (q : Prop8) : Property := fill Property.new q

/-- Message object after a successful parse of the frame `f` into `m`. -/
def parsed (m : Message) (f : Frame) : Message :=
  { ehd1 := m.ehd1, ehd2 := m.ehd2, tid0 := f.tid.1, tid1 := f.tid.2, seoj := f.seoj, deoj := f.deoj,
    esv := f.esv,
    opc := match f.body with | .plain ps => BitVec.ofNat 8 ps.length | .setGet _ _ => 0
    ep := match f.body with | .plain ps => ps.map mkProp | .setGet _ _ => []
    opcSet := match f.body with | .plain _ => 0 | .setGet s _ => BitVec.ofNat 8 s.length
    epSet := match f.body with | .plain _ => [] | .setGet s _ => s.map mkProp
    opcGet := match f.body with | .plain _ => 0 | .setGet _ g => BitVec.ofNat 8 g.length
    epGet := match f.body with | .plain _ => [] | .setGet _ g => g.map mkProp
    fromAddr := none, toAddr := none }

theorem setOpcEp_nil (c : Byte) :
    Message.setOpcEp [] c = (c, List.replicate c.toNat Property.new) := by
  unfold Message.setOpcEp
  split
  · rename_i h; subst h; simp
  · rfl

theorem zipWith_replicate (n : Nat) (qs : List Prop8) (h : qs.length = n) :
    List.zipWith fill (List.replicate n Property.new) qs = qs.map mkProp := by
  subst h
  induction qs with
  | nil => simp
  | cons q qs ih => simp [List.replicate_succ, ih, mkProp]

/-- One section: allocate `cnt` slots and fill them. -/
theorem section_spec (data : List Byte) (len : Nat) (hl : len ≤ data.length) (off : Nat)
    (ho : off < len) :
    ∃ c ok e' off', rd data off = .ok c ∧
      Message.propertyParse data len (List.replicate c.toNat Property.new) (off + 1) =
        .ok (ok, e', off') ∧ e'.length = c.toNat ∧
      (match ppSection ((data.take len).drop off) with
       | some (qs, r) => ok = true ∧ c = BitVec.ofNat 8 qs.length ∧ e' = qs.map mkProp ∧
            off' ≤ len ∧ r = (data.take len).drop off'
       | none => ok = false) := by
  have hd : (data.take len).drop off = data[off] :: (data.take len).drop (off + 1) := by
    rw [List.drop_eq_getElem_cons (by simp; omega)]; simp
  obtain ⟨ok, ps', off', he, hlen, hm⟩ := propertyParse_spec data len hl (by omega)
    (List.replicate data[off].toNat Property.new) (off + 1) (by omega)
  refine ⟨data[off], ok, ps', off', rd_eq (by omega), he, by simpa using hlen, ?_⟩
  rw [hd]
  simp only [List.length_replicate] at hm
  simp only [ppSection]
  cases hpp : pp data[off].toNat ((data.take len).drop (off + 1)) with
  | none => rw [hpp] at hm; simpa using hm
  | some x =>
    obtain ⟨qs, r⟩ := x
    rw [hpp] at hm
    obtain ⟨a, b, c, d⟩ := hm
    obtain ⟨h1, h2, h3⟩ := pp_sound _ _ _ _ hpp
    refine ⟨a, ?_, ?_, c, d⟩
    · rw [h2]; simp
    · rw [b, zipWith_replicate _ _ h2]

theorem parse_spec {m : Message} (hm : MsgWF m) (data : List Byte) (len : Nat)
    (hl : len ≤ data.length) :
    match decode (data.take len) with
    | some (f, _) => m.parse data len = .ok (true, parsed m f)
    | none => ∃ m', m.parse data len = .ok (false, m') ∧ MsgWF m' ∧
        m'.ehd1 = m.ehd1 ∧ m'.ehd2 = m.ehd2 := by
  unfold Message.parse
  rw [clear_eq hm]
  simp only [Res.bind_ok]
  by_cases h12 : len < 12
  · have : decode (data.take len) = none := by
      have hlen : (data.take len).length < 12 := by simp; omega
      generalize data.take len = s at hlen
      unfold decode
      split
      · rename_i v s
        have : s = [] := by
          simp at hlen; exact List.eq_nil_of_length_eq_zero (by omega)
        subst this
        simp [ppSection]
      · rfl
    rw [this]
    simp only [h12, if_true]
    exact ⟨_, rfl, ⟨rfl, rfl, rfl⟩, rfl, rfl⟩
  · simp only [h12, if_false]
    have h12' : 11 < len := by omega
    obtain ⟨c, ok, e', off', hrd, hpp, hlen', hsec⟩ := section_spec data len hl 11 h12'
    have hsec2 := fun (h : off' < len) => section_spec data len hl off' h
    match data, hl with
    | d0 :: d1 :: t0 :: t1 :: s0 :: s1 :: s2 :: e0 :: e1 :: e2 :: v :: tl, hl =>
      obtain ⟨k, rfl⟩ : ∃ k, len = k + 11 := ⟨len - 11, by omega⟩
      simp only [List.take_succ_cons, List.drop_succ_cons, List.drop_zero] at hsec
      simp only [decode, List.take_succ_cons]
      have r0 : ∀ l : List Byte, rd (d0 :: l) 0 = .ok d0 := fun l => rfl
      have r1 : rd (d0 :: d1 :: t0 :: t1 :: s0 :: s1 :: s2 :: e0 :: e1 :: e2 :: v :: tl) 1 = .ok d1 := rfl
      have r2 : rd (d0 :: d1 :: t0 :: t1 :: s0 :: s1 :: s2 :: e0 :: e1 :: e2 :: v :: tl) 2 = .ok t0 := rfl
      have r3 : rd (d0 :: d1 :: t0 :: t1 :: s0 :: s1 :: s2 :: e0 :: e1 :: e2 :: v :: tl) 3 = .ok t1 := rfl
      have r4 : rd (d0 :: d1 :: t0 :: t1 :: s0 :: s1 :: s2 :: e0 :: e1 :: e2 :: v :: tl) 4 = .ok s0 := rfl
      have r5 : rd (d0 :: d1 :: t0 :: t1 :: s0 :: s1 :: s2 :: e0 :: e1 :: e2 :: v :: tl) 5 = .ok s1 := rfl
      have r6 : rd (d0 :: d1 :: t0 :: t1 :: s0 :: s1 :: s2 :: e0 :: e1 :: e2 :: v :: tl) 6 = .ok s2 := rfl
      have r7 : rd (d0 :: d1 :: t0 :: t1 :: s0 :: s1 :: s2 :: e0 :: e1 :: e2 :: v :: tl) 7 = .ok e0 := rfl
      have r8 : rd (d0 :: d1 :: t0 :: t1 :: s0 :: s1 :: s2 :: e0 :: e1 :: e2 :: v :: tl) 8 = .ok e1 := rfl
      have r9 : rd (d0 :: d1 :: t0 :: t1 :: s0 :: s1 :: s2 :: e0 :: e1 :: e2 :: v :: tl) 9 = .ok e2 := rfl
      have r10 : rd (d0 :: d1 :: t0 :: t1 :: s0 :: s1 :: s2 :: e0 :: e1 :: e2 :: v :: tl) 10 = .ok v := rfl
      simp only [r0, r1, r2, r3, r4, r5, r6, r7, r8, r9, r10, Res.bind_ok, hrd]
      by_cases hd0 : d0 = 0x10#8
      · by_cases hd1 : d1 = 0x81#8
        · subst hd0 hd1
          simp only [ne_eq, not_true_eq_false, if_false, and_self, if_true, Message.isReadWrite]
          simp only [Nat.reduceAdd] at hpp
          by_cases hv : IsSetGet v
          · simp only [(isReadWrite_iff v).2 hv, if_true, setOpcEp_nil]
            rw [slots_eq (by simp)]
            simp only [Res.bind_ok, hpp]
            cases hs : ppSection (List.take k tl) with
            | none =>
              rw [hs] at hsec; simp only at hsec
              subst hsec
              simp only [hv, if_true, Bool.not_false]
              exact ⟨_, rfl, ⟨rfl, hlen', rfl⟩, rfl, rfl⟩
            | some x =>
              obtain ⟨qs, r⟩ := x
              rw [hs] at hsec
              obtain ⟨rfl, rfl, rfl, hoff, rfl⟩ := hsec
              have hs1 : szSub (k + 11) 1 = k + 10 := by simp [szSub]
              simp only [Bool.not_true, hs1, hv, if_true]
              by_cases hend : k + 10 < off'
              · have : off' = k + 11 := by omega
                subst this
                simp only [Bool.false_eq_true, if_false, hend, if_true]
                rw [List.drop_eq_nil_of_le (by simp; omega)]
                simp only [ppSection]
                exact ⟨_, rfl, ⟨rfl, by simpa using hlen', rfl⟩, rfl, rfl⟩
              · simp only [Bool.false_eq_true, if_false, hend]
                obtain ⟨c2, ok2, e2', off2, hrd2, hpp2, hlen2, hsec2⟩ := hsec2 (by omega)
                rw [hrd2]
                simp only [Res.bind_ok, setOpcEp_nil]
                rw [slots_eq (by simp)]
                simp only [Res.bind_ok, hpp2]
                simp only [List.take_succ_cons] at hsec2
                cases hs2 : ppSection (List.drop off' (0x10#8 :: 0x81#8 :: t0 :: t1 :: s0 :: s1 ::
                    s2 :: e0 :: e1 :: e2 :: v :: List.take k tl)) with
                | none =>
                  rw [hs2] at hsec2; simp only at hsec2
                  subst hsec2
                  exact ⟨_, rfl, ⟨rfl, by simpa using hlen', hlen2⟩, rfl, rfl⟩
                | some x =>
                  obtain ⟨gs, r⟩ := x
                  rw [hs2] at hsec2
                  obtain ⟨rfl, rfl, rfl, _, rfl⟩ := hsec2
                  rfl
          · have : Esv.isReadWrite v = false := by
              simpa using fun h => hv ((isReadWrite_iff v).1 h)
            simp only [this, Bool.false_eq_true, if_false, setOpcEp_nil, hv]
            rw [slots_eq (by simp)]
            simp only [Res.bind_ok, hpp]
            cases hs : ppSection (List.take k tl) with
            | none =>
              rw [hs] at hsec; simp only at hsec
              subst hsec
              exact ⟨_, rfl, ⟨hlen', rfl, rfl⟩, rfl, rfl⟩
            | some x =>
              obtain ⟨qs, r⟩ := x
              rw [hs] at hsec
              obtain ⟨rfl, rfl, rfl, _, rfl⟩ := hsec
              rfl
        · have : ¬ (d0 = 0x10#8 ∧ d1 = 0x81#8) := fun h => hd1 h.2
          simp only [this, if_false, hd0, hd1, ne_eq, not_true_eq_false, not_false_eq_true, if_true]
          exact ⟨_, rfl, ⟨rfl, rfl, rfl⟩, rfl, rfl⟩
      · have : ¬ (d0 = 0x10#8 ∧ d1 = 0x81#8) := fun h => hd0 h.1
        simp only [this, if_false, hd0, ne_eq, not_false_eq_true, if_true]
        exact ⟨_, rfl, ⟨rfl, rfl, rfl⟩, rfl, rfl⟩

end Uecho.Lemmas
