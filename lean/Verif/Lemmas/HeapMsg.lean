import Verif.Lemmas.Heap
import Verif.Lemmas.Parse
import Verif.Lemmas.Int
/-! # Ownership of blocks: messages -/
namespace Uecho.Lemmas.Blocks
open Uecho Uecho.Spec Uecho.Heap

/-- What `uecho_message_parse` does after the header, on contents. -/
def parseBody (data : List Byte) (len : Nat) (m : Message) : Res (Bool × Message) := do
  let cnt ← rd data 11
  if m.isReadWrite then do
    let s ← Message.slots (Message.setOpcEp m.epSet cnt).1 (Message.setOpcEp m.epSet cnt).2
    let r ← Message.propertyParse data len s 12
    if r.1 then
      if szSub len 1 < r.2.2 then .ok (false, { m with opcSet := (Message.setOpcEp m.epSet cnt).1, epSet := r.2.1 })
      else do
        let cnt2 ← rd data r.2.2
        let s2 ← Message.slots (Message.setOpcEp m.epGet cnt2).1 (Message.setOpcEp m.epGet cnt2).2
        let r2 ← Message.propertyParse data len s2 (r.2.2 + 1)
        .ok (r2.1, { m with opcSet := (Message.setOpcEp m.epSet cnt).1, epSet := r.2.1, opcGet := (Message.setOpcEp m.epGet cnt2).1, epGet := r2.2.1 })
    else .ok (false, { m with opcSet := (Message.setOpcEp m.epSet cnt).1, epSet := r.2.1 })
  else do
    let s ← Message.slots (Message.setOpcEp m.ep cnt).1 (Message.setOpcEp m.ep cnt).2
    let r ← Message.propertyParse data len s 12
    .ok (r.1, { m with opc := (Message.setOpcEp m.ep cnt).1, ep := r.2.1 })

theorem parse_eq (m : Message) (data : List Byte) (len : Nat) :
    m.parse data len = m.clear >>= fun m => readHeader data len >>= fun h =>
      match h with | none => .ok (false, m) | some h => parseBody data len (h.put m) := by
  unfold Message.parse readHeader
  cases m.clear with
  | ub => rfl
  | ok m =>
    simp only [Res.bind_ok]
    by_cases h : len < 12
    · simp [h]
    · simp only [h, if_false]
      cases rd data 0 with
      | ub => rfl
      | ok d0 =>
        simp only [Res.bind_ok]
        by_cases h0 : d0 = 0x10#8
        · simp only [h0, ne_eq, not_true, if_false]
          cases rd data 1 with
          | ub => rfl
          | ok d1 =>
            simp only [Res.bind_ok]
            by_cases h1 : d1 = 0x81#8
            · simp only [h1, ne_eq, not_true, if_false]
              rcases h2 : rd data 2 with x2 | _
              rotate_left
              · rfl
              simp only [Res.bind_ok]
              rcases h3 : rd data 3 with x3 | _
              rotate_left
              · rfl
              simp only [Res.bind_ok]
              rcases h4 : rd data 4 with x4 | _
              rotate_left
              · rfl
              simp only [Res.bind_ok]
              rcases h5 : rd data 5 with x5 | _
              rotate_left
              · rfl
              simp only [Res.bind_ok]
              rcases h6 : rd data 6 with x6 | _
              rotate_left
              · rfl
              simp only [Res.bind_ok]
              rcases h7 : rd data 7 with x7 | _
              rotate_left
              · rfl
              simp only [Res.bind_ok]
              rcases h8 : rd data 8 with x8 | _
              rotate_left
              · rfl
              simp only [Res.bind_ok]
              rcases h9 : rd data 9 with x9 | _
              rotate_left
              · rfl
              simp only [Res.bind_ok]
              rcases h10 : rd data 10 with x10 | _
              rotate_left
              · rfl
              simp only [Res.bind_ok]
              simp only [parseBody, Hdr.put]
              rcases h11 : rd data 11 with cnt | _
              rotate_left
              · rfl
              simp only [Res.bind_ok]
              split
              next hrw =>
                refine Eq.trans ?_ (if_pos hrw).symm
                rcases hs : Message.slots (Message.setOpcEp m.epSet cnt).1 (Message.setOpcEp m.epSet cnt).2 with s | _
                rotate_left
                · simp [hs]
                simp only [hs, Res.bind_ok]
                rcases hp : Message.propertyParse data len s 12 with r | _
                rotate_left
                · rfl
                obtain ⟨ok, e', off⟩ := r
                simp only [Res.bind_ok]
                cases ok with
                | false => rfl
                | true =>
                  simp only [Bool.not_true, Bool.false_eq_true, if_false, if_true]
                  split
                  next => rfl
                  next => rfl
              next hrw =>
                exact (if_neg hrw).symm
            · simp [h1]
        · simp [h0]

theorem secParse_triple (data : List Byte) (len : Nat) (ps : List HProp) : ∀ (off : Nat) {v : Bool × List Property × Nat},
    Message.propertyParse data len (ps.map HProp.val) off = .ok v →
    Triple (propsF ps) (secParse data len ps off) (fun r => propsF r.2.1)
      (fun r => v = (r.1, r.2.1.map HProp.val, r.2.2) ∧ r.2.1.length = ps.length) := by
  induction ps with
  | nil =>
    intro off v h
    cases h
    exact .pure (.refl _) ⟨rfl, rfl⟩
  | cons p ps ih =>
    intro off v h
    simp only [List.map_cons, Message.propertyParse] at h
    unfold secParse
    split
    next h0 =>
      rw [if_pos h0] at h
      cases h
      exact .pure (.refl _) ⟨rfl, rfl⟩
    next h0 =>
      rw [if_neg h0, Res.bind_eq_ok] at h
      obtain ⟨c, hc, h⟩ := h
      refine (lift_triple hc).bind (K := propsF (p :: ps)) (by simp) fun c' e => ?_
      subst e
      refine (use_triple p.self).bind (K := strF p.name ++ ptr p.data ++ propsF ps) (by rw [propsF_cons]; simp only [propF] <;> perm) fun _ _ => ?_
      split
      next h1 =>
        rw [if_pos h1] at h
        cases h
        exact .pure (by rw [propsF_cons]; simp only [propF] <;> perm) ⟨rfl, rfl⟩
      next h1 =>
        rw [if_neg h1, Res.bind_eq_ok] at h
        obtain ⟨cnt, hcnt, h⟩ := h
        refine (lift_triple hcnt).bind (K := propsF (p :: ps)) (by rw [propsF_cons]; simp only [propF] <;> perm) fun cnt' e => ?_
        subst e
        split
        next h2 =>
          rw [if_pos h2] at h
          cases h
          exact .pure (by rw [propsF_cons, propsF_cons]; simp only [propF] <;> perm) ⟨rfl, rfl⟩
        next h2 =>
          rw [if_neg h2, Res.bind_eq_ok] at h
          obtain ⟨d, hd, h⟩ := h
          refine (lift_triple hd).bind (K := propsF (p :: ps)) (by simp) fun d' e => ?_
          subst e
          rw [Res.bind_eq_ok] at h
          obtain ⟨⟨ok, ps', off'⟩, hps, h⟩ := h
          cases h
          refine (propSetData_triple { p with code := c' } d').bind (K := propsF ps) (by rw [propsF_cons]; simp only [propF] <;> perm) fun q hq => ?_
          refine (ih _ hps).bind (K := propF q) (by perm) fun r hr => ?_
          obtain ⟨hr, hl⟩ := hr
          cases hr
          refine .pure (by rw [propsF_cons]; perm) ⟨?_, by simp [hl]⟩
          rw [List.map_cons, hq.1]
          rfl

theorem secRead_triple (s : HSec) (hs : s.arr = none) (count : Byte) (data : List Byte) (len off : Nat) {sl : List Property}
    {v : Bool × List Property × Nat} (hsl : Message.slots (Message.setOpcEp [] count).1 (Message.setOpcEp [] count).2 = .ok sl)
    (hv : Message.propertyParse data len sl off = .ok v) :
    Triple [] (secRead s count data len off) (fun r => secF r.2.1)
      (fun r => SecOk r.2.1 ∧ r.2.1.cnt = (Message.setOpcEp [] count).1 ∧ v = (r.1, (slotsOf r.2.1.arr).map HProp.val, r.2.2)) := by
  refine (secSetOpc_triple s hs count).bind (K := []) (by simp) fun s1 h1 => ?_
  obtain ⟨hok, hcnt, hvals, hnone⟩ := h1
  have e1 : (Message.setOpcEp [] count).1 = count := by unfold Message.setOpcEp; split <;> rfl
  have esl : sl = (slotsOf s1.arr).map HProp.val := by
    rw [e1, ← hvals] at hsl
    unfold Message.slots at hsl
    split at hsl
    · cases hsl
      rw [List.take_of_length_le]
      rw [List.length_map, hok, hcnt]; exact Nat.le_refl _
    · cases hsl
  cases ha : s1.arr with
  | none =>
    rw [ha] at esl
    subst esl
    cases hv
    exact .pure (by simp) ⟨hok, by rw [e1, hcnt], by simp [ha, slotsOf]⟩
  | some x =>
    obtain ⟨a, ps⟩ := x
    have hl : ps.length = s1.cnt.toNat := by have := hok; rw [SecOk, ha] at this; exact this
    simp only
    rw [if_pos (by omega), List.take_of_length_le (by omega), List.drop_of_length_le (by omega)]
    rw [esl, ha] at hv
    refine (use_triple a).bind (K := propsF ps) (by simp only [secF, ha, ptr, slotsOf] <;> perm) fun _ _ => ?_
    refine (secParse_triple data len ps off hv).bind (K := [a]) (by perm) fun r hr => ?_
    refine .pure (by simp only [secF, ptr, slotsOf, List.append_nil] <;> perm) ⟨?_, by rw [e1, hcnt], ?_⟩
    · simp only [SecOk, slotsOf, List.append_nil, hr.2, hl]
    · rw [hr.1]; simp [slotsOf]

/-! ### Messages -/

/-- The counts of a message are right. -/
def MsgOk (m : HMsg) : Prop := SecOk m.plain ∧ SecOk m.set ∧ SecOk m.get

theorem secOk_empty : SecOk ⟨0, none⟩ := rfl

theorem msgNew_triple : Triple [] msgNew msgF (fun m => MsgOk m ∧ m.val = Message.new) :=
  malloc_triple.bind (K := []) (by simp) fun a _ =>
    .pure (by simp [msgF, ptr, secF, slotsOf, propsF]) ⟨⟨rfl, rfl, rfl⟩, rfl⟩

/-- A message without blocks but its own. -/
def cleared (m : HMsg) : HMsg :=
  { m with bytes := none, fromA := none, toA := none, plain := ⟨0, none⟩, set := ⟨0, none⟩, get := ⟨0, none⟩ }

theorem msgClear_triple (m : HMsg) (hm : MsgOk m) : Triple (msgF m) (msgClear m) (fun r => [r.self]) (fun r => r = cleared m) := by
  refine (use_triple m.self).bind (K := ptr m.bytes ++ ptr m.fromA ++ ptr m.toA ++ secF m.plain ++ secF m.set ++ secF m.get)
    (by simp only [msgF] <;> perm) fun _ _ => ?_
  refine (freeOpt_triple m.bytes).bind (K := [m.self] ++ ptr m.fromA ++ ptr m.toA ++ secF m.plain ++ secF m.set ++ secF m.get) (by perm) fun _ _ => ?_
  refine (freeOpt_triple m.fromA).bind (K := [m.self] ++ ptr m.toA ++ secF m.plain ++ secF m.set ++ secF m.get) (by perm) fun _ _ => ?_
  refine (freeOpt_triple m.toA).bind (K := [m.self] ++ secF m.plain ++ secF m.set ++ secF m.get) (by perm) fun _ _ => ?_
  refine (secClear_triple m.plain hm.1).bind (K := [m.self] ++ secF m.set ++ secF m.get) (by perm) fun p hp => ?_
  refine (secClear_triple m.set hm.2.1).bind (K := [m.self] ++ secF m.get) (by perm) fun s hs => ?_
  refine (secClear_triple m.get hm.2.2).bind (K := [m.self]) (by perm) fun g hg => ?_
  subst hp hs hg
  exact .pure (by simp) rfl

theorem msgDelete_triple (m : HMsg) (hm : MsgOk m) : Triple (msgF m) (msgDelete m) (fun _ => []) (fun _ => True) :=
  (msgClear_triple m hm).bind (K := []) (by simp) fun r _ => by simpa using free_triple r.self

theorem cleared_ok (m : HMsg) : MsgOk (cleared m) := ⟨rfl, rfl, rfl⟩

theorem cleared_F (m : HMsg) : msgF (cleared m) = [m.self] := by simp [msgF, cleared, ptr, secF, slotsOf, propsF]

theorem cleared_val (m : HMsg) (hm : MsgOk m) : m.val.clear = .ok (cleared m).val := by
  have h : ∀ s : HSec, SecOk s → Message.slots s.cnt ((slotsOf s.arr).map HProp.val) = .ok ((slotsOf s.arr).map HProp.val) := by
    intro s hs
    unfold Message.slots
    rw [if_pos (by rw [List.length_map, hs]; exact Nat.le_refl _), List.take_of_length_le (by rw [List.length_map, hs]; exact Nat.le_refl _)]
  simp only [Message.clear, Message.clearProperties, HMsg.val, h _ hm.1, h _ hm.2.1, h _ hm.2.2, Res.bind_ok, Res.pure_eq]
  rfl

/-- **Parsing**: defined whenever it is on contents, with the same result; afterwards the message owns exactly its blocks. -/
theorem msgParse_triple (m : HMsg) (hm : MsgOk m) (data : List Byte) (len : Nat) {v : Bool × Message} (hv : m.val.parse data len = .ok v) :
    Triple (msgF m) (msgParse m data len) (fun r => msgF r.2) (fun r => MsgOk r.2 ∧ v = (r.1, r.2.val)) := by
  rw [parse_eq, cleared_val m hm, Res.bind_ok, Res.bind_eq_ok] at hv
  obtain ⟨h, hh, hv⟩ := hv
  refine (msgClear_triple m hm).bind (K := []) (by simp) fun m1 e => ?_
  subst e
  refine (lift_triple hh).bind (K := [m.self]) (by simp [cleared]) fun h' e => ?_
  subst e
  cases h' with
  | none =>
    cases hv
    exact .pure (by rw [cleared_F]; simp) ⟨cleared_ok m, rfl⟩
  | some h =>
    simp only [parseBody] at hv
    rw [Res.bind_eq_ok] at hv
    obtain ⟨cnt, hcnt, hv⟩ := hv
    refine (lift_triple hcnt).bind (K := [m.self]) (by simp) fun cnt' e => ?_
    subst e
    have erw : (h.put (cleared m).val).isReadWrite = Esv.isReadWrite h.esv := rfl
    rw [erw] at hv
    split
    next hrw =>
      rw [if_pos hrw] at hv
      rw [Res.bind_eq_ok] at hv
      obtain ⟨sl, hsl, hv⟩ := hv
      rw [Res.bind_eq_ok] at hv
      obtain ⟨r, hr, hv⟩ := hv
      refine (secRead_triple (cleared m).set rfl cnt' data len 12 hsl hr).bind (K := [m.self]) (by simp) fun q hq => ?_
      obtain ⟨qok, qcnt, qe⟩ := hq
      subst qe
      simp only at hv
      split
      next h1 =>
        rw [if_pos h1] at hv
        split
        next h2 =>
          rw [if_pos h2] at hv
          cases hv
          refine .pure (by simp only [msgF, cleared, ptr, secF, slotsOf, propsF_nil, List.append_nil] <;> perm) ⟨⟨rfl, qok, rfl⟩, ?_⟩
          rw [show (Message.setOpcEp (h.put (cleared m).val).epSet cnt').1 = q.2.1.cnt from qcnt.symm]
          rfl
        next h2 =>
          rw [if_neg h2, Res.bind_eq_ok] at hv
          obtain ⟨cnt2, hcnt2, hv⟩ := hv
          refine (lift_triple hcnt2).bind (K := secF q.2.1 ++ [m.self]) (by simp) fun c2 e => ?_
          subst e
          rw [Res.bind_eq_ok] at hv
          obtain ⟨sl2, hsl2, hv⟩ := hv
          rw [Res.bind_eq_ok] at hv
          obtain ⟨r2, hr2, hv⟩ := hv
          refine (secRead_triple (cleared m).get rfl c2 data len _ hsl2 hr2).bind (K := secF q.2.1 ++ [m.self]) (by simp) fun q2 hq2 => ?_
          obtain ⟨q2ok, q2cnt, q2e⟩ := hq2
          subst q2e
          cases hv
          refine .pure (by simp only [msgF, cleared, ptr, secF, slotsOf, propsF_nil, List.append_nil] <;> perm) ⟨⟨rfl, qok, q2ok⟩, ?_⟩
          rw [show (Message.setOpcEp (h.put (cleared m).val).epSet cnt').1 = q.2.1.cnt from qcnt.symm,
            show (Message.setOpcEp (h.put (cleared m).val).epGet c2).1 = q2.2.1.cnt from q2cnt.symm]
          rfl
      next h1 =>
        rw [if_neg h1] at hv
        cases hv
        refine .pure (by simp only [msgF, cleared, ptr, secF, slotsOf, propsF_nil, List.append_nil] <;> perm) ⟨⟨rfl, qok, rfl⟩, ?_⟩
        rw [show (Message.setOpcEp (h.put (cleared m).val).epSet cnt').1 = q.2.1.cnt from qcnt.symm]
        rfl
    next hrw =>
      rw [if_neg hrw] at hv
      rw [Res.bind_eq_ok] at hv
      obtain ⟨sl, hsl, hv⟩ := hv
      rw [Res.bind_eq_ok] at hv
      obtain ⟨r, hr, hv⟩ := hv
      refine (secRead_triple (cleared m).plain rfl cnt' data len 12 hsl hr).bind (K := [m.self]) (by simp) fun q hq => ?_
      obtain ⟨qok, qcnt, qe⟩ := hq
      subst qe
      cases hv
      refine .pure (by simp only [msgF, cleared, ptr, secF, slotsOf, propsF_nil, List.append_nil] <;> perm) ⟨⟨qok, rfl, rfl⟩, ?_⟩
      rw [show (Message.setOpcEp (h.put (cleared m).val).ep cnt').1 = q.2.1.cnt from qcnt.symm]
      rfl

theorem strloc_triple (v : Option String) (p : Option (Nat × String)) :
    Triple (ptr p) (strloc v p) ptr (fun q => q.map (·.2) = match v with | none => p.map (·.2) | some t => some t) := by
  cases v with
  | none => exact .pure (.refl _) rfl
  | some t =>
    exact (freeOpt_triple p).bind (K := []) (by simp) fun _ _ =>
      malloc_triple.bind (K := []) (by simp) fun a _ => .pure (by simp [ptr]) rfl

theorem msgSetSource_triple (m : HMsg) (hm : MsgOk m) (v : Option String) :
    Triple (msgF m) (msgSetSource m v) msgF (fun r => MsgOk r ∧ r.val = m.val.setSourceAddress v ∧
      r.plain = m.plain ∧ r.set = m.set ∧ r.get = m.get) := by
  refine (use_triple m.self).bind (K := ptr m.bytes ++ ptr m.fromA ++ ptr m.toA ++ secF m.plain ++ secF m.set ++ secF m.get)
    (by simp only [msgF] <;> perm) fun _ _ => ?_
  refine (strloc_triple v m.fromA).bind (K := [m.self] ++ ptr m.bytes ++ ptr m.toA ++ secF m.plain ++ secF m.set ++ secF m.get)
    (by perm) fun q hq => ?_
  refine .pure (by simp only [msgF] <;> perm) ⟨hm, ?_, rfl, rfl, rfl⟩
  cases v <;> simp [HMsg.val, hq, Message.setSourceAddress]

theorem msgSetDest_triple (m : HMsg) (hm : MsgOk m) (v : Option String) :
    Triple (msgF m) (msgSetDest m v) msgF (fun r => MsgOk r ∧ r.plain = m.plain ∧ r.set = m.set ∧ r.get = m.get) := by
  refine (use_triple m.self).bind (K := ptr m.bytes ++ ptr m.fromA ++ ptr m.toA ++ secF m.plain ++ secF m.set ++ secF m.get)
    (by simp only [msgF] <;> perm) fun _ _ => ?_
  refine (strloc_triple v m.toA).bind (K := [m.self] ++ ptr m.bytes ++ ptr m.fromA ++ secF m.plain ++ secF m.set ++ secF m.get)
    (by perm) fun q hq => ?_
  exact .pure (by simp only [msgF] <;> perm) ⟨hm, rfl, rfl, rfl⟩

theorem readAll_triple (ps : List HProp) : Triple (propsF ps) (readAll ps) (fun _ => propsF ps) (fun _ => True) := by
  induction ps with
  | nil => exact .pure (.refl _) trivial
  | cons p ps ih =>
    exact (propRead_triple p).bind (K := propsF ps) (by rw [propsF_cons]) fun _ _ =>
      ih.conseq (K := propF p) (by perm) fun _ _ => ⟨by rw [propsF_cons]; perm, trivial⟩

theorem secReadAll_triple (s : HSec) (hs : SecOk s) : Triple (secF s) (secReadAll s) (fun _ => secF s) (fun _ => True) := by
  unfold secReadAll
  rw [if_pos (by rw [hs]; exact Nat.le_refl _), List.take_of_length_le (by rw [hs]; exact Nat.le_refl _)]
  exact (useOpt_triple s.arr).bind (K := propsF (slotsOf s.arr)) (by simp only [secF] <;> perm) fun _ _ =>
    (readAll_triple _).conseq (K := ptr s.arr) (by perm) fun _ _ => ⟨by simp only [secF] <;> perm, trivial⟩

theorem msgReadSecs_triple (m : HMsg) (hm : MsgOk m) :
    Triple (secF m.plain ++ secF m.set ++ secF m.get) (msgReadSecs m) (fun _ => secF m.plain ++ secF m.set ++ secF m.get) (fun _ => True) := by
  unfold msgReadSecs
  split
  · exact (secReadAll_triple m.set hm.2.1).bind (K := secF m.plain ++ secF m.get) (by perm) fun _ _ =>
      (secReadAll_triple m.get hm.2.2).conseq (K := secF m.plain ++ secF m.set) (by perm) fun _ _ => ⟨by perm, trivial⟩
  · exact (secReadAll_triple m.plain hm.1).conseq (K := secF m.set ++ secF m.get) (by perm) fun _ _ => ⟨by perm, trivial⟩

theorem msgGetBytes_triple (m : HMsg) (hm : MsgOk m) :
    Triple (msgF m) (msgGetBytes m) msgF (fun r => ∃ a, r = { m with bytes := some (a, ()) }) := by
  refine (use_triple m.self).bind (K := ptr m.bytes ++ ptr m.fromA ++ ptr m.toA ++ secF m.plain ++ secF m.set ++ secF m.get)
    (by simp only [msgF] <;> perm) fun _ _ => ?_
  refine (freeOpt_triple m.bytes).bind (K := [m.self] ++ ptr m.fromA ++ ptr m.toA ++ secF m.plain ++ secF m.set ++ secF m.get) (by perm) fun _ _ => ?_
  refine malloc_triple.bind (K := [m.self] ++ ptr m.fromA ++ ptr m.toA ++ secF m.plain ++ secF m.set ++ secF m.get) (by simp) fun a _ => ?_
  refine (msgReadSecs_triple m hm).bind (K := [a] ++ [m.self] ++ ptr m.fromA ++ ptr m.toA) (by perm) fun _ _ => ?_
  refine (use_triple a).bind (K := [m.self] ++ ptr m.fromA ++ ptr m.toA ++ secF m.plain ++ secF m.set ++ secF m.get) (by perm) fun _ _ => ?_
  exact .pure (by simp only [msgF, ptr] <;> perm) ⟨a, rfl⟩

theorem copyAll_triple (ps : List HProp) : ∀ (s : HSec), SecOk s → s.cnt.toNat + ps.length < 256 →
    Triple (secF s ++ propsF ps) (copyAll ps s) (fun r => secF r ++ propsF ps)
      (fun r => SecOk r ∧ r.cnt.toNat = s.cnt.toNat + ps.length ∧
        (slotsOf r.arr).map HProp.val = (slotsOf s.arr).map HProp.val ++ ps.map (fun p => p.val.copy)) := by
  induction ps with
  | nil => intro s hs _; exact .pure (.refl _) ⟨hs, rfl, by simp⟩
  | cons p ps ih =>
    intro s hs hl
    simp only [List.length_cons] at hl
    refine (propCopy_triple p).bind (K := secF s ++ propsF ps) (by rw [propsF_cons]; perm) fun q hq => ?_
    refine (secAdd_triple s hs (by omega) q).bind (K := propF p ++ propsF ps) (by perm) fun t ht => ?_
    obtain ⟨tok, tcnt, tsl⟩ := ht
    have e : (s.cnt + 1).toNat = s.cnt.toNat + 1 := by rw [BitVec.toNat_add]; simp; omega
    rw [← tcnt] at e
    refine (ih t tok (by omega)).conseq (K := propF p) (by perm) fun r hr => ⟨by rw [propsF_cons]; perm, hr.1, ?_, ?_⟩
    · rw [hr.2.1, e]; simp only [List.length_cons]; omega
    · rw [hr.2.2, tsl]; simp [hq.1]

theorem addrRead_triple (p : Option (Nat × String)) : Triple (ptr p) (addrRead p) (fun _ => ptr p) (fun v => v = p.map (·.2)) :=
  (useOpt_triple p).bind (K := []) (by simp) fun _ _ => .pure (by simp) rfl

theorem msgSet_triple (dst src : HMsg) (hd : MsgOk dst) (hs : MsgOk src) :
    Triple (msgF dst ++ msgF src) (msgSet dst src) (fun r => msgF r ++ msgF src)
      (fun r => MsgOk r ∧ r.val.ep = src.val.ep.map Property.copy ∧ r.set = ⟨0, none⟩ ∧ r.get = ⟨0, none⟩) := by
  refine (msgClear_triple dst hd).bind (K := msgF src) (.refl _) fun d1 h1 => ?_
  subst h1
  refine (use_triple src.self).bind (K := msgF (cleared dst) ++ ptr src.bytes ++ ptr src.fromA ++ ptr src.toA ++ secF src.plain ++ secF src.set ++ secF src.get)
    (by rw [cleared_F]; simp only [msgF, cleared] <;> perm) fun _ _ => ?_
  refine (addrRead_triple src.fromA).bind (K := msgF (cleared dst) ++ [src.self] ++ ptr src.bytes ++ ptr src.toA ++ secF src.plain ++ secF src.set ++ secF src.get)
    (by perm) fun f _ => ?_
  refine (msgSetSource_triple { cleared dst with hd := src.hd } (cleared_ok dst) f).bind
    (K := msgF src) (by simp only [msgF, cleared] <;> perm) fun d2 h2 => ?_
  refine (addrRead_triple src.toA).bind (K := msgF d2 ++ [src.self] ++ ptr src.bytes ++ ptr src.fromA ++ secF src.plain ++ secF src.set ++ secF src.get)
    (by rw [show msgF src = _ from rfl]; unfold msgF; perm) fun t _ => ?_
  refine (msgSetDest_triple d2 h2.1 t).bind
    (K := msgF src) (by rw [show msgF src = [src.self] ++ ptr src.bytes ++ ptr src.fromA ++ ptr src.toA ++ secF src.plain ++ secF src.set ++ secF src.get from rfl]; perm) fun d3 h3 => ?_
  have hp : d3.plain = ⟨0, none⟩ := h3.2.1.trans h2.2.2.1
  have hsl : (slotsOf src.plain.arr).length = src.plain.cnt.toNat := hs.1
  rw [if_pos (by omega), List.take_of_length_le (by omega)]
  refine (useOpt_triple src.plain.arr).bind (K := msgF d3 ++ [src.self] ++ ptr src.bytes ++ ptr src.fromA ++ ptr src.toA ++ propsF (slotsOf src.plain.arr) ++ secF src.set ++ secF src.get)
    (by rw [show msgF src = [src.self] ++ ptr src.bytes ++ ptr src.fromA ++ ptr src.toA ++ secF src.plain ++ secF src.set ++ secF src.get from rfl]; simp only [secF] <;> perm) fun _ _ => ?_
  refine (copyAll_triple (slotsOf src.plain.arr) d3.plain (by rw [hp]; rfl)
    (by rw [hp, hsl]; have := src.plain.cnt.isLt; simpa using this)).bind
    (K := ptr src.plain.arr ++ [d3.self] ++ ptr d3.bytes ++ ptr d3.fromA ++ ptr d3.toA ++ secF d3.set ++ secF d3.get ++ [src.self] ++ ptr src.bytes ++ ptr src.fromA ++ ptr src.toA ++ secF src.set ++ secF src.get)
    (by simp only [msgF] <;> perm) fun s hs' => ?_
  refine .pure ?_ ⟨⟨hs'.1, h3.1.2.1, h3.1.2.2⟩, ?_, h3.2.2.1.trans h2.2.2.2.1, h3.2.2.2.trans h2.2.2.2.2⟩
  · simp only [msgF, secF] <;> perm
  · simp only [HMsg.val]; rw [hs'.2.2, hp]; simp [slotsOf, Function.comp_def]

theorem msgCopy_triple (src : HMsg) (hs : MsgOk src) :
    Triple (msgF src) (msgCopy src) (fun r => msgF r ++ msgF src)
      (fun r => MsgOk r ∧ r.val.ep = src.val.ep.map Property.copy ∧ r.set = ⟨0, none⟩ ∧ r.get = ⟨0, none⟩) :=
  msgNew_triple.bind (K := msgF src) (by simp) fun m hm => msgSet_triple m src hm.1 hs

theorem msgEquals_triple (m1 m2 : HMsg) (h1 : MsgOk m1) (h2 : MsgOk m2) :
    Triple (msgF m1 ++ msgF m2) (msgEquals m1 m2) (fun r => msgF r.1 ++ msgF r.2)
      (fun r => ∃ a b, r = ({ m1 with bytes := some (a, ()) }, { m2 with bytes := some (b, ()) })) := by
  refine (msgGetBytes_triple m1 h1).bind (K := msgF m2) (.refl _) fun r1 e1 => ?_
  refine (msgGetBytes_triple m2 h2).bind (K := msgF r1) (by perm) fun r2 e2 => ?_
  obtain ⟨a, rfl⟩ := e1
  obtain ⟨b, rfl⟩ := e2
  refine (useOpt_triple (some (a, ()))).bind
    (K := msgF { m2 with bytes := some (b, ()) } ++ ([m1.self] ++ ptr m1.fromA ++ ptr m1.toA ++ secF m1.plain ++ secF m1.set ++ secF m1.get))
    (by simp only [msgF, ptr] <;> perm) fun _ _ => ?_
  refine (useOpt_triple (some (b, ()))).bind
    (K := msgF { m1 with bytes := some (a, ()) } ++ ([m2.self] ++ ptr m2.fromA ++ ptr m2.toA ++ secF m2.plain ++ secF m2.set ++ secF m2.get))
    (by simp only [msgF, ptr] <;> perm) fun _ _ => ?_
  exact .pure (by simp only [msgF, ptr] <;> perm) ⟨a, b, rfl⟩

theorem propAdd_val (s : HSec) (hs : SecOk s) (hc : s.cnt.toNat < 255) (p : HProp) (r : HSec) (h1 : r.cnt = s.cnt + 1)
    (h2 : slotsOf r.arr = slotsOf s.arr ++ [p]) :
    Message.propAdd s.cnt ((slotsOf s.arr).map HProp.val) p.val = .ok (r.cnt, (slotsOf r.arr).map HProp.val) := by
  have e : s.cnt + 1 ≠ 0 := by
    intro h
    have e : (s.cnt + 1).toNat = s.cnt.toNat + 1 := by rw [BitVec.toNat_add]; simp; omega
    rw [h] at e; simp at e
  simp only [Message.propAdd]
  rw [if_neg e, if_pos (by rw [List.length_map]; exact hs), h1, h2]
  simp

theorem msgAdd_triple (m : HMsg) (hm : MsgOk m) (hc : m.plain.cnt.toNat < 255) (p : HProp) :
    Triple (msgF m ++ propF p) (msgAdd m p) msgF (fun r => MsgOk r ∧ m.val.addProperty p.val = .ok r.val) := by
  refine (use_triple m.self).bind (K := ptr m.bytes ++ ptr m.fromA ++ ptr m.toA ++ secF m.plain ++ secF m.set ++ secF m.get ++ propF p)
    (by simp only [msgF] <;> perm) fun _ _ => ?_
  refine (secAdd_triple m.plain hm.1 hc p).bind (K := [m.self] ++ ptr m.bytes ++ ptr m.fromA ++ ptr m.toA ++ secF m.set ++ secF m.get)
    (by perm) fun s hs => ?_
  refine .pure (by simp only [msgF] <;> perm) ⟨⟨hs.1, hm.2⟩, ?_⟩
  simp only [Message.addProperty, HMsg.val, propAdd_val m.plain hm.1 hc p s hs.2.1 hs.2.2, Res.bind_ok, Res.pure_eq]

theorem msgAddSet_triple (m : HMsg) (hm : MsgOk m) (hc : m.set.cnt.toNat < 255) (p : HProp) :
    Triple (msgF m ++ propF p) (msgAddSet m p) msgF (fun r => MsgOk r ∧ m.val.addPropertySet p.val = .ok r.val) := by
  refine (use_triple m.self).bind (K := ptr m.bytes ++ ptr m.fromA ++ ptr m.toA ++ secF m.plain ++ secF m.set ++ secF m.get ++ propF p)
    (by simp only [msgF] <;> perm) fun _ _ => ?_
  refine (secAdd_triple m.set hm.2.1 hc p).bind (K := [m.self] ++ ptr m.bytes ++ ptr m.fromA ++ ptr m.toA ++ secF m.plain ++ secF m.get)
    (by perm) fun s hs => ?_
  refine .pure (by simp only [msgF] <;> perm) ⟨⟨hm.1, hs.1, hm.2.2⟩, ?_⟩
  simp only [Message.addPropertySet, HMsg.val, propAdd_val m.set hm.2.1 hc p s hs.2.1 hs.2.2, Res.bind_ok, Res.pure_eq]

theorem msgAddGet_triple (m : HMsg) (hm : MsgOk m) (hc : m.get.cnt.toNat < 255) (p : HProp) :
    Triple (msgF m ++ propF p) (msgAddGet m p) msgF (fun r => MsgOk r ∧ m.val.addPropertyGet p.val = .ok r.val) := by
  refine (use_triple m.self).bind (K := ptr m.bytes ++ ptr m.fromA ++ ptr m.toA ++ secF m.plain ++ secF m.set ++ secF m.get ++ propF p)
    (by simp only [msgF] <;> perm) fun _ _ => ?_
  refine (secAdd_triple m.get hm.2.2 hc p).bind (K := [m.self] ++ ptr m.bytes ++ ptr m.fromA ++ ptr m.toA ++ secF m.plain ++ secF m.set)
    (by perm) fun s hs => ?_
  refine .pure (by simp only [msgF] <;> perm) ⟨⟨hm.1, hm.2.1, hs.1⟩, ?_⟩
  simp only [Message.addPropertyGet, HMsg.val, propAdd_val m.get hm.2.2 hc p s hs.2.1 hs.2.2, Res.bind_ok, Res.pure_eq]

theorem msgSetProp_triple (m : HMsg) (hm : MsgOk m) (hc : m.plain.cnt.toNat < 255) (code : Byte) (d : List Byte) :
    Triple (msgF m) (msgSetProp m code d) msgF (fun r => MsgOk r ∧ m.val.setProperty code d = .ok r.val) := by
  refine (use_triple m.self).bind (K := ptr m.bytes ++ ptr m.fromA ++ ptr m.toA ++ secF m.plain ++ secF m.set ++ secF m.get)
    (by simp only [msgF] <;> perm) fun _ _ => ?_
  refine (secSetProp_triple m.plain hm.1 hc code d).bind (K := [m.self] ++ ptr m.bytes ++ ptr m.fromA ++ ptr m.toA ++ secF m.set ++ secF m.get)
    (by perm) fun s hs => ?_
  refine .pure (by simp only [msgF] <;> perm) ⟨⟨hs.1, hm.2⟩, ?_⟩
  simp only [Message.setProperty, HMsg.val, hs.2, Res.bind_ok, Res.pure_eq]

theorem msgSetPropSet_triple (m : HMsg) (hm : MsgOk m) (hc : m.set.cnt.toNat < 255) (code : Byte) (d : List Byte) :
    Triple (msgF m) (msgSetPropSet m code d) msgF (fun r => MsgOk r ∧ m.val.setPropertySet code d = .ok r.val) := by
  refine (use_triple m.self).bind (K := ptr m.bytes ++ ptr m.fromA ++ ptr m.toA ++ secF m.plain ++ secF m.set ++ secF m.get)
    (by simp only [msgF] <;> perm) fun _ _ => ?_
  refine (secSetProp_triple m.set hm.2.1 hc code d).bind (K := [m.self] ++ ptr m.bytes ++ ptr m.fromA ++ ptr m.toA ++ secF m.plain ++ secF m.get)
    (by perm) fun s hs => ?_
  refine .pure (by simp only [msgF] <;> perm) ⟨⟨hm.1, hs.1, hm.2.2⟩, ?_⟩
  simp only [Message.setPropertySet, HMsg.val, hs.2, Res.bind_ok, Res.pure_eq]

theorem msgSetPropGet_triple (m : HMsg) (hm : MsgOk m) (hc : m.get.cnt.toNat < 255) (code : Byte) (d : List Byte) :
    Triple (msgF m) (msgSetPropGet m code d) msgF (fun r => MsgOk r ∧ m.val.setPropertyGet code d = .ok r.val) := by
  refine (use_triple m.self).bind (K := ptr m.bytes ++ ptr m.fromA ++ ptr m.toA ++ secF m.plain ++ secF m.set ++ secF m.get)
    (by simp only [msgF] <;> perm) fun _ _ => ?_
  refine (secSetProp_triple m.get hm.2.2 hc code d).bind (K := [m.self] ++ ptr m.bytes ++ ptr m.fromA ++ ptr m.toA ++ secF m.plain ++ secF m.set)
    (by perm) fun s hs => ?_
  refine .pure (by simp only [msgF] <;> perm) ⟨⟨hm.1, hm.2.1, hs.1⟩, ?_⟩
  simp only [Message.setPropertyGet, HMsg.val, hs.2, Res.bind_ok, Res.pure_eq]

theorem msgSetOpc_triple (m : HMsg) (hm : MsgOk m) (ha : m.plain.arr = none) (c : Byte) :
    Triple (msgF m) (msgSetOpc m c) msgF (fun r => MsgOk r ∧ r.plain.cnt = c) := by
  refine (use_triple m.self).bind (K := ptr m.bytes ++ ptr m.fromA ++ ptr m.toA ++ secF m.set ++ secF m.get)
    (by simp only [msgF, secF, ha, ptr, slotsOf, propsF_nil] <;> perm) fun _ _ => ?_
  refine (secSetOpc_triple m.plain ha c).bind (K := [m.self] ++ ptr m.bytes ++ ptr m.fromA ++ ptr m.toA ++ secF m.set ++ secF m.get)
    (by simp) fun s hs => ?_
  exact .pure (by simp only [msgF] <;> perm) ⟨⟨hs.1, hm.2⟩, hs.2.1⟩

theorem searchNew_triple : Triple [] searchNew msgF (fun r => MsgOk r ∧ Message.searchNew = .ok r.val) := by
  refine msgNew_triple.bind (K := []) (by simp) fun m hm => ?_
  refine propNew_triple.bind (K := msgF m) (by simp) fun p hp => ?_
  refine (propSetData_triple { p with code := 0xD6 } []).bind (K := msgF m) (by simp only [propF] <;> perm) fun q hq => ?_
  have h0 : m.val.opc = 0 := by rw [hm.2]; rfl
  have h0 : m.plain.cnt = 0 := h0
  refine (msgAdd_triple { m with hd := { m.hd with esv := Esv.readRequest, seoj := (0x0E, 0xF0, 0x01), deoj := (0x0E, 0xF0, 0x01) } }
    hm.1 (by rw [show ({ m with hd := _ } : HMsg).plain = m.plain from rfl, h0]; decide) q).conseq (K := [])
    (by simp only [msgF] <;> perm) fun r hr => ⟨by simp, hr.1, ?_⟩
  rw [← hr.2, hq.1]
  have e : ({ m with hd := { m.hd with esv := Esv.readRequest, seoj := (0x0E, 0xF0, 0x01), deoj := (0x0E, 0xF0, 0x01) } } : HMsg).val
      = { m.val with esv := Esv.readRequest, seoj := (0x0E, 0xF0, 0x01), deoj := (0x0E, 0xF0, 0x01) } := rfl
  rw [e, hm.2, show ({ p with code := 0xD6 } : HProp).val = p.val.setCode 0xD6 from rfl, hp]
  rfl

end Uecho.Lemmas.Blocks
