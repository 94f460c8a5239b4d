import Verif.Lemmas.OomMsg
import Verif.Lemmas.HeapCalls
/-! # Ownership of blocks when requests are refused: parsing, bytes, copies, and sequences of calls -/
namespace Uecho.Lemmas.Short
open Uecho.Spec hiding propF secF msgF Call call calls Held onProp onMsg propsF
open Uecho Uecho.Spec.Short Uecho.Oom
open Uecho.Lemmas.Blocks (parseBody parse_eq)

variable {g : Bool}

theorem vv_fresh {g : Bool} {l : List (Option OProp)} (h : NewSlots g l) : l.map vv = List.replicate l.length Property.new := by
  induction l with
  | nil => rfl
  | cons o l ih =>
    rw [List.map_cons, ih (fun o ho => h o (by simp [ho])), List.length_cons, List.replicate_succ]
    congr 1
    cases o with
    | none => rfl
    | some p =>
      obtain ⟨h1, h2, h3⟩ := (h (some p) (by simp)).2 p rfl
      simp only [vv, h1, h2, Heap.bytesOf]
      rfl

theorem secRead_triple (s : OSec) (hs : s.arr = none) (count : Byte) (data : List Byte) (len off : Nat) {sl : List Property}
    {v : Bool × List Property × Nat} (hsl : Message.slots (Message.setOpcEp [] count).1 (Message.setOpcEp [] count).2 = .ok sl)
    (hv : Message.propertyParse data len sl off = .ok v) :
    OTriple g [] (secRead s count data len off) (fun r => secF r.2.1)
      (fun r => SOk r.2.1 ∧ r.2.1.cnt = (Message.setOpcEp [] count).1 ∧ (g = true → r.1 = v.1) ∧
        (r.1 = true → v = (true, (slotsOf r.2.1.arr).map vv, r.2.2) ∧ ∀ o ∈ slotsOf r.2.1.arr, o.isSome = true)) := by
  refine (secSetOpc_triple s hs count).bind (K := []) (by simp) fun s1 h1 => ?_
  obtain ⟨hok, hcnt, hlen, hnew⟩ := h1
  have e1 : (Message.setOpcEp [] count).1 = count := by unfold Message.setOpcEp; split <;> rfl
  have esl : sl = (slotsOf s1.arr).map vv := by
    rw [vv_fresh hnew, hlen]
    rw [setOpcEp_nil] at hsl
    unfold Message.slots at hsl
    rw [if_pos (by simp), List.take_of_length_le (by simp)] at hsl
    cases hsl
    rfl
  rcases ha : s1.arr with _ | ⟨a, ps⟩
  · rw [ha] at esl
    subst esl
    cases hv
    exact .pure (by simp) ⟨hok, by rw [e1, hcnt], fun _ => rfl, fun _ => ⟨by simp [ha, slotsOf], by simp [ha, slotsOf]⟩⟩
  · have hl : ps.length = s1.cnt.toNat := by have := hok.1; rw [ha] at this; exact this
    rw [ha] at esl hnew
    simp only
    rw [if_pos (by omega), List.take_of_length_le (by omega), List.drop_of_length_le (by omega)]
    rw [esl] at hv
    refine (use_triple a).bind (K := slotsF ps) (by simp only [secF, ha, ptr, slotsOf] <;> perm) fun _ _ => ?_
    have okps : SlotsOk ps := by have := hok.2; rw [ha] at this; exact this
    refine (secParse_triple data len ps off hv okps (fun h o ho => (hnew o ho).1 h)).bind (K := [a]) (by perm) fun r hr => ?_
    refine .pure (by simp only [secF, ptr, slotsOf, List.append_nil] <;> perm) ⟨⟨?_, ?_⟩, by rw [e1, hcnt], hr.2.2.1, fun h => ?_⟩
    · simp only [slotsOf, List.append_nil, hr.2.1, hl]
    · simpa [slotsOf] using hr.1
    · obtain ⟨h1, h2⟩ := hr.2.2.2 h
      exact ⟨by rw [h1]; simp [slotsOf], by simpa [slotsOf] using h2⟩

/-- The contents of a message. -/
def valM (m : OMsg) : Message :=
  { m.hd with opc := m.plain.cnt, ep := (slotsOf m.plain.arr).map vv, opcSet := m.set.cnt, epSet := (slotsOf m.set.arr).map vv,
              opcGet := m.get.cnt, epGet := (slotsOf m.get.arr).map vv, fromAddr := m.fromA.map (·.2), toAddr := m.toA.map (·.2) }

/-- No slot is NULL. -/
def Full (m : OMsg) : Prop :=
  (∀ o ∈ slotsOf m.plain.arr, o.isSome = true) ∧ (∀ o ∈ slotsOf m.set.arr, o.isSome = true) ∧ ∀ o ∈ slotsOf m.get.arr, o.isSome = true

theorem cleared_val (m : OMsg) (hm : MOk m) : (valM m).clear = .ok (valM (cleared m)) := by
  have h : ∀ s : OSec, SOk s → Message.slots s.cnt ((slotsOf s.arr).map vv) = .ok ((slotsOf s.arr).map vv) := by
    intro s hs
    unfold Message.slots
    rw [if_pos (by rw [List.length_map, hs.1]; exact Nat.le_refl _), List.take_of_length_le (by rw [List.length_map, hs.1]; exact Nat.le_refl _)]
  simp only [Message.clear, Message.clearProperties, valM, h _ hm.1, h _ hm.2.1, h _ hm.2.2, Res.bind_ok, Res.pure_eq]
  rfl

theorem msgParse_triple (m : OMsg) (hm : MOk m) (data : List Byte) (len : Nat) {v : Bool × Message} (hv : (valM m).parse data len = .ok v) :
    OTriple g (msgF m) (Oom.msgParse m data len) (fun r => msgF r.2)
      (fun r => MOk r.2 ∧ (g = true → r.1 = v.1) ∧ (r.1 = true → v = (true, valM r.2) ∧ Full r.2)) := by
  rw [parse_eq, cleared_val m hm, Res.bind_ok, Res.bind_eq_ok] at hv
  obtain ⟨h, hh, hv⟩ := hv
  refine (msgClear_triple m hm).bind (K := []) (by simp) fun m1 e => ?_
  subst e
  refine (lift_triple hh).bind (K := [m.self]) (by simp [cleared]) fun h' e => ?_
  subst e
  cases h' with
  | none =>
    cases hv
    exact .pure (by rw [cleared_F]; simp) ⟨cleared_ok m, fun _ => rfl, fun h => (by cases h)⟩
  | some h =>
    simp only [parseBody] at hv
    rw [Res.bind_eq_ok] at hv
    obtain ⟨cnt, hcnt, hv⟩ := hv
    refine (lift_triple hcnt).bind (K := [m.self]) (by simp) fun cnt' e => ?_
    subst e
    have erw : (h.put (valM (cleared m))).isReadWrite = Esv.isReadWrite h.esv := rfl
    rw [erw] at hv
    split
    next hrw =>
      rw [if_pos hrw] at hv
      rw [Res.bind_eq_ok] at hv
      obtain ⟨sl, hsl, hv⟩ := hv
      rw [Res.bind_eq_ok] at hv
      obtain ⟨r, hr, hv⟩ := hv
      refine (secRead_triple (cleared m).set rfl cnt' data len 12 hsl hr).bind (K := [m.self]) (by simp) fun q hq => ?_
      obtain ⟨qok, qcnt, qg, qe⟩ := hq
      split
      next h1 =>
        obtain ⟨qe, qf⟩ := qe h1
        subst qe
        simp only [if_true] at hv
        split
        next h2 =>
          rw [if_pos h2] at hv
          cases hv
          exact .pure (by simp only [msgF, cleared, ptr, secF, slotsOf, slotsF_nil, List.append_nil] <;> perm)
            ⟨⟨sOk_empty, qok, sOk_empty⟩, fun _ => rfl, fun h => (by cases h)⟩
        next h2 =>
          rw [if_neg h2, Res.bind_eq_ok] at hv
          obtain ⟨cnt2, hcnt2, hv⟩ := hv
          refine (lift_triple hcnt2).bind (K := secF q.2.1 ++ [m.self]) (by simp) fun c2 e => ?_
          subst e
          rw [Res.bind_eq_ok] at hv
          obtain ⟨sl2, hsl2, hv⟩ := hv
          rw [Res.bind_eq_ok] at hv
          obtain ⟨r2, hr2, hv⟩ := hv
          refine (secRead_triple (cleared m).get rfl c2 data len _ hsl2 hr2).bind (K := secF q.2.1 ++ [m.self]) (by simp) fun q2 hq2 => ?_
          obtain ⟨q2ok, q2cnt, q2g, q2e⟩ := hq2
          cases hv
          refine .pure (by simp only [msgF, cleared, ptr, secF, slotsOf, slotsF_nil, List.append_nil] <;> perm)
            ⟨⟨sOk_empty, qok, q2ok⟩, q2g, fun hq => ?_⟩
          obtain ⟨q2e, q2f⟩ := q2e hq
          subst q2e
          rw [show (Message.setOpcEp (h.put (valM (cleared m))).epSet cnt').1 = q.2.1.cnt from qcnt.symm,
            show (Message.setOpcEp (h.put (valM (cleared m))).epGet c2).1 = q2.2.1.cnt from q2cnt.symm]
          exact ⟨rfl, fun _ h => (by cases h), qf, q2f⟩
      next h1 =>
        refine .pure (by simp only [msgF, cleared, ptr, secF, slotsOf, slotsF_nil, List.append_nil] <;> perm)
          ⟨⟨sOk_empty, qok, sOk_empty⟩, fun hg => ?_, fun h => (by cases h)⟩
        have := qg hg
        rw [if_neg (by rw [← this]; exact h1)] at hv
        cases hv
        rfl
    next hrw =>
      rw [if_neg hrw] at hv
      rw [Res.bind_eq_ok] at hv
      obtain ⟨sl, hsl, hv⟩ := hv
      rw [Res.bind_eq_ok] at hv
      obtain ⟨r, hr, hv⟩ := hv
      refine (secRead_triple (cleared m).plain rfl cnt' data len 12 hsl hr).bind (K := [m.self]) (by simp) fun q hq => ?_
      obtain ⟨qok, qcnt, qg, qe⟩ := hq
      cases hv
      refine .pure (by simp only [msgF, cleared, ptr, secF, slotsOf, slotsF_nil, List.append_nil] <;> perm)
        ⟨⟨qok, sOk_empty, sOk_empty⟩, qg, fun hq => ?_⟩
      obtain ⟨qe, qf⟩ := qe hq
      subst qe
      rw [show (Message.setOpcEp (h.put (valM (cleared m))).ep cnt').1 = q.2.1.cnt from qcnt.symm]
      exact ⟨rfl, qf, fun _ h => (by cases h), fun _ h => (by cases h)⟩

theorem entries_of_vv {s : OSec} {ps : List Prop8} (h : (slotsOf s.arr).map vv = ps.map mkProp) (hf : ∀ o ∈ slotsOf s.arr, o.isSome = true) :
    entries s = ps.map some := by
  unfold entries
  generalize slotsOf s.arr = l at h hf
  induction l generalizing ps with
  | nil =>
    cases ps with
    | nil => rfl
    | cons => cases h
  | cons o l ih =>
    cases ps with
    | nil => cases h
    | cons q ps =>
      simp only [List.map_cons, List.cons.injEq] at h
      rw [List.map_cons, List.map_cons, ih h.2 (fun o ho => hf o (by simp [ho]))]
      congr 1
      cases o with
      | none => exact absurd (hf none (by simp)) (by simp)
      | some p =>
        have h1 := congrArg Property.code h.1
        have h2 := congrArg Property.data h.1
        simp only [vv, mkProp] at h1 h2
        simp [h1, h2, fill]

theorem holds_parsed {m m0 : OMsg} {f : Frame} (h : valM m = parsed (valM m0) f) (hf : Full m) : HoldsFrame m f := by
  have e : ∀ {α : Type} (k : Message → α), k (valM m) = k (parsed (valM m0) f) := fun k => by rw [h]
  refine ⟨?_, e Message.seoj, e Message.deoj, e Message.esv, ?_⟩
  · have h1 : m.hd.tid0 = f.tid.1 := e Message.tid0
    have h2 : m.hd.tid1 = f.tid.2 := e Message.tid1
    rw [h1, h2]
  · have h1 := e Message.ep
    have h2 := e Message.epSet
    have h3 := e Message.epGet
    cases hb : f.body with
    | plain ps =>
      simp only [parsed, hb, valM] at h1 h2 h3
      exact ⟨entries_of_vv h1 hf.1, entries_of_vv (ps := []) h2 hf.2.1, entries_of_vv (ps := []) h3 hf.2.2⟩
    | setGet a b =>
      simp only [parsed, hb, valM] at h1 h2 h3
      exact ⟨entries_of_vv (ps := []) h1 hf.1, entries_of_vv h2 hf.2.1, entries_of_vv h3 hf.2.2⟩

theorem parse_triple (m : OMsg) (hm : MOk m) (data : List Byte) (len : Nat) (hl : len ≤ data.length) :
    OTriple g (msgF m) (Oom.msgParse m data len) (fun r => msgF r.2)
      (fun r => MOk r.2 ∧ (r.1 = true → ∃ f rest, data.take len = encode f ++ rest ∧ f.WF ∧ HoldsFrame r.2 f) ∧
        (g = true → (∃ f rest, f.WF ∧ data.take len = encode f ++ rest) → r.1 = true)) := by
  have hp := parse_spec (m := valM m)
    ⟨by simp only [valM, List.length_map]; exact hm.1.1, by simp only [valM, List.length_map]; exact hm.2.1.1,
      by simp only [valM, List.length_map]; exact hm.2.2.1⟩ data len hl
  cases hd : decode (data.take len) with
  | none =>
    rw [hd] at hp
    obtain ⟨m', hp, -⟩ := hp
    refine (msgParse_triple m hm data len hp).weak fun r hr => ⟨hr.1, fun h => ?_, fun hg ⟨f, rest, hf, he⟩ => ?_⟩
    · have := (hr.2.2 h).1; cases this
    · rw [he, decode_complete hf] at hd; cases hd
  | some x =>
    obtain ⟨f, rest⟩ := x
    rw [hd] at hp
    obtain ⟨h1, h2⟩ := decode_sound hd
    refine (msgParse_triple m hm data len hp).weak fun r hr => ⟨hr.1, fun h => ?_, fun hg _ => hr.2.1 hg⟩
    obtain ⟨e, hf⟩ := hr.2.2 h
    exact ⟨f, rest, h1, h2, holds_parsed (m0 := m) (congrArg Prod.snd e).symm hf⟩

/-! ### Bytes -/

theorem slotsBytes_triple : ∀ (l : List (Option OProp)), SlotsOk l →
    OTriple g (slotsF l) (slotsBytes l) (fun _ => slotsF l) (fun w => w.length ≤ slotsSize l ∧
      ∀ ps : List Prop8, l.map entry = ps.map some → w = ps.flatMap encodeProp ∧ slotsSize l = w.length)
  | [], _ => .pure (.refl _) ⟨Nat.le_refl _, fun ps h => by
      cases ps with
      | nil => exact ⟨rfl, rfl⟩
      | cons => cases h⟩
  | none :: l, _ => .pure (.refl _) ⟨Nat.zero_le _, fun ps h => by
      cases ps with
      | nil => cases h
      | cons => cases h⟩
  | some p :: l, hl => by
    have hp : POk p := hl p (by simp)
    refine (propRead_triple p hp).bind (K := slotsF l) (by simp [slotsF_cons, slotF]) fun d hd => ?_
    refine (slotsBytes_triple l hl.tail).bind (K := propF p) (by perm) fun w hw => ?_
    refine .pure (by simp only [slotsF_cons, slotF] <;> perm) ⟨?_, fun ps h => ?_⟩
    · subst hd
      have := hw.1
      simp only [slotsSize, List.cons_append, List.length_cons, List.length_append]
      have : p.size = (Heap.bytesOf p.data).length := hp
      omega
    · cases ps with
      | nil => cases h
      | cons q ps =>
        simp only [List.map_cons, List.cons.injEq] at h
        obtain ⟨w1, w2⟩ := hw.2 ps h.2
        have e : (p.code, Heap.bytesOf p.data) = q := by have := h.1; simp only [entry, Option.map_some, Option.some.injEq] at this; exact this
        subst hd
        refine ⟨?_, ?_⟩
        · rw [List.flatMap_cons, ← w1, ← e]
          simp only [encodeProp]
          rw [show p.size = (Heap.bytesOf p.data).length from hp]
        · simp only [slotsSize, List.cons_append, List.length_cons, List.length_append, w2]
          rw [show p.size = (Heap.bytesOf p.data).length from hp]
          omega

theorem secSize_triple (s : OSec) (hs : SOk s) : OTriple g (secF s) (secSize s) (fun _ => secF s) (fun n => n = slotsSize (slotsOf s.arr)) := by
  unfold secSize
  rw [if_pos (by rw [hs.1]; exact Nat.le_refl _), List.take_of_length_le (by rw [hs.1]; exact Nat.le_refl _)]
  exact (useOpt_triple s.arr).bind (K := slotsF (slotsOf s.arr)) (.refl _) fun _ _ => .pure (.refl _) rfl

theorem secBytes_triple (s : OSec) (hs : SOk s) : OTriple g (secF s) (secBytes s) (fun _ => secF s) (fun w =>
    w.length ≤ slotsSize (slotsOf s.arr) ∧ ∀ ps : List Prop8, entries s = ps.map some →
      s.cnt :: w = encodeSection ps ∧ slotsSize (slotsOf s.arr) = w.length) := by
  unfold secBytes
  rw [if_pos (by rw [hs.1]; exact Nat.le_refl _), List.take_of_length_le (by rw [hs.1]; exact Nat.le_refl _)]
  refine (useOpt_triple s.arr).bind (K := slotsF (slotsOf s.arr)) (.refl _) fun _ _ => ?_
  refine (slotsBytes_triple _ hs.2).conseq (K := ptr s.arr) (by perm) fun w hw => ⟨by simp only [secF] <;> perm, hw.1, fun ps h => ?_⟩
  obtain ⟨w1, w2⟩ := hw.2 ps h
  refine ⟨?_, w2⟩
  have : ps.length = s.cnt.toNat := by
    have := congrArg List.length h
    simp only [entries, List.length_map, hs.1] at this
    exact this.symm
  rw [encodeSection, this, ← w1]
  simp

theorem msgGetBytes_triple (m : OMsg) (hm : MOk m) :
    OTriple g (msgF m) (Oom.msgGetBytes m) (fun r => msgF r.2) (fun r => MOk r.2 ∧
      ∀ f, HoldsFrame m f → m.hd.ehd1 = 0x10 → m.hd.ehd2 = 0x81 → (IsSetGet f.esv ↔ ∃ a b, f.body = .setGet a b) → r.1 = (encode f).map some) := by
  refine (use_triple m.self).bind (K := ptr m.bytes ++ ptr m.fromA ++ ptr m.toA ++ secF m.plain ++ secF m.set ++ secF m.get)
    (by simp only [msgF] <;> perm) fun _ _ => ?_
  refine (freeOpt_triple m.bytes).bind (K := [m.self] ++ ptr m.fromA ++ ptr m.toA ++ secF m.plain ++ secF m.set ++ secF m.get) (by perm) fun _ _ => ?_
  have tsize : OTriple g ([m.self] ++ secF m.plain ++ secF m.set ++ secF m.get) (msgSize m) (fun _ => [m.self] ++ secF m.plain ++ secF m.set ++ secF m.get)
      (fun n => n = if m.hd.isReadWrite then 12 + slotsSize (slotsOf m.set.arr) + 1 + slotsSize (slotsOf m.get.arr) else 12 + slotsSize (slotsOf m.plain.arr)) := by
    refine (use_triple m.self).bind (K := secF m.plain ++ secF m.set ++ secF m.get) (by perm) fun _ _ => ?_
    split
    · refine (secSize_triple m.set hm.2.1).bind (K := [m.self] ++ secF m.plain ++ secF m.get) (by perm) fun a ha => ?_
      refine (secSize_triple m.get hm.2.2).bind (K := [m.self] ++ secF m.plain ++ secF m.set) (by perm) fun b hb => ?_
      exact .pure (by perm) (by rw [ha, hb])
    · refine (secSize_triple m.plain hm.1).bind (K := [m.self] ++ secF m.set ++ secF m.get) (by perm) fun a ha => ?_
      exact .pure (by perm) (by rw [ha])
  refine tsize.bind (K := ptr m.fromA ++ ptr m.toA) (by perm) fun n hn => ?_
  refine mallocArray_triple.bind (K := [m.self] ++ ptr m.fromA ++ ptr m.toA ++ secF m.plain ++ secF m.set ++ secF m.get) (by perm) fun a ha => ?_
  cases a with
  | none => cases ha
  | some a =>
    have twr : OTriple g (secF m.plain ++ secF m.set ++ secF m.get) (msgWritten m) (fun _ => secF m.plain ++ secF m.set ++ secF m.get)
        (fun w => w.length ≤ n ∧ ∀ f, HoldsFrame m f → m.hd.ehd1 = 0x10 → m.hd.ehd2 = 0x81 → (IsSetGet f.esv ↔ ∃ a b, f.body = .setGet a b) →
          w = encode f ∧ n = w.length) := by
      have hrw : ∀ f, HoldsFrame m f → (m.hd.isReadWrite = true ↔ IsSetGet f.esv) := by
        intro f hf
        unfold Message.isReadWrite
        rw [hf.2.2.2.1]
        exact isReadWrite_iff _
      unfold msgWritten
      split
      next h =>
        rw [if_pos h] at hn
        refine (secBytes_triple m.set hm.2.1).bind (K := secF m.plain ++ secF m.get) (by perm) fun x hx => ?_
        refine (secBytes_triple m.get hm.2.2).bind (K := secF m.plain ++ secF m.set) (by perm) fun y hy => ?_
        refine .pure (by perm) ⟨?_, fun f hf h1 h2 hk => ?_⟩
        · have := hx.1
          have := hy.1
          simp only [List.length_append, List.length_cons, List.length_nil]
          omega
        · obtain ⟨u, v, hb⟩ := hk.1 ((hrw f hf).1 h)
          obtain ⟨f1, f2, f3, f4, f5⟩ := hf
          rw [hb] at f5
          obtain ⟨x1, x2⟩ := hx.2 u f5.2.1
          obtain ⟨y1, y2⟩ := hy.2 v f5.2.2
          refine ⟨?_, ?_⟩
          · rw [encode, hb, encodeBody, ← x1, ← y1, ← f1, ← f2, ← f3, ← f4, h1, h2]
            simp
          · simp only [List.length_append, List.length_cons, List.length_nil]
            omega
      next h =>
        rw [if_neg h] at hn
        refine (secBytes_triple m.plain hm.1).bind (K := secF m.set ++ secF m.get) (by perm) fun x hx => ?_
        refine .pure (by perm) ⟨?_, fun f hf h1 h2 hk => ?_⟩
        · have := hx.1
          simp only [List.length_append, List.length_cons, List.length_nil]
          omega
        · have hne : ¬ IsSetGet f.esv := fun c => h ((hrw f hf).2 c)
          cases hb : f.body with
          | setGet u v => exact absurd (hk.2 ⟨u, v, hb⟩) hne
          | plain ps =>
            obtain ⟨f1, f2, f3, f4, f5⟩ := hf
            rw [hb] at f5
            obtain ⟨x1, x2⟩ := hx.2 ps f5.1
            refine ⟨?_, ?_⟩
            · rw [encode, hb, encodeBody, ← x1, ← f1, ← f2, ← f3, ← f4, h1, h2]
              simp
            · simp only [List.length_append, List.length_cons, List.length_nil]
              omega
    refine twr.bind (K := [a] ++ [m.self] ++ ptr m.fromA ++ ptr m.toA) (by simp only [got] <;> perm) fun w hw => ?_
    refine (use_triple a).bind (K := [m.self] ++ ptr m.fromA ++ ptr m.toA ++ secF m.plain ++ secF m.set ++ secF m.get) (by perm) fun _ _ => ?_
    rw [if_pos hw.1]
    refine .pure (by simp only [msgF, ptr] <;> perm) ⟨hm, fun f hf h1 h2 hk => ?_⟩
    obtain ⟨w1, w2⟩ := hw.2 f hf h1 h2 hk
    rw [w2, w1]
    simp

/-! ### Addresses and copies -/

theorem strloc_triple (v : Option String) (p : Option (Nat × String)) : OTriple g (ptr p) (Oom.strloc v p) ptr (fun _ => True) := by
  cases v with
  | none => exact .pure (.refl _) trivial
  | some t =>
    refine (freeOpt_triple p).bind (K := []) (by simp) fun _ _ => ?_
    refine malloc_triple.bind (K := []) (by simp) fun a _ => ?_
    cases a with
    | none => exact .pure (by simp [got, ptr]) trivial
    | some a => exact .pure (by simp [got, ptr]) trivial

theorem msgSetSource_triple (m : OMsg) (hm : MOk m) (v : Option String) :
    OTriple g (msgF m) (Oom.msgSetSource m v) msgF (fun r => MOk r ∧ r.plain = m.plain) := by
  refine (use_triple m.self).bind (K := ptr m.bytes ++ ptr m.fromA ++ ptr m.toA ++ secF m.plain ++ secF m.set ++ secF m.get)
    (by simp only [msgF] <;> perm) fun _ _ => ?_
  refine (strloc_triple v m.fromA).bind (K := [m.self] ++ ptr m.bytes ++ ptr m.toA ++ secF m.plain ++ secF m.set ++ secF m.get) (by perm) fun p _ => ?_
  exact .pure (by simp only [msgF] <;> perm) ⟨hm, rfl⟩

theorem msgSetDest_triple (m : OMsg) (hm : MOk m) (v : Option String) :
    OTriple g (msgF m) (Oom.msgSetDest m v) msgF (fun r => MOk r ∧ r.plain = m.plain) := by
  refine (use_triple m.self).bind (K := ptr m.bytes ++ ptr m.fromA ++ ptr m.toA ++ secF m.plain ++ secF m.set ++ secF m.get)
    (by simp only [msgF] <;> perm) fun _ _ => ?_
  refine (strloc_triple v m.toA).bind (K := [m.self] ++ ptr m.bytes ++ ptr m.fromA ++ secF m.plain ++ secF m.set ++ secF m.get) (by perm) fun p _ => ?_
  exact .pure (by simp only [msgF] <;> perm) ⟨hm, rfl⟩

theorem addrRead_triple (p : Option (Nat × String)) : OTriple g (ptr p) (Oom.addrRead p) (fun _ => ptr p) (fun _ => True) :=
  (useOpt_triple p).bind (K := []) (by simp) fun _ _ => .pure (by simp) trivial

theorem copyAll_triple : ∀ (ps : List OProp), (∀ p ∈ ps, POk p) → ∀ (s : OSec), SOk s → s.cnt.toNat + ps.length ≤ 255 →
    OTriple g (ps.flatMap propF ++ secF s) (Oom.copyAll ps s) (fun r => ps.flatMap propF ++ secF r) SOk
  | [], _, s, hs, _ => .pure (.refl _) hs
  | p :: ps, hp, s, hs, hl => by
    simp only [List.length_cons] at hl
    refine (propCopy_triple p (hp p (by simp))).bind (K := ps.flatMap propF ++ secF s) (by simp only [List.flatMap_cons] <;> perm) fun r hr => ?_
    cases r with
    | none =>
      exact (copyAll_triple ps (fun q hq => hp q (by simp [hq])) s hs (by omega)).conseq (K := propF p) (by simp only [opt] <;> perm) fun r hr =>
        ⟨by simp only [List.flatMap_cons] <;> perm, hr⟩
    | some q =>
      refine (secAdd_triple s hs (by omega) q (hr.2 q rfl)).bind (K := propF p ++ ps.flatMap propF) (by simp only [opt] <;> perm) fun s' hs' => ?_
      refine (copyAll_triple ps (fun q hq => hp q (by simp [hq])) s' hs'.1 ?_).conseq (K := propF p) (by perm) fun r hr =>
        ⟨by simp only [List.flatMap_cons] <;> perm, hr⟩
      have h1 := hs'.1.1
      rw [hs'.2.1, List.length_append, hs.1] at h1
      simp only [List.length_cons, List.length_nil] at h1
      omega

theorem slotsF_filter : ∀ l : List (Option OProp), slotsF l = (l.filterMap id).flatMap propF
  | [] => rfl
  | none :: l => by rw [slotsF_cons, slotsF_filter l]; rfl
  | some p :: l => by rw [slotsF_cons, slotsF_filter l]; rfl

theorem gettable_ok (l : List (Option OProp)) (h : SlotsOk l) : ∃ k, (slotsF l).Perm ((gettable l).flatMap propF ++ k) ∧
    (∀ p ∈ gettable l, POk p) ∧ (gettable l).length ≤ l.length := by
  unfold gettable
  split
  · exact ⟨[], .refl _, fun _ h => (by cases h), Nat.zero_le _⟩
  · exact ⟨_, .refl _, fun _ h => (by cases h), Nat.zero_le _⟩
  · refine ⟨[], by rw [slotsF_filter]; simp, fun p hp => h p ?_, List.length_filterMap_le _ _⟩
    simpa using hp

theorem msgSet_triple (m n : OMsg) (hm : MOk m) (hn : MOk n) : OTriple g (msgF m ++ msgF n) (Oom.msgSet m n) (fun r => msgF r ++ msgF n) MOk := by
  refine (msgClear_triple m hm).bind (K := msgF n) (by simp) fun r hr => ?_
  subst hr
  refine (use_triple n.self).bind (K := [m.self] ++ ptr n.bytes ++ ptr n.fromA ++ ptr n.toA ++ secF n.plain ++ secF n.set ++ secF n.get)
    (by simp only [msgF, cleared] <;> perm) fun _ _ => ?_
  refine (addrRead_triple n.fromA).bind (K := [m.self] ++ [n.self] ++ ptr n.bytes ++ ptr n.toA ++ secF n.plain ++ secF n.set ++ secF n.get)
    (by perm) fun f _ => ?_
  refine (msgSetSource_triple { cleared m with hd := n.hd } (cleared_ok m) f).bind (K := msgF n)
    (by rw [show msgF { cleared m with hd := n.hd } = [m.self] from cleared_F m]; simp only [msgF] <;> perm) fun r hr => ?_
  refine (addrRead_triple n.toA).bind (K := msgF r ++ [n.self] ++ ptr n.bytes ++ ptr n.fromA ++ secF n.plain ++ secF n.set ++ secF n.get)
    (by simp only [msgF] <;> perm) fun t _ => ?_
  refine (msgSetDest_triple r hr.1 t).bind (K := msgF n) (by simp only [msgF] <;> perm) fun q hq => ?_
  rw [if_pos (by rw [hn.1.1]; exact Nat.le_refl _), List.take_of_length_le (by rw [hn.1.1]; exact Nat.le_refl _)]
  refine (useOpt_triple n.plain.arr).bind
    (K := msgF q ++ [n.self] ++ ptr n.bytes ++ ptr n.fromA ++ ptr n.toA ++ slotsF (slotsOf n.plain.arr) ++ secF n.set ++ secF n.get)
    (by simp only [msgF, secF] <;> perm) fun _ _ => ?_
  obtain ⟨k, hk, hp, hl⟩ := gettable_ok _ hn.1.2
  have hqp : q.plain = ⟨0, none⟩ := by rw [hq.2, hr.2]; rfl
  refine (copyAll_triple (gettable (slotsOf n.plain.arr)) hp q.plain hq.1.1 (by rw [hqp]; rw [hn.1.1] at hl; have := n.plain.cnt.isLt; simp; omega)).bind
    (K := [q.self] ++ ptr q.bytes ++ ptr q.fromA ++ ptr q.toA ++ secF q.set ++ secF q.get ++
      ([n.self] ++ ptr n.bytes ++ ptr n.fromA ++ ptr n.toA ++ ptr n.plain.arr ++ k ++ secF n.set ++ secF n.get)) ?_ fun s hs => ?_
  · have hk := fun a => List.perm_iff_count.1 hk a
    refine List.perm_iff_count.2 fun a => ?_
    have := hk a
    simp only [msgF, List.count_append] at this ⊢
    omega
  · refine .pure ?_ ⟨hs, hq.1.2⟩
    have hk := fun a => List.perm_iff_count.1 hk a
    refine List.perm_iff_count.2 fun a => ?_
    have := hk a
    simp only [msgF, secF, List.count_append] at this ⊢
    omega

theorem msgCopy_triple (m : OMsg) (hm : MOk m) : OTriple g (msgF m) (Oom.msgCopy m) (fun r => opt msgF r ++ msgF m)
    (fun r => (g = true → r.isSome = true) ∧ ∀ n, r = some n → MOk n) := by
  refine msgNew_triple.bind (K := msgF m) (by simp) fun r hr => ?_
  cases r with
  | none => exact .pure (by simp [opt]) ⟨fun h => absurd (hr.1 h) (by simp), fun _ h => (by cases h)⟩
  | some n =>
    refine (msgSet_triple n m (hr.2 n rfl).1 hm).bind (K := []) (by simp [opt]) fun q hq => ?_
    exact .pure (by simp [opt]) ⟨fun _ => rfl, fun _ h => by cases h; exact hq⟩

/-! ### Sequences of calls -/

/-- Everything held is right. -/
def HOk (s : Held) : Prop := (∀ x ∈ s.props, POk x.2) ∧ ∀ x ∈ s.msgs, MOk x.2

theorem pick_look {α : Type} {h : Nat} : ∀ {l : List (Nat × α)} {a : α} {l' : List (Nat × α)}, pick h l = some (a, l') →
    look h l = some a ∧ (∃ k, (k, a) ∈ l) ∧ ∀ x ∈ l', x ∈ l := by
  intro l
  induction l with
  | nil => intro a l' e; cases e
  | cons x l ih =>
    intro a l' e
    simp only [pick] at e
    split at e
    next hx =>
      cases e
      exact ⟨by simp [look, hx], ⟨x.1, by simp⟩, fun y hy => by simp [hy]⟩
    next hx =>
      simp only [Option.map_eq_some_iff] at e
      obtain ⟨⟨b, k⟩, e1, e2⟩ := e
      cases e2
      obtain ⟨h1, ⟨k', h2⟩, h3⟩ := ih e1
      refine ⟨by simpa [look, hx] using h1, ⟨k', by simp [h2]⟩, fun y hy => ?_⟩
      rcases List.mem_cons.1 hy with rfl | hy
      · simp
      · simp [h3 y hy]

theorem look_cons {α : Type} (h : Nat) (a : α) (l : List (Nat × α)) : look h ((h, a) :: l) = some a := by simp [look]

theorem all_cons {α : Type} {P : α → Prop} {h : Nat} {a : α} {l : List (Nat × α)} (ha : P a) (hl : ∀ x ∈ l, P x.2) :
    ∀ x ∈ (h, a) :: l, P x.2 := by
  intro x hx
  rcases List.mem_cons.1 hx with rfl | hx
  · exact ha
  · exact hl x hx

/-- The meaning of the report, the expected report if `g`, and the next state is right. -/
def Fine (g : Bool) (s : Held) (c : Call) (r : Reply × Held) : Prop :=
  HOk r.2 ∧ Means s c r.1 r.2 ∧ (g = true → r.1 ≠ .skipped → Expected c r.1)

theorem means_skipped (s : Held) (c : Call) : Means s c .skipped s := by cases c <;> trivial

theorem skip_triple {s : Held} (ok : HOk s) {c : Call} :
    OTriple g s.blocks (Pure.pure (Reply.skipped, s)) (fun r => r.2.blocks) (Fine g s c) :=
  .pure (.refl _) ⟨ok, means_skipped s c, fun _ h => absurd rfl h⟩

theorem onProp_triple {s : Held} (ok : HOk s) {c : Call} (h : Nat) {f : OProp → O (Reply × OProp)}
    (t : ∀ p l, pick h s.props = some (p, l) → POk p → OTriple g (propF p) (f p) (fun r => propF r.2)
      (fun r => POk r.2 ∧ Means s c r.1 { s with props := (h, r.2) :: l } ∧ (g = true → Expected c r.1))) :
    OTriple g s.blocks (onProp s h f) (fun r => r.2.blocks) (Fine g s c) := by
  unfold onProp
  rcases e : pick h s.props with _ | ⟨p, l⟩
  · exact skip_triple ok
  · obtain ⟨-, ⟨k, h1⟩, h2⟩ := pick_look e
    refine (t p l e (ok.1 _ h1)).bind (K := l.flatMap (fun x => propF x.2) ++ s.msgs.flatMap (fun x => msgF x.2))
      (by unfold Short.Held.blocks; exact ((Blocks.pick_perm propF e).append_right _).trans (by perm)) fun q hq => ?_
    exact .pure (by simp only [Short.Held.blocks, List.flatMap_cons] <;> perm)
      ⟨⟨all_cons hq.1 (fun x hx => ok.1 x (h2 x hx)), ok.2⟩, hq.2.1, fun hg _ => hq.2.2 hg⟩

theorem onMsg_triple {s : Held} (ok : HOk s) {c : Call} (h : Nat) {f : OMsg → O (Reply × OMsg)}
    (t : ∀ p l, pick h s.msgs = some (p, l) → MOk p → OTriple g (msgF p) (f p) (fun r => msgF r.2)
      (fun r => MOk r.2 ∧ Means s c r.1 { s with msgs := (h, r.2) :: l } ∧ (g = true → Expected c r.1))) :
    OTriple g s.blocks (onMsg s h f) (fun r => r.2.blocks) (Fine g s c) := by
  unfold onMsg
  rcases e : pick h s.msgs with _ | ⟨p, l⟩
  · exact skip_triple ok
  · obtain ⟨-, ⟨k, h1⟩, h2⟩ := pick_look e
    refine (t p l e (ok.2 _ h1)).bind (K := l.flatMap (fun x => msgF x.2) ++ s.props.flatMap (fun x => propF x.2))
      (by unfold Short.Held.blocks; exact ((Blocks.pick_perm msgF e).append_left _).trans (by perm)) fun q hq => ?_
    exact .pure (by simp only [Short.Held.blocks, List.flatMap_cons] <;> perm)
      ⟨⟨ok.1, all_cons hq.1 (fun x hx => ok.2 x (h2 x hx))⟩, hq.2.1, fun hg _ => hq.2.2 hg⟩

theorem call_triple {s : Held} (ok : HOk s) (c : Call) (hc : c.isAppend = false) :
    OTriple g s.blocks (call s c) (fun r => r.2.blocks) (Fine g s c) := by
  cases c with
  | propNew h =>
    simp only [call]
    split
    · refine propNew_triple.bind (K := s.blocks) (by simp) fun p hp => ?_
      cases p with
      | none => exact .pure (by simp [opt]) ⟨ok, rfl, fun hg _ => absurd (hp.1 hg) (by simp)⟩
      | some p =>
        have hf := hp.2 p rfl
        exact .pure (by simp only [opt, Short.Held.blocks, List.flatMap_cons] <;> perm) ⟨⟨all_cons hf.ok ok.1, ok.2⟩,
          ⟨p, look_cons _ _ _, hf.1, by rw [hf.2.1]; rfl⟩, fun _ _ => rfl⟩
    · exact skip_triple ok
  | propCode h c =>
    exact onProp_triple ok h fun p l _ hp => (use_triple p.self).bind (K := strF p.name ++ ptr p.data) (by simp only [propF] <;> perm) fun _ _ =>
      .pure (by simp only [propF] <;> perm) ⟨hp, trivial, fun _ => trivial⟩
  | propSetData h d =>
    refine onProp_triple ok h fun p l e hp => (propSetData_triple p d).bind (K := []) (by simp) fun r hr => ?_
    obtain ⟨b, q⟩ := r
    refine .pure (by simp) ⟨hr.1, ?_, fun hg => congrArg Reply.done (hr.2.2.2.1 hg)⟩
    cases b with
    | true =>
      show (look h ((h, q) :: l)).map _ = _
      rw [look_cons, Option.map_some, hr.2.1 rfl]
    | false =>
      show (look h ((h, q) :: l)).map _ = _
      rw [look_cons, Option.map_some, hr.2.2.1 rfl]
  | propAddData h d => cases hc
  | propSetInteger h v size =>
    simp only [call]
    split
    next hs =>
      obtain ⟨bs, hb, _⟩ := integer2byte_ok v size hs.2
      refine onProp_triple ok h fun p l e hp => (propSetInteger_triple p hp v size hb).bind (K := []) (by simp) fun r hr => ?_
      exact .pure (by simp) ⟨hr.1, trivial, fun hg => congrArg Reply.done (hr.2 hg)⟩
    · exact skip_triple ok
  | propSetName h v =>
    refine onProp_triple ok h fun p l e hp => (propSetName_triple p v).bind (K := []) (by simp) fun q hq => ?_
    exact .pure (by simp) ⟨by unfold POk; rw [hq.1, hq.2.1]; exact hp, trivial, fun _ => trivial⟩
  | propRead h =>
    refine onProp_triple ok h fun p l e hp => (propRead_triple p hp).bind (K := []) (by simp) fun d hd => ?_
    refine .pure (by simp) ⟨hp, ?_, fun _ => trivial⟩
    show (look h s.props).map _ = _
    rw [(pick_look e).1, hd]
    rfl
  | propCopy h h' =>
    simp only [call]
    split
    · rcases e : pick h s.props with _ | ⟨p, l⟩
      · exact skip_triple ok
      · obtain ⟨-, ⟨k, h1⟩, h2⟩ := pick_look e
        refine (propCopy_triple p (ok.1 _ h1)).bind (K := l.flatMap (fun x => propF x.2) ++ s.msgs.flatMap (fun x => msgF x.2))
          (by unfold Short.Held.blocks; exact ((Blocks.pick_perm propF e).append_right _).trans (by perm)) fun q hq => ?_
        cases q with
        | none =>
          refine .pure ?_ ⟨ok, rfl, fun hg _ => absurd (hq.1 hg) (by simp)⟩
          simp only [Short.Held.blocks, opt]
          refine List.Perm.trans ?_ ((Blocks.pick_perm propF e).symm.append_right _)
          perm
        | some q =>
          refine .pure ?_ ⟨⟨all_cons (hq.2 q rfl) ok.1, ok.2⟩, trivial, fun _ _ => rfl⟩
          simp only [Short.Held.blocks, List.flatMap_cons, opt]
          refine List.Perm.trans ?_ (((Blocks.pick_perm propF e).symm.append_left (propF q)).append_right _)
          perm
    · exact skip_triple ok
  | propDelete h =>
    simp only [call]
    rcases e : pick h s.props with _ | ⟨p, l⟩
    · exact skip_triple ok
    · obtain ⟨-, -, h2⟩ := pick_look e
      refine (propDelete_triple p).bind (K := l.flatMap (fun x => propF x.2) ++ s.msgs.flatMap (fun x => msgF x.2))
        (by unfold Short.Held.blocks; exact ((Blocks.pick_perm propF e).append_right _).trans (by perm)) fun q _ => ?_
      exact .pure (by simp [Short.Held.blocks]) ⟨⟨fun x hx => ok.1 x (h2 x hx), ok.2⟩, trivial, fun _ _ => trivial⟩
  | msgNew h =>
    simp only [call]
    split
    · refine msgNew_triple.bind (K := s.blocks) (by simp) fun m hm => ?_
      cases m with
      | none => exact .pure (by simp [opt]) ⟨ok, rfl, fun hg _ => absurd (hm.1 hg) (by simp)⟩
      | some m =>
        obtain ⟨h1, h2, h3, h4⟩ := hm.2 m rfl
        exact .pure (by simp only [opt, Short.Held.blocks, List.flatMap_cons] <;> perm) ⟨⟨ok.1, all_cons h1 ok.2⟩,
          ⟨m, look_cons _ _ _, by rw [h2]; rfl, by rw [h3]; rfl, by rw [h4]; rfl⟩, fun _ _ => rfl⟩
    · exact skip_triple ok
  | msgHeader h f =>
    exact onMsg_triple ok h fun m l _ hm => (use_triple m.self).bind
      (K := ptr m.bytes ++ ptr m.fromA ++ ptr m.toA ++ secF m.plain ++ secF m.set ++ secF m.get) (by simp only [msgF] <;> perm) fun _ _ =>
        .pure (by simp only [msgF] <;> perm) ⟨hm, trivial, fun _ => trivial⟩
  | msgAdd h sec p =>
    simp only [call]
    split
    next m l q l' e1 e2 =>
      split
      next hcn =>
        obtain ⟨-, ⟨k1, h1⟩, h2⟩ := pick_look e1
        obtain ⟨-, ⟨k2, h3⟩, h4⟩ := pick_look e2
        have hm := ok.2 _ h1
        have hq := ok.1 _ h3
        refine (use_triple m.self).bind (K := ptr m.bytes ++ ptr m.fromA ++ ptr m.toA ++ secF m.plain ++ secF m.set ++ secF m.get ++ propF q ++
            l'.flatMap (fun x => propF x.2) ++ l.flatMap (fun x => msgF x.2))
          (by unfold Short.Held.blocks; exact ((Blocks.pick_perm propF e2).append (Blocks.pick_perm msgF e1)).trans (by simp only [msgF] <;> perm)) fun _ _ => ?_
        cases sec with
        | plain =>
          refine (secAdd_triple m.plain hm.1 hcn q hq).bind (K := [m.self] ++ ptr m.bytes ++ ptr m.fromA ++ ptr m.toA ++ secF m.set ++ secF m.get ++
            l'.flatMap (fun x => propF x.2) ++ l.flatMap (fun x => msgF x.2)) (by perm) fun r hr => ?_
          exact .pure (by simp only [Short.Held.blocks, List.flatMap_cons, putSec, msgF] <;> perm)
            ⟨⟨fun x hx => ok.1 x (h4 x hx), all_cons ⟨hr.1, hm.2.1, hm.2.2⟩ fun x hx => ok.2 x (h2 x hx)⟩, trivial, fun _ _ => trivial⟩
        | set =>
          refine (secAdd_triple m.set hm.2.1 hcn q hq).bind (K := [m.self] ++ ptr m.bytes ++ ptr m.fromA ++ ptr m.toA ++ secF m.plain ++ secF m.get ++
            l'.flatMap (fun x => propF x.2) ++ l.flatMap (fun x => msgF x.2)) (by perm) fun r hr => ?_
          exact .pure (by simp only [Short.Held.blocks, List.flatMap_cons, putSec, msgF] <;> perm)
            ⟨⟨fun x hx => ok.1 x (h4 x hx), all_cons ⟨hm.1, hr.1, hm.2.2⟩ fun x hx => ok.2 x (h2 x hx)⟩, trivial, fun _ _ => trivial⟩
        | get =>
          refine (secAdd_triple m.get hm.2.2 hcn q hq).bind (K := [m.self] ++ ptr m.bytes ++ ptr m.fromA ++ ptr m.toA ++ secF m.plain ++ secF m.set ++
            l'.flatMap (fun x => propF x.2) ++ l.flatMap (fun x => msgF x.2)) (by perm) fun r hr => ?_
          exact .pure (by simp only [Short.Held.blocks, List.flatMap_cons, putSec, msgF] <;> perm)
            ⟨⟨fun x hx => ok.1 x (h4 x hx), all_cons ⟨hm.1, hm.2.1, hr.1⟩ fun x hx => ok.2 x (h2 x hx)⟩, trivial, fun _ _ => trivial⟩
      · exact skip_triple ok
    next => exact skip_triple ok
  | msgSetProp h sec code d =>
    simp only [call]
    rcases e : pick h s.msgs with _ | ⟨m, l⟩
    · exact skip_triple ok
    · simp only
      split
      next hcn =>
        obtain ⟨-, ⟨k1, h1⟩, h2⟩ := pick_look e
        have hm := ok.2 _ h1
        refine (use_triple m.self).bind (K := ptr m.bytes ++ ptr m.fromA ++ ptr m.toA ++ secF m.plain ++ secF m.set ++ secF m.get ++
            s.props.flatMap (fun x => propF x.2) ++ l.flatMap (fun x => msgF x.2))
          (by unfold Short.Held.blocks; exact ((Blocks.pick_perm msgF e).append_left _).trans (by simp only [msgF] <;> perm)) fun _ _ => ?_
        have fin : ∀ (r : Bool × OSec), (g = true → r.1 = true) → (r.1 = true → firstData code r.2 = some d) →
            firstData code (secOf (putSec m r.2 sec) sec) = firstData code r.2 →
            Means s (.msgSetProp h sec code d) (.done r.1) { s with msgs := (h, putSec m r.2 sec) :: l } ∧
            (g = true → Reply.done r.1 ≠ .skipped → Expected (.msgSetProp h sec code d) (.done r.1)) := by
          intro r hg hd he
          refine ⟨?_, fun h _ => congrArg Reply.done (hg h)⟩
          cases hb : r.1 with
          | false => trivial
          | true => exact ⟨_, look_cons _ _ _, he.trans (hd hb)⟩
        cases sec with
        | plain =>
          refine (secSetProp_triple m.plain hm.1 hcn code d).bind (K := [m.self] ++ ptr m.bytes ++ ptr m.fromA ++ ptr m.toA ++ secF m.set ++ secF m.get ++
            s.props.flatMap (fun x => propF x.2) ++ l.flatMap (fun x => msgF x.2)) (by perm) fun r hr => ?_
          exact .pure (by simp only [Short.Held.blocks, List.flatMap_cons, putSec, msgF] <;> perm)
            ⟨⟨ok.1, all_cons ⟨hr.1, hm.2.1, hm.2.2⟩ fun x hx => ok.2 x (h2 x hx)⟩, fin r hr.2.1 hr.2.2 rfl⟩
        | set =>
          refine (secSetProp_triple m.set hm.2.1 hcn code d).bind (K := [m.self] ++ ptr m.bytes ++ ptr m.fromA ++ ptr m.toA ++ secF m.plain ++ secF m.get ++
            s.props.flatMap (fun x => propF x.2) ++ l.flatMap (fun x => msgF x.2)) (by perm) fun r hr => ?_
          exact .pure (by simp only [Short.Held.blocks, List.flatMap_cons, putSec, msgF] <;> perm)
            ⟨⟨ok.1, all_cons ⟨hm.1, hr.1, hm.2.2⟩ fun x hx => ok.2 x (h2 x hx)⟩, fin r hr.2.1 hr.2.2 rfl⟩
        | get =>
          refine (secSetProp_triple m.get hm.2.2 hcn code d).bind (K := [m.self] ++ ptr m.bytes ++ ptr m.fromA ++ ptr m.toA ++ secF m.plain ++ secF m.set ++
            s.props.flatMap (fun x => propF x.2) ++ l.flatMap (fun x => msgF x.2)) (by perm) fun r hr => ?_
          exact .pure (by simp only [Short.Held.blocks, List.flatMap_cons, putSec, msgF] <;> perm)
            ⟨⟨ok.1, all_cons ⟨hm.1, hm.2.1, hr.1⟩ fun x hx => ok.2 x (h2 x hx)⟩, fin r hr.2.1 hr.2.2 rfl⟩
      · exact skip_triple ok
  | msgParse h data len =>
    simp only [call]
    split
    next hl =>
      refine onMsg_triple ok h fun m l e hm => (parse_triple m hm data len hl).bind (K := []) (by simp) fun r hr => ?_
      obtain ⟨b, q⟩ := r
      refine .pure (by simp) ⟨hr.1, ?_, fun hg hf => congrArg Reply.done (hr.2.2 hg hf)⟩
      cases b with
      | false => trivial
      | true =>
        obtain ⟨f, rest, h1, h2, h3⟩ := hr.2.1 rfl
        exact ⟨q, f, rest, look_cons _ _ _, h1, h2, h3⟩
    · exact skip_triple ok
  | msgSource h v =>
    exact onMsg_triple ok h fun m l _ hm => (msgSetSource_triple m hm v).bind (K := []) (by simp) fun r hr =>
      .pure (by simp) ⟨hr.1, trivial, fun _ => trivial⟩
  | msgDest h v =>
    exact onMsg_triple ok h fun m l _ hm => (msgSetDest_triple m hm v).bind (K := []) (by simp) fun r hr =>
      .pure (by simp) ⟨hr.1, trivial, fun _ => trivial⟩
  | msgBytes h =>
    refine onMsg_triple ok h fun m l e hm => (msgGetBytes_triple m hm).bind (K := []) (by simp) fun r hr => ?_
    refine .pure (by simp) ⟨hr.1, fun m' f hm' => ?_, fun _ => trivial⟩
    rw [(pick_look e).1] at hm'
    cases hm'
    exact hr.2 f
  | msgSet h src =>
    simp only [call]
    rcases e : pick h s.msgs with _ | ⟨m, l⟩
    · exact skip_triple ok
    · obtain ⟨-, ⟨k1, h1⟩, h2⟩ := pick_look e
      simp only
      rcases e' : pick src l with _ | ⟨n, l'⟩
      · exact skip_triple ok
      · obtain ⟨-, ⟨k3, h3⟩, h4⟩ := pick_look e'
        refine (msgSet_triple m n (ok.2 _ h1) (ok.2 _ (h2 _ h3))).bind (K := l'.flatMap (fun x => msgF x.2) ++ s.props.flatMap (fun x => propF x.2))
          (by unfold Short.Held.blocks; exact (((Blocks.pick_perm msgF e).trans ((Blocks.pick_perm msgF e').append_left _)).append_left _).trans (by perm)) fun r hr => ?_
        exact .pure (by simp only [Short.Held.blocks, List.flatMap_cons] <;> perm)
          ⟨⟨ok.1, all_cons hr (all_cons (ok.2 _ (h2 _ h3)) fun x hx => ok.2 x (h2 x (h4 x hx)))⟩, trivial, fun _ _ => trivial⟩
  | msgCopy h h' =>
    simp only [call]
    split
    · rcases e : pick h s.msgs with _ | ⟨p, l⟩
      · exact skip_triple ok
      · obtain ⟨-, ⟨k, h1⟩, h2⟩ := pick_look e
        refine (msgCopy_triple p (ok.2 _ h1)).bind (K := l.flatMap (fun x => msgF x.2) ++ s.props.flatMap (fun x => propF x.2))
          (by unfold Short.Held.blocks; exact ((Blocks.pick_perm msgF e).append_left _).trans (by perm)) fun q hq => ?_
        cases q with
        | none =>
          refine .pure ?_ ⟨ok, rfl, fun hg _ => absurd (hq.1 hg) (by simp)⟩
          simp only [Short.Held.blocks, opt]
          refine List.Perm.trans ?_ ((Blocks.pick_perm msgF e).symm.append_left _)
          perm
        | some q =>
          refine .pure ?_ ⟨⟨ok.1, all_cons (hq.2 q rfl) ok.2⟩, trivial, fun _ _ => rfl⟩
          simp only [Short.Held.blocks, List.flatMap_cons, opt]
          refine List.Perm.trans ?_ (((Blocks.pick_perm msgF e).symm.append_left (msgF q)).append_left _)
          perm
    · exact skip_triple ok
  | msgClear h =>
    refine onMsg_triple ok h fun m l _ hm => (msgClear_triple m hm).bind (K := []) (by simp) fun r hr => ?_
    subst hr
    exact .pure (by rw [cleared_F]; simp [cleared]) ⟨cleared_ok m, trivial, fun _ => trivial⟩
  | msgDelete h =>
    simp only [call]
    rcases e : pick h s.msgs with _ | ⟨p, l⟩
    · exact skip_triple ok
    · obtain ⟨-, ⟨k, h1⟩, h2⟩ := pick_look e
      refine (msgDelete_triple p (ok.2 _ h1)).bind (K := l.flatMap (fun x => msgF x.2) ++ s.props.flatMap (fun x => propF x.2))
        (by unfold Short.Held.blocks; exact ((Blocks.pick_perm msgF e).append_left _).trans (by perm)) fun q _ => ?_
      exact .pure (by simp only [Short.Held.blocks] <;> perm) ⟨⟨ok.1, fun x hx => ok.2 x (h2 x hx)⟩, trivial, fun _ _ => trivial⟩

theorem calls_triple : ∀ (cs : List Call) (_ : ∀ c ∈ cs, c.isAppend = false) {s : Held}, HOk s →
    OTriple g s.blocks (calls cs s) (fun r => r.2.blocks) (fun r => HOk r.2)
  | [], _, _, ok => .pure (.refl _) ok
  | c :: cs, h, s, ok =>
    (call_triple ok c (h c (by simp))).bind (K := []) (by simp) fun r hr =>
      (calls_triple cs (fun c hc => h c (by simp [hc])) hr.1).bind (K := []) (by simp) fun _ ht => .pure (by simp) ht

end Uecho.Lemmas.Short
