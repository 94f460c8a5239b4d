import Verif.Spec.MessageFields
import Verif.Lemmas.Copy
import Verif.Lemmas.Reply
/-! # C124: a message holds what was set last -/
namespace Uecho.Props
open Uecho Uecho.Spec Uecho.Lemmas

theorem code_round {c : CInt} {x : Byte × Byte × Byte} (h : Message.eojOfCode c = .ok x) (hc : c.toNat < 2 ^ 24) :
    Message.codeOfEoj x = .ok c := by
  obtain ⟨a, b, d, h1, ha, hb, hd⟩ := integer2byte_three c
  simp only [Message.eojOfCode, h1, Res.bind_ok, Res.pure_eq] at h
  cases h
  rw [codeOfEoj_eq]
  congr 1
  apply BitVec.eq_of_toNat_eq
  simp only [eojNat, BitVec.toNat_ofNat, ha, hb, hd]
  omega

/-- **C124.** After any calls of the setters, in any order, every getter gives what was set last, and the predicates say whether it is
the value asked for. Setting the address NULL changes nothing. -/
theorem C124_last_value (e : Endian) (ops : List FieldOp) (hr : ∀ op ∈ ops, InRange op) :
    ∃ m, fieldRun e ops Message.new = .ok m ∧
      m.getTid e = lastSet FieldOp.asTid 0 ops ∧
      m.getSourceObjectCode = .ok (lastSet FieldOp.asSource 0 ops) ∧
      m.getDestinationObjectCode = .ok (lastSet FieldOp.asDestination 0 ops) ∧
      m.getEhd1 = lastSet FieldOp.asEhd1 0x10 ops ∧
      m.getEhd2 = lastSet FieldOp.asEhd2 0x81 ops ∧
      m.getEsv = lastSet FieldOp.asEsv 0 ops ∧
      m.getSourceAddress = lastSet FieldOp.asSourceAddress none ops ∧
      m.getDestinationAddress = lastSet FieldOp.asDestinationAddress none ops ∧
      (∀ c, m.isSourceObjectCode c = .ok (decide (c = lastSet FieldOp.asSource 0 ops))) ∧
      (∀ c, m.isDestinationObjectCode c = .ok (decide (c = lastSet FieldOp.asDestination 0 ops))) ∧
      (∀ a, m.isSourceAddress (some a) = decide (lastSet FieldOp.asSourceAddress none ops = some a)) ∧
      (∀ a, m.isDestinationAddress (some a) = decide (lastSet FieldOp.asDestinationAddress none ops = some a)) ∧
      m.isSourceAddress none = false ∧ m.isDestinationAddress none = false := by
  have key : ∀ (ops : List FieldOp) (m : Message) (t : BitVec 32) (s d : CInt) (a b : Byte) (v : Byte) (f g : Option String),
      (∀ op ∈ ops, InRange op) → m.getTid e = t → m.getSourceObjectCode = .ok s → m.getDestinationObjectCode = .ok d → m.getEhd1 = a →
      m.getEhd2 = b → m.getEsv = v → m.getSourceAddress = f → m.getDestinationAddress = g →
      ∃ m', fieldRun e ops m = .ok m' ∧ m'.getTid e = lastSet FieldOp.asTid t ops ∧
      m'.getSourceObjectCode = .ok (lastSet FieldOp.asSource s ops) ∧
      m'.getDestinationObjectCode = .ok (lastSet FieldOp.asDestination d ops) ∧
      m'.getEhd1 = lastSet FieldOp.asEhd1 a ops ∧
      m'.getEhd2 = lastSet FieldOp.asEhd2 b ops ∧
      m'.getEsv = lastSet FieldOp.asEsv v ops ∧
      m'.getSourceAddress = lastSet FieldOp.asSourceAddress f ops ∧
      m'.getDestinationAddress = lastSet FieldOp.asDestinationAddress g ops := by
    intro ops
    induction ops with
    | nil => intro m t s d a b v f g _ h1 h2 h3 h4 h5 h6 h7 h8; exact ⟨m, rfl, h1, h2, h3, h4, h5, h6, h7, h8⟩
    | cons op ops ih =>
      intro m t s d a b v f g hr h1 h2 h3 h4 h5 h6 h7 h8
      have hr' : ∀ op ∈ ops, InRange op := fun o ho => hr o (by simp [ho])
      have hop := hr op (by simp)
      cases op with
      | tid w =>
        refine ih (m.setTid e w) _ _ _ _ _ _ _ _ hr' ?_ h2 h3 h4 h5 h6 h7 h8
        rw [getTid_setTid]
        have : ¬ 65535#32 < w := by rw [BitVec.lt_def]; simp only [InRange] at hop; simp; omega
        simp [tidVal, this, FieldOp.asTid]
      | source c =>
        obtain ⟨x, hx⟩ := eojOfCode_ok c
        obtain ⟨m', g1, g2⟩ := ih { m with seoj := x } t c d a b v f g hr' h1 (code_round hx hop) h3 h4 h5 h6 h7 h8
        exact ⟨m', by simp [fieldRun, fieldStep, Message.setSourceObjectCode, hx, g1], g2⟩
      | destination c =>
        obtain ⟨x, hx⟩ := eojOfCode_ok c
        obtain ⟨m', g1, g2⟩ := ih { m with deoj := x } t s c a b v f g hr' h1 h2 (code_round hx hop) h4 h5 h6 h7 h8
        exact ⟨m', by simp [fieldRun, fieldStep, Message.setDestinationObjectCode, hx, g1], g2⟩
      | ehd1 x => exact ih (m.setEhd1 x) _ _ _ _ _ _ _ _ hr' h1 h2 h3 rfl h5 h6 h7 h8
      | ehd2 x => exact ih (m.setEhd2 x) _ _ _ _ _ _ _ _ hr' h1 h2 h3 h4 rfl h6 h7 h8
      | esv x => exact ih (m.setEsv x) _ _ _ _ _ _ _ _ hr' h1 h2 h3 h4 h5 rfl h7 h8
      | sourceAddress x =>
        cases x with
        | none => exact ih m _ _ _ _ _ _ _ _ hr' h1 h2 h3 h4 h5 h6 h7 h8
        | some x => exact ih (m.setSourceAddress (some x)) _ _ _ _ _ _ _ _ hr' h1 h2 h3 h4 h5 h6 rfl h8
      | destinationAddress x =>
        cases x with
        | none => exact ih m _ _ _ _ _ _ _ _ hr' h1 h2 h3 h4 h5 h6 h7 h8
        | some x => exact ih (m.setDestinationAddress (some x)) _ _ _ _ _ _ _ _ hr' h1 h2 h3 h4 h5 h6 h7 rfl
  obtain ⟨m, h, h1, h2, h3, h4, h5, h6, h7, h8⟩ := key ops Message.new 0 0 0 0x10 0x81 0 none none hr (by cases e <;> decide) (by decide +kernel)
    (by decide +kernel) rfl rfl rfl rfl rfl
  refine ⟨m, h, h1, h2, h3, h4, h5, h6, h7, h8, fun c => ?_, fun c => ?_, fun a => ?_, fun a => ?_, ?_, ?_⟩
  · simp only [Message.isSourceObjectCode, h2, Res.bind_ok, Res.pure_eq, Res.ok.injEq]
    rw [Bool.beq_eq_decide_eq]
    exact decide_eq_decide.2 ⟨fun q => q.symm, fun q => q.symm⟩
  · simp only [Message.isDestinationObjectCode, h3, Res.bind_ok, Res.pure_eq, Res.ok.injEq]
    rw [Bool.beq_eq_decide_eq]
    exact decide_eq_decide.2 ⟨fun q => q.symm, fun q => q.symm⟩
  · unfold Message.getSourceAddress at h7
    rw [Message.isSourceAddress, h7]
    cases lastSet FieldOp.asSourceAddress none ops with
    | none => simp
    | some b => by_cases hb : b = a <;> simp [hb]
  · unfold Message.getDestinationAddress at h8
    rw [Message.isDestinationAddress, h8]
    cases lastSet FieldOp.asDestinationAddress none ops with
    | none => simp
    | some b => by_cases hb : b = a <;> simp [hb]
  · simp only [Message.isSourceAddress]
    cases m.fromAddr <;> simp
  · simp only [Message.isDestinationAddress]
    cases m.toAddr <;> simp

example : ∀ op ∈ [FieldOp.tid 7, .source 0x0EF001, .esv 0x62, .sourceAddress (some "10.0.0.1"), .tid 8, .sourceAddress none], InRange op := by
  simp [InRange]

example : lastSet FieldOp.asTid 0 [FieldOp.tid 7, .source 0x0EF001, .tid 8, .sourceAddress none] = 8 := by decide

/-- **C124.** What a message is follows from the last service set: a read, write or notification request is a request, none of them is a
response, and a message that is set to a success response is a response. -/
theorem C124_kind (e : Endian) (ops : List FieldOp) (m : Message) (h : fieldRun e ops Message.new = .ok m) :
    let v := lastSet FieldOp.asEsv 0 ops
    (m.isRequest = true ↔ IsRequestEsv v) ∧
    (m.isWriteRequest = true ↔ IsWriteEsv v) ∧
    (m.isReadRequest = true ↔ v = 0x62 ∨ v = 0x6E) ∧
    (m.isNotifyRequest = true ↔ v = 0x63 ∨ v = 0x74) ∧
    (m.isNotification = true ↔ v = 0x73) ∧
    (m.isRequest = true → m.isResponse = false) ∧
    (m.isResponse = true ↔ m.isWriteResponse = true ∨ m.isReadResponse = true ∨ m.isNotifyResponse = true) ∧
    (∀ q, successEsv q = some v → m.isResponse = true) := by
  have key : ∀ (ops : List FieldOp) (m m' : Message), fieldRun e ops m = .ok m' → m'.esv = lastSet FieldOp.asEsv m.esv ops := by
    intro ops
    induction ops with
    | nil => intro m m' h; cases h; rfl
    | cons op ops ih =>
      intro m m' h
      simp only [fieldRun] at h
      rw [Res.bind_eq_ok] at h
      obtain ⟨m1, h1, h2⟩ := h
      rw [ih m1 m' h2]
      show lastSet FieldOp.asEsv m1.esv ops = lastSet FieldOp.asEsv ((FieldOp.asEsv op).getD m.esv) ops
      congr 1
      cases op with
      | source c =>
        simp only [fieldStep, Message.setSourceObjectCode] at h1
        rw [Res.bind_eq_ok] at h1
        obtain ⟨x, _, h1⟩ := h1
        cases h1; rfl
      | destination c =>
        simp only [fieldStep, Message.setDestinationObjectCode] at h1
        rw [Res.bind_eq_ok] at h1
        obtain ⟨x, _, h1⟩ := h1
        cases h1; rfl
      | sourceAddress a => cases a <;> (cases h1; rfl)
      | destinationAddress a => cases a <;> (cases h1; rfl)
      | _ => cases h1; rfl
  intro v
  have hv : m.esv = v := key ops _ _ h
  simp only [Message.isRequest, Message.isWriteRequest, Message.isReadRequest, Message.isNotifyRequest, Message.isNotification,
    Message.isResponse, Message.isWriteResponse, Message.isReadResponse, Message.isNotifyResponse, hv]
  have all : ∀ v : Byte, (Esv.isRequest v = true ↔ IsRequestEsv v) ∧ (Esv.isWriteRequest v = true ↔ IsWriteEsv v) ∧
      (Esv.isReadRequest v = true ↔ v = 0x62 ∨ v = 0x6E) ∧ (Esv.isNotifyRequest v = true ↔ v = 0x63 ∨ v = 0x74) ∧
      (Esv.isNotification v = true ↔ v = 0x73) ∧ (Esv.isRequest v = true → Esv.isResponse v = false) ∧
      (Esv.isResponse v = true ↔ Esv.isWriteResponse v = true ∨ Esv.isReadResponse v = true ∨ Esv.isNotifyResponse v = true) := by
    decide +kernel
  obtain ⟨a1, a2, a3, a4, a5, a6, a7⟩ := all v
  refine ⟨a1, a2, a3, a4, a5, a6, a7, fun q hq => ?_⟩
  unfold successEsv at hq
  repeat' split at hq
  all_goals first
    | (simp only [Option.some.injEq] at hq; rw [← hq]; decide)
    | cases hq

example : ∃ m, fieldRun .little [.esv 0x62, .tid 5] Message.new = .ok m ∧ m.isReadRequest = true := ⟨_, rfl, by decide⟩

end Uecho.Props
