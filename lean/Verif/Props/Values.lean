import Verif.Lemmas.Copy
import Verif.Spec.Values
import Verif.Props.Samples
/-!
# Properties C06, C07, C08 (messages), C13, C14, C15
-/
set_option linter.unusedSimpArgs false
namespace Uecho.Props
open Uecho Uecho.Spec Uecho.Lemmas

/-! ## C06, C07: transaction ids -/

/-- **C06.** `gettid` after `settid(v)` is `v` for `v ≤ 65535`; larger values are reduced modulo
65535 (so they stay in range); the two wire bytes are the only fields that change. -/
theorem C06_tid_round_trip (e : Endian) (m : Message) (v : BitVec 32) :
    (v.toNat ≤ 65535 → (m.setTid e v).getTid e = v) ∧
    (65535 < v.toNat → ((m.setTid e v).getTid e).toNat = v.toNat % 65535) ∧
    ((m.setTid e v).getTid e).toNat ≤ 65535 ∧
    { m.setTid e v with tid0 := m.tid0, tid1 := m.tid1 } = m := by
  rw [getTid_setTid]
  have hlt : (65535#32 < v) ↔ 65535 < v.toNat := by rw [BitVec.lt_def]; simp
  refine ⟨?_, ?_, ?_, rfl⟩
  · intro h; unfold tidVal; rw [if_neg (by rw [hlt]; omega)]
  · intro h; unfold tidVal; rw [if_pos (by rw [hlt]; omega)]; simp [BitVec.toNat_umod]
  · unfold tidVal
    split
    · simp [BitVec.toNat_umod]; omega
    · rename_i h; rw [hlt] at h; omega

/-- both cases occur -/
example : (0x1234#32).toNat ≤ 65535 ∧ 65535 < (0x12345#32).toNat := by decide

/-- **C07, violated.** The wire bytes of the same TID depend on the host: `htons` is
applied and then the bytes are split by shifting, so a little-endian host
sends the least significant byte first. -/
theorem C07_violated : ∃ v : BitVec 32, v.toNat ≤ 65535 ∧
    ((Message.new.setTid .little v).tid0, (Message.new.setTid .little v).tid1) ≠
      ((Message.new.setTid .big v).tid0, (Message.new.setTid .big v).tid1) :=
  ⟨1, by decide, by decide⟩

/-- **C07, what holds.** A big-endian host sends most significant byte first, a little-endian host
least significant byte first (for every TID up to 65535); the bytes agree iff both halves of
the TID are equal. Missing: independence of the host for other TIDs (false). -/
theorem C07_wire_bytes_partial (m : Message) (v : BitVec 32) (h : v.toNat ≤ 65535) :
    ((m.setTid .big v).tid0.toNat = v.toNat / 256 ∧ (m.setTid .big v).tid1.toNat = v.toNat % 256) ∧
    ((m.setTid .little v).tid0.toNat = v.toNat % 256 ∧
      (m.setTid .little v).tid1.toNat = v.toNat / 256) ∧
    (((m.setTid .little v).tid0 = (m.setTid .big v).tid0 ∧
      (m.setTid .little v).tid1 = (m.setTid .big v).tid1) ↔ v.toNat / 256 = v.toNat % 256) := by
  have hlt : ¬ (65535#32 < v) := by rw [BitVec.lt_def]; simp; omega
  have a : (m.setTid .big v).tid0.toNat = v.toNat / 256 := by
    simp [Message.setTid, hlt, hton16, Nat.shiftRight_eq_div_pow]; omega
  have b : (m.setTid .big v).tid1.toNat = v.toNat % 256 := by
    simp [Message.setTid, hlt, hton16]
  have c : (m.setTid .little v).tid0.toNat = v.toNat % 256 := by
    simp only [Message.setTid, hlt, hton16, if_false, extract_append_hi]; simp
  have d : (m.setTid .little v).tid1.toNat = v.toNat / 256 := by
    simp only [Message.setTid, hlt, hton16, if_false, extract_append_lo]
    simp [Nat.shiftRight_eq_div_pow]; omega
  refine ⟨⟨a, b⟩, ⟨c, d⟩, ?_⟩
  constructor
  · rintro ⟨h1, h2⟩
    rw [← BitVec.toNat_inj, a, c] at h1; exact h1.symm
  · intro h1
    exact ⟨BitVec.eq_of_toNat_eq (by rw [a, c, h1]), BitVec.eq_of_toNat_eq (by rw [b, d, h1])⟩

example : (0x1234#32).toNat ≤ 65535 := by decide

/-! ## C08: object codes in messages -/

/-- **C08** (messages). Setting any object code up to 0xFFFFFF as source or destination is defined
and reads back the same value; the three wire bytes are group, class, instance. -/
theorem C08_message_codes (m : Message) (c : CInt) (hc : c.toNat ≤ 0xFFFFFF) :
    (∃ m', m.setSourceObjectCode c = .ok m' ∧ m'.getSourceObjectCode = .ok c ∧
      m'.seoj.1.toNat = c.toNat / 65536 ∧ m'.seoj.2.1.toNat = c.toNat / 256 % 256 ∧
      m'.seoj.2.2.toNat = c.toNat % 256 ∧ { m' with seoj := m.seoj } = m) ∧
    (∃ m', m.setDestinationObjectCode c = .ok m' ∧ m'.getDestinationObjectCode = .ok c ∧
      m'.deoj.1.toNat = c.toNat / 65536 ∧ m'.deoj.2.1.toNat = c.toNat / 256 % 256 ∧
      m'.deoj.2.2.toNat = c.toNat % 256 ∧ { m' with deoj := m.deoj } = m) := by
  obtain ⟨x, y, z, h, hx, hy, hz⟩ := integer2byte_three c
  have he : Message.eojOfCode c = .ok (x, y, z) := by simp [Message.eojOfCode, h]
  have hb : Message.codeOfEoj (x, y, z) = .ok c := by
    unfold Message.codeOfEoj
    simp only
    rw [byte2integer_three]
    congr 1
    apply BitVec.eq_of_toNat_eq
    have e32 : (2 : Nat) ^ 32 = 4294967296 := by decide
    rw [BitVec.toNat_ofNat, e32]
    omega
  refine ⟨⟨{ m with seoj := (x, y, z) }, ?_, hb, ?_, hy, hz, rfl⟩,
    ⟨{ m with deoj := (x, y, z) }, ?_, hb, ?_, hy, hz, rfl⟩⟩
  · simp [Message.setSourceObjectCode, he]
  · simp only; omega
  · simp [Message.setDestinationObjectCode, he]
  · simp only; omega

example : (0x0EF001#32 : CInt).toNat ≤ 0xFFFFFF := by decide

/-! ## C13: property data -/

theorem setCount_data (p : Property) (n : Nat) : p.setCount n = { p with data := List.replicate n 0 } := by
  unfold Property.setCount Property.clearData
  split
  · rename_i h; subst h; rfl
  · rfl

theorem addData_fst (p : Property) (d : List Byte) : (p.addData d).1 = { p with data := p.data ++ d } := by
  unfold Property.addData
  split
  · rename_i h
    have : d = [] := List.eq_nil_of_length_eq_zero h
    subst this; simp
  · rfl

/-- **C13.** After any sequence of data calls the stored data is what the same sequence of
assignments, appends and clears gives for a byte string; nothing else of the property
changes; and the getters return it (`getbytedata` exactly for one-byte data). -/
theorem C13_property_data (p : Property) (ops : List DataOp) :
    ops.foldl DataOp.run p = { p with data := ops.foldl DataOp.spec p.data } ∧
    (∀ q : Property, q.getByteData = .ok (match q.data with | [b] => some b | _ => none)) ∧
    (∀ (q : Property) (d : List Byte), q.isDataEqual d = true ↔ q.data = d) := by
  refine ⟨?_, ?_, ?_⟩
  · induction ops generalizing p with
    | nil => rfl
    | cons o os ih =>
      simp only [List.foldl_cons]
      have : o.run p = { p with data := o.spec p.data } := by
        cases o <;> simp [DataOp.run, DataOp.spec, setData_fst, addData_fst, Property.addByteData,
          Property.setByteData, Property.clearData, setCount_data]
      rw [ih, this]
  · intro q
    unfold Property.getByteData
    rcases hq : q.data with _ | ⟨b, _ | ⟨c, t⟩⟩ <;> simp [rd]
  · intro q d
    unfold Property.isDataEqual
    by_cases h : q.data = d
    · simp [h]
    · simp [h]

/-- a history with every kind of call -/
example : ([.setData [1, 2], .addData [3], .addByteData 4, .clearData, .setCount 2, .setByteData 9,
    .addData [], .addByteData 5].foldl DataOp.run Property.new).data = [9, 5] := by decide

/-- **C13** (announcement trigger): a data call announces iff it stores at least one new byte and the
property is announceable. -/
theorem C13_announce (p : Property) (d : List Byte) :
    ((p.setData d).2 = true ↔ d ≠ [] ∧ p.isAnnounceable = true) ∧
    ((p.addData d).2 = true ↔ d ≠ [] ∧ p.isAnnounceable = true) := by
  constructor
  · unfold Property.setData
    by_cases h : d = []
    · simp [h]
    · have : d.length ≠ 0 := by simpa using h
      simp [this, h, setCount_data, Property.isAnnounceable]
  · unfold Property.addData
    by_cases h : d = []
    · simp [h]
    · have : d.length ≠ 0 := by simpa using h
      simp [this, h, Property.isAnnounceable]

/-! ## C14: integer data -/

theorem beValue_append (l : List Byte) (b : Byte) : beValue (l ++ [b]) = beValue l * 256 + b.toNat := by
  simp [beValue]

theorem leValue_reverse (l : List Byte) : leValue l.reverse = beValue l := by
  have : ∀ l : List Byte, beValue l.reverse = leValue l := by
    intro l
    induction l with
    | nil => rfl
    | cons b bs ih => simp only [List.reverse_cons, beValue_append, ih, leValue]; omega
  have h := this l.reverse
  simpa using h.symm

/-- **C14** (reading). Reading integer data is defined exactly when the stored bytes, read as an
unsigned big-endian number, are at most 4 bytes and below 2^31; then that
number is returned. Everything else is undefined behaviour. -/
theorem C14_get_characterised (p : Property) :
    (p.data.length ≤ 4 ∧ beValue p.data < 2 ^ 31 → p.getIntegerData = .ok (BitVec.ofNat 32 (beValue p.data))) ∧
    (¬ (p.data.length ≤ 4 ∧ beValue p.data < 2 ^ 31) → p.getIntegerData = .ub) := by
  unfold Property.getIntegerData
  have e31 : (2 : Nat) ^ 31 = 2147483648 := by decide
  rw [e31]
  by_cases hl : p.data.length ≤ 4
  · rw [byte2integer_eq _ hl, leValue_reverse]
    constructor
    · rintro ⟨_, h⟩; rw [if_pos h]
    · intro h; rw [if_neg (fun h' => h ⟨hl, h'⟩)]
  · refine ⟨fun h => absurd h.1 hl, fun _ => byte2integer_long_ub _ (by omega)⟩

theorem beValue_integer2byte (v : CInt) : ∀ k, k ≤ 4 → ∃ bs, integer2byte v k = .ok bs ∧
    bs.length = k ∧ beValue bs = v.toNat % 256 ^ k
  | 0, _ => ⟨[], rfl, rfl, by simp [beValue, Nat.mod_one]⟩
  | k + 1, hk => by
      obtain ⟨bs, h1, h2, h3⟩ := beValue_integer2byte v k (by omega)
      refine ⟨((v.sshiftRight (k * 8)).setWidth 8) :: bs, ?_, by simp [h2], ?_⟩
      · simp only [integer2byte, h1, Res.bind_ok]
        rw [if_neg (by omega)]
      · have hs := sshr_byte v k (by omega)
        have hcons : ∀ (b : Byte) (l : List Byte), beValue (b :: l) = b.toNat * 256 ^ l.length + beValue l := by
          intro b l
          have : ∀ (l : List Byte) (a : Nat), l.foldl (fun a b => a * 256 + b.toNat) a =
              a * 256 ^ l.length + beValue l := by
            intro l
            induction l with
            | nil => intro a; simp [beValue]
            | cons x xs ih =>
              intro a
              simp only [List.foldl_cons, List.length_cons, beValue]
              rw [ih, ih (0 * 256 + x.toNat)]
              rw [Nat.add_mul, Nat.pow_succ', ← Nat.mul_assoc, Nat.zero_mul, Nat.zero_add]; omega
          show (b :: l).foldl _ 0 = _
          rw [List.foldl_cons, this]; simp
        rw [hcons, h2, h3, hs, Nat.pow_succ, Nat.mod_mul, Nat.mul_comm]
        omega

/-- **C14** (round trip). For sizes up to 3 bytes storing an integer and reading it back is defined and
gives the value modulo 256^size; for 4 bytes this holds for non-negative values. The announcement
flag and other fields behave as for `setdata`. -/
theorem C14_round_trip (p : Property) (v : CInt) (size : Nat)
    (h : size ≤ 3 ∨ (size = 4 ∧ v.toNat < 2 ^ 31)) :
    ∃ p' a, p.setIntegerData v size = .ok (p', a) ∧ p'.data.length = size ∧
      p'.getIntegerData = .ok (BitVec.ofNat 32 (v.toNat % 256 ^ size)) ∧
      { p' with data := p.data } = p := by
  obtain ⟨bs, h1, h2, h3⟩ := beValue_integer2byte v size (by omega)
  refine ⟨(p.setData bs).1, (p.setData bs).2, by simp [Property.setIntegerData, h1], ?_, ?_, ?_⟩
  · rw [setData_fst]; exact h2
  · rw [setData_fst]
    have := (C14_get_characterised { p with data := bs }).1
    simp only at this
    rw [h3] at this
    apply this
    refine ⟨by omega, ?_⟩
    rcases h with h | ⟨rfl, h⟩
    · have h1 : v.toNat % 256 ^ size < 256 ^ size := Nat.mod_lt _ (Nat.pow_pos (by omega))
      have h2 : 256 ^ size ≤ 256 ^ 3 := Nat.pow_le_pow_right (by omega) h
      omega
    · exact Nat.lt_of_le_of_lt (Nat.mod_le _ _) h
  · rw [setData_fst]

/-- **C14** (writing). Storing more than 4 bytes is undefined behaviour (shift by 32 or more). -/
theorem C14_set_ub (p : Property) (v : CInt) (size : Nat) (h : 5 ≤ size) :
    p.setIntegerData v size = .ub := by
  simp [Property.setIntegerData, integer2byte_ub v size h]

/-- **C14** (boundary). A negative value stored in 4 bytes cannot be read back: undefined behaviour. -/
theorem C14_negative_ub (p : Property) (v : CInt) (h : 2 ^ 31 ≤ v.toNat) :
    ∃ p' a, p.setIntegerData v 4 = .ok (p', a) ∧ p'.getIntegerData = .ub := by
  obtain ⟨bs, h1, h2, h3⟩ := beValue_integer2byte v 4 (by omega)
  refine ⟨(p.setData bs).1, (p.setData bs).2, by simp [Property.setIntegerData, h1], ?_⟩
  rw [setData_fst]
  apply (C14_get_characterised { p with data := bs }).2
  rintro ⟨_, h4⟩
  simp only at h4
  rw [h3, Nat.mod_eq_of_lt (by have := v.isLt; omega)] at h4
  omega

example : ((0xFFFFF0#32 : CInt).toNat < 2 ^ 31) ∧ 2 ^ 31 ≤ (0xFFFFFFFF#32 : CInt).toNat := by decide
example : (Property.new.setIntegerData 0xFFFFF0 3).Defined := ⟨_, by rfl⟩

/-! ## C15: ESV roles -/

/-- **C15, violated.** 0x51 (SetC_SNA), the error response the library itself associates with 0x61, is
not classified as a response. -/
theorem C15_violated : (0x51#8 : Byte) ∈ responseEsvs ∧ Esv.isResponse 0x51 = false ∧
    Esv.requestToError 0x61 = some 0x51 := by decide

/-- **C15, the part that holds.** For every byte: it is a request iff it is one of the six request ESVs;
it is a response iff it is one of the response ESVs other than 0x51; nothing is both; the
success and error ESV of a request are never requests, and are responses except for 0x51. -/
theorem C15_roles_partial : ∀ e : Byte,
    (Esv.isRequest e = true ↔ e ∈ requestEsvs) ∧
    (Esv.isResponse e = true ↔ e ∈ responseEsvs ∧ e ≠ 0x51) ∧
    ¬ (Esv.isRequest e = true ∧ Esv.isResponse e = true) ∧
    (∀ r, Esv.requestToResponse e = some r → Esv.isResponse r = true ∧ Esv.isRequest r = false) ∧
    (∀ r, Esv.requestToError e = some r → Esv.isRequest r = false ∧
      (r ≠ 0x51 → Esv.isResponse r = true)) ∧
    ((Esv.requestToResponse e).isSome = true ↔ e ∈ requestEsvs ∧ e ≠ 0x60) ∧
    ((Esv.requestToError e).isSome = true ↔ e ∈ requestEsvs ∧ e ≠ 0x74) := by
  intro e
  have h : ∀ e : Byte,
    ((Esv.isRequest e = true ↔ e ∈ requestEsvs) ∧
    (Esv.isResponse e = true ↔ e ∈ responseEsvs ∧ e ≠ 0x51) ∧
    ¬ (Esv.isRequest e = true ∧ Esv.isResponse e = true)) ∧
    ((Esv.requestToResponse e).all (fun r => Esv.isResponse r && !Esv.isRequest r) = true ∧
     (Esv.requestToError e).all (fun r => !Esv.isRequest r && (r == 0x51 || Esv.isResponse r)) = true) ∧
    ((Esv.requestToResponse e).isSome = true ↔ e ∈ requestEsvs ∧ e ≠ 0x60) ∧
    ((Esv.requestToError e).isSome = true ↔ e ∈ requestEsvs ∧ e ≠ 0x74) := by
    decide +kernel
  obtain ⟨⟨h1, h2, h3⟩, ⟨h4, h5⟩, h6, h7⟩ := h e
  refine ⟨h1, h2, h3, ?_, ?_, h6, h7⟩
  · intro r hr; rw [hr] at h4; simpa using h4
  · intro r hr; rw [hr] at h5; simp at h5
    exact ⟨h5.1, fun hne => h5.2.resolve_left hne⟩

end Uecho.Props
