import Verif.Lemmas.Section
import Verif.Props.Samples
/-!
# Properties C01–C05, C09–C12: messages and their wire format

Specifications used: `Spec.Frame` (grammar), `Spec.Reachable` (message objects a
program can have), `Spec.Sec` (names of the property sections).
-/
set_option linter.unusedSimpArgs false
namespace Uecho.Props
open Uecho Uecho.Spec Uecho.Lemmas

/-! ## C01 -/

/-- **C01.** Parsing any byte block with any reachable message object has defined
behaviour: in the model a read outside `data` (the block has exactly `data.length`
bytes and that length is passed) or outside a property array is the
outcome `ub`. -/
theorem C01_parse_safe (e : Endian) (m : Message) (hm : Reachable e m) (data : List Byte) :
    ∃ r m', m.parse data data.length = .ok (r, m') := by
  have h := parse_spec (reachable_inv hm).toMsgWF data data.length (Nat.le_refl _)
  cases hd : decode (data.take data.length) with
  | some x => obtain ⟨f, r⟩ := x; rw [hd] at h; exact ⟨_, _, h⟩
  | none => rw [hd] at h; obtain ⟨m', h, _⟩ := h; exact ⟨_, _, h⟩

/-- **C01** (datagram entry point `uecho_message_parsepacket`). -/
theorem C01_parsepacket_safe (e : Endian) (m : Message) (hm : Reachable e m) (data : List Byte)
    (l a : Option String) : ∃ r m', m.parsePacket data l a = .ok (r, m') := by
  obtain ⟨r, m', h⟩ := C01_parse_safe e m hm data
  unfold Message.parsePacket
  rw [h]
  cases r
  · exact ⟨_, _, rfl⟩
  · exact ⟨_, _, rfl⟩

/-- non-vacuity: a message object that already holds properties is reused for a truncated frame -/
example (e : Endian) : Reachable e samplePlain ∧
    ∃ m', samplePlain.parse [0x10, 0x81, 0, 1, 0x0E, 0xF0, 1, 0x0E, 0xF0, 1, 0x62, 2, 0xD6] 13 =
      .ok (false, m') ∧ m'.opc = 2 := ⟨samplePlain_reachable e, _, by rfl, by rfl⟩

/-! ## C02–C05 -/

/-- Property values fit in the one-byte PDC. -/
def DataFits (m : Message) : Prop :=
  ∀ p, p ∈ m.ep ∨ p ∈ m.epSet ∨ p ∈ m.epGet → p.data.length ≤ 255

theorem toFrame_wf {m : Message} (h : MsgWF m) (hd : DataFits m) : (toFrame m).WF := by
  have key : ∀ (o : Byte) (l : List Property), l.length = o.toNat →
      (∀ p ∈ l, p.data.length ≤ 255) → SectionOK (view l) := by
    intro o l hl hp
    refine ⟨?_, ?_⟩
    · have := o.isLt; simp [view]; omega
    · intro q hq
      simp only [view, List.mem_map] at hq
      obtain ⟨p, hp', rfl⟩ := hq
      exact hp p hp'
  unfold toFrame Frame.WF
  by_cases hv : IsSetGet m.esv
  · simp only [hv, if_true]
    exact ⟨trivial, key _ _ h.epSet (fun p hp => hd p (.inr (.inl hp))),
      key _ _ h.epGet (fun p hp => hd p (.inr (.inr hp)))⟩
  · simp only [hv, if_false]
    exact ⟨not_false, key _ _ h.ep (fun p hp => hd p (.inl hp))⟩

theorem view_mkProp (qs : List Prop8) : view (qs.map mkProp) = qs := by
  unfold view
  rw [List.map_map]
  conv => rhs; rw [← List.map_id qs]
  rfl

theorem toFrame_parsed {m : Message} {f : Frame} (hf : f.WF) : toFrame (parsed m f) = f := by
  obtain ⟨⟨t0, t1⟩, s, d, v, b⟩ := f
  cases b with
  | plain ps =>
    have : ¬ IsSetGet v := hf.1
    simp [toFrame, parsed, this, view_mkProp]
  | setGet ss gs =>
    have : IsSetGet v := hf.1
    simp [toFrame, parsed, this, view_mkProp]

/-- **C02.** Serialising any reachable message whose values fit in 255 bytes and parsing the
bytes into any reachable message object succeeds and gives a message that stands for the
same frame: same TID, objects, ESV, and same (EPC, EDT) sequence in each section. -/
theorem C02_serialise_parse (e : Endian) (m m0 : Message) (hm : Reachable e m) (hm0 : Reachable e m0)
    (hd : DataFits m) :
    ∃ bytes : List Byte, m.getBytes = .ok (bytes.map some) ∧
      ∃ m', m0.parse bytes bytes.length = .ok (true, m') ∧ toFrame m' = toFrame m ∧
        m'.getTid e = m.getTid e := by
  have hi := reachable_inv hm
  have hi0 := reachable_inv hm0
  refine ⟨encode (toFrame m), ?_, parsed m0 (toFrame m), ?_, ?_, rfl⟩
  · rw [getBytes_eq hi.toMsgWF, encMsg_eq_encode hi.toMsgWF hi.ehd1 hi.ehd2]
  · have hs := parse_spec hi0.toMsgWF (encode (toFrame m)) _ (Nat.le_refl _)
    have hdec := decode_complete (r := []) (toFrame_wf hi.toMsgWF hd)
    simp only [List.append_nil] at hdec
    rw [List.take_length, hdec] at hs
    exact hs
  · exact toFrame_parsed (toFrame_wf hi.toMsgWF hd)

/-- non-vacuity: a message with three properties and a SetGet message satisfy the hypotheses -/
example (e : Endian) : Reachable e samplePlain ∧ DataFits samplePlain :=
  ⟨samplePlain_reachable e, by
    intro p hp
    simp [samplePlain, Message.new] at hp
    rcases hp with rfl | rfl | rfl <;> decide⟩
example (e : Endian) : Reachable e sampleSetGet ∧ DataFits sampleSetGet :=
  ⟨sampleSetGet_reachable e, by
    intro p hp
    simp [sampleSetGet, Message.new] at hp
    rcases hp with rfl | rfl | rfl <;> decide⟩

/-- **C03.** If `len` bytes at `data` are accepted, the parsed message serialises to exactly a
prefix of them; the rest is trailing input. -/
theorem C03_parse_serialise (e : Endian) (m m' : Message) (hm : Reachable e m) (data : List Byte)
    (len : Nat) (hl : len ≤ data.length) (h : m.parse data len = .ok (true, m')) :
    ∃ bytes rest : List Byte, m'.getBytes = .ok (bytes.map some) ∧ data.take len = bytes ++ rest := by
  have hi := reachable_inv hm
  have hs := parse_spec hi.toMsgWF data len hl
  cases hd : decode (data.take len) with
  | none =>
    rw [hd] at hs; obtain ⟨m2, h2, _⟩ := hs
    rw [h] at h2; simp at h2
  | some x =>
    obtain ⟨f, r⟩ := x
    rw [hd] at hs; simp only at hs
    rw [h] at hs; simp at hs; subst hs
    obtain ⟨h1, h2⟩ := decode_sound hd
    have hp := inv_parsed hi h2
    refine ⟨encode f, r, ?_, h1⟩
    rw [getBytes_eq hp.toMsgWF, encMsg_eq_encode hp.toMsgWF hp.ehd1 hp.ehd2, toFrame_parsed h2]

/-- non-vacuity: a frame with two trailing bytes -/
example : ∃ m', Message.new.parse
    [0x10, 0x81, 0, 1, 0x0E, 0xF0, 1, 0x0E, 0xF0, 1, 0x73, 1, 0xD5, 2, 0xAA, 0xBB, 0xFF, 0xFE] 18 =
      .ok (true, m') ∧ m'.ep.length = 1 := ⟨_, by rfl, by rfl⟩

/-- **C04.** The parser accepts exactly the byte strings that start with a well-formed frame, and
then the message stands for that frame. -/
theorem C04_grammar (e : Endian) (m : Message) (hm : Reachable e m) (data : List Byte) :
    (∃ m', m.parse data data.length = .ok (true, m')) ↔
      ∃ f rest, f.WF ∧ data = encode f ++ rest := by
  have hi := reachable_inv hm
  have hs := parse_spec hi.toMsgWF data data.length (Nat.le_refl _)
  rw [List.take_length] at hs
  constructor
  · rintro ⟨m', h⟩
    cases hd : decode data with
    | none =>
      rw [hd] at hs; obtain ⟨m2, h2, _⟩ := hs
      rw [h] at h2; simp at h2
    | some x =>
      obtain ⟨f, r⟩ := x
      obtain ⟨h1, h2⟩ := decode_sound hd
      exact ⟨f, r, h2, h1⟩
  · rintro ⟨f, r, hw, rfl⟩
    rw [decode_complete hw] at hs
    exact ⟨_, hs⟩

/-- **C04** (content). If the input starts with the well-formed frame `f`, the parsed message stands
for `f`; in particular `f` is the only such frame. -/
theorem C04_content (e : Endian) (m m' : Message) (hm : Reachable e m) (f : Frame) (rest : List Byte)
    (hf : f.WF) (h : m.parse (encode f ++ rest) (encode f ++ rest).length = .ok (true, m')) :
    toFrame m' = f := by
  have hs := parse_spec (reachable_inv hm).toMsgWF (encode f ++ rest) _ (Nat.le_refl _)
  rw [List.take_length, decode_complete hf] at hs
  simp only at hs
  rw [h] at hs; simp at hs; subst hs
  exact toFrame_parsed hf

/-- non-vacuity: a well-formed SetGet frame -/
example : (⟨(0, 1), (0x0E, 0xF0, 1), (0x01, 0x30, 1), 0x6E,
    .setGet [(0x80, [0x30])] [(0x80, []), (0x81, [])]⟩ : Frame).WF := by decide

/-- **C05.** `uecho_message_size` is the number of bytes `uecho_message_getbytes` writes: the
serialiser has defined behaviour (no write leaves the buffer of that size) and no
byte of the buffer is left uninitialised (every cell is `some`). -/
theorem C05_size_bytes (e : Endian) (m : Message) (hm : Reachable e m) :
    ∃ (n : Nat) (bytes : List Byte), m.size = .ok n ∧ m.getBytes = .ok (bytes.map some) ∧
      bytes.length = n := by
  have hi := reachable_inv hm
  exact ⟨_, _, size_eq hi.toMsgWF, getBytes_eq hi.toMsgWF, rfl⟩

/-- non-vacuity (also for values longer than 255 bytes) -/
example (e : Endian) : Reachable e sampleLong ∧ sampleLong.size = .ok 314 :=
  ⟨sampleLong_reachable e, by decide +kernel⟩

/-! ## C09 -/

/-- **C09, violated for SetGet messages.** Copying a SetGet message loses its properties: the
copy does not equal the source. -/
theorem C09_violated (e : Endian) : ∃ m m', Reachable e m ∧ m.copy e = .ok m' ∧
    m'.equals m = .ok false := by
  refine ⟨sampleSetGet, { Message.new with esv := 0x6E }, sampleSetGet_reachable e, ?_, ?_⟩
  · cases e <;> decide +kernel
  · decide +kernel

theorem view_copy (l : List Property) : view (l.map Property.copy) = view l := by
  simp [view, copy_prop]

/-- **C09, the part that holds.** For every reachable message with a non-SetGet ESV, setting any
reachable message object from it (in particular a fresh one: `uecho_message_copy`) is defined and
gives a message that equals the source, with the same addresses; properties also keep name
and attribute. Missing: SetGet messages (see `C09_violated`). -/
theorem C09_copy_partial (e : Endian) (dst src : Message) (hd : Reachable e dst)
    (hs : Reachable e src) (hv : ¬ IsSetGet src.esv) :
    ∃ m', dst.setFrom e src = .ok m' ∧ m'.equals src = .ok true ∧ toFrame m' = toFrame src ∧
      m'.fromAddr = src.fromAddr ∧ m'.toAddr = src.toAddr ∧
      m'.ep.map (fun p => (p.name, p.attr)) = src.ep.map (fun p => (p.name, p.attr)) := by
  have id := reachable_inv hd
  have is := reachable_inv hs
  refine ⟨_, setFrom_eq e id.toMsgWF is.toMsgWF, ?_, ?_, rfl, rfl, ?_⟩
  · rw [equals_eq ⟨by simpa using is.ep, rfl, rfl⟩ is.toMsgWF]
    simp [encMsg, hv, encProps, view_copy]
  · simp [toFrame, hv, view_copy]
  · simp [copy_prop]

/-- `uecho_message_copy` is the case of a fresh destination. -/
theorem C09_message_copy_partial (e : Endian) (src : Message) (hs : Reachable e src)
    (hv : ¬ IsSetGet src.esv) : ∃ m', src.copy e = .ok m' ∧ m'.equals src = .ok true := by
  obtain ⟨m', h1, h2, _⟩ := C09_copy_partial e Message.new src .new hs hv
  exact ⟨m', h1, h2⟩

example (e : Endian) : Reachable e samplePlain ∧ ¬ IsSetGet samplePlain.esv :=
  ⟨samplePlain_reachable e, by decide⟩

/-! ## C10 -/

/-- **C10.** `uecho_message_equals` is defined on all reachable messages, is an equivalence
relation, and on messages whose values fit in 255 bytes it holds iff both stand
for the same frame. -/
theorem C10_equals (e : Endian) (m1 m2 m3 : Message) (h1 : Reachable e m1) (h2 : Reachable e m2)
    (h3 : Reachable e m3) :
    m1.equals m1 = .ok true ∧
    m1.equals m2 = m2.equals m1 ∧
    (m1.equals m2 = .ok true → m2.equals m3 = .ok true → m1.equals m3 = .ok true) ∧
    (m1.equals m2).Defined ∧
    (DataFits m1 → DataFits m2 → (m1.equals m2 = .ok true ↔ toFrame m1 = toFrame m2)) := by
  have i1 := reachable_inv h1
  have i2 := reachable_inv h2
  have i3 := reachable_inv h3
  rw [equals_eq i1.toMsgWF i1.toMsgWF, equals_eq i1.toMsgWF i2.toMsgWF,
    equals_eq i2.toMsgWF i1.toMsgWF, equals_eq i2.toMsgWF i3.toMsgWF, equals_eq i1.toMsgWF i3.toMsgWF]
  refine ⟨by simp, by simp [eq_comm], ?_, by simp, ?_⟩
  · simp; intro a b; exact a.trans b
  · intro d1 d2
    rw [encMsg_eq_encode i1.toMsgWF i1.ehd1 i1.ehd2, encMsg_eq_encode i2.toMsgWF i2.ehd1 i2.ehd2]
    simp
    constructor
    · intro h
      have a := decode_complete (r := []) (toFrame_wf i1.toMsgWF d1)
      have b := decode_complete (r := []) (toFrame_wf i2.toMsgWF d2)
      rw [h, b] at a
      simpa using a.symm
    · intro h; rw [h]

/-- non-vacuity: two different reachable messages that are told apart -/
example (e : Endian) : Reachable e samplePlain ∧ Reachable e sampleSetGet ∧
    samplePlain.equals sampleSetGet = .ok false :=
  ⟨samplePlain_reachable e, sampleSetGet_reachable e, by decide +kernel⟩

/-! ## C11 -/

/-- **C11, violated.** Adding 256 properties to a new message is undefined behaviour: the one-byte
count wraps to 0 and the store goes in front of the array. -/
theorem C11_violated (s : Sec) (ps : List Property) (h : ps.length = 256) :
    s.addAll Message.new ps = .ub := by
  apply addAll_ub s ps _ inv_new.toMsgWF
  omega

example : ∃ ps : List Property, ps.length = 256 := ⟨List.replicate 256 Property.new, List.length_replicate⟩

/-- **C11, the part that holds.** As long as at most 255 properties are in a section, additions
are defined, the count is exact, `getproperty(n)` is the n-th property and NULL beyond
the count, and the other sections do not change. Missing: more than 255. -/
theorem C11_add_partial (e : Endian) (m : Message) (hm : Reachable e m) (s : Sec) (ps : List Property)
    (hl : s.count m + ps.length ≤ 255) :
    ∃ m', s.addAll m ps = .ok m' ∧ s.count m' = s.count m + ps.length ∧
      (∀ n, n < s.count m → s.nth m' n = s.nth m n) ∧
      (∀ n, s.nth m' (s.count m + n) = .ok ps[n]?) ∧
      (∀ t, t ≠ s → t.count m' = t.count m ∧ ∀ n, t.nth m' n = t.nth m n) := by
  have hi := (reachable_inv hm).toMsgWF
  have hlen := sec_len hi s
  rw [sec_count] at hl ⊢
  obtain ⟨m', h1, h2, h3, h4⟩ := addAll_eq s ps m hi (by omega)
  have hlen' := sec_len h2 s
  refine ⟨m', h1, ?_, ?_, ?_, ?_⟩
  · rw [sec_count, ← hlen', h3]; simp; omega
  · intro n hn
    rw [sec_at, sec_at, propGet_eq hlen', propGet_eq hlen, h3, List.getElem?_append_left (by omega)]
  · intro n
    rw [sec_at, propGet_eq hlen', h3, List.getElem?_append_right (by omega)]
    congr 2; omega
  · intro t ht
    obtain ⟨a, b⟩ := h4 t ht
    refine ⟨by rw [sec_count, sec_count, b], fun n => by rw [sec_at, sec_at, a, b]⟩

example (e : Endian) : Reachable e samplePlain ∧
    Sec.plain.count samplePlain + (List.replicate 252 pA).length ≤ 255 :=
  ⟨samplePlain_reachable e, by rw [List.length_replicate]; decide⟩

/-! ## C12 -/

/-- **C12, violated at 255 properties.** Setting a property that is absent from a full section is
undefined behaviour. -/
theorem C12_violated (e : Endian) (s : Sec) (m : Message) (hm : Reachable e m) (c : Byte)
    (d : List Byte) (hfull : s.count m = 255) (habs : s.byCode m c = .ok none) :
    s.put m c d = .ub := by
  have hi := (reachable_inv hm).toMsgWF
  have hlen := sec_len hi s
  rw [sec_count] at hfull
  rw [sec_byCode, byCode_eq hlen] at habs
  simp only [Res.ok.injEq] at habs
  rw [sec_put, propSet_eq hlen, habs]
  simp only
  rw [if_neg (by omega)]; rfl

theorem addAll_reachable (e : Endian) (s : Sec) : ∀ (ps : List Property) (m m' : Message),
    Reachable e m → s.addAll m ps = .ok m' → Reachable e m'
  | [], m, m', h, he => by simp [Sec.addAll] at he; exact he ▸ h
  | p :: ps, m, m', h, he => by
      simp only [Sec.addAll, Res.bind_eq_ok] at he
      obtain ⟨m1, h1, h2⟩ := he
      refine addAll_reachable e s ps m1 m' ?_ h2
      cases s
      · exact .addProperty h p h1
      · exact .addPropertySet h p h1
      · exact .addPropertyGet h p h1

/-- non-vacuity: every section can be filled with 255 properties of code 0x80, so 0x81 is absent -/
example (e : Endian) (s : Sec) : ∃ m, Reachable e m ∧ s.count m = 255 ∧ s.byCode m 0x81 = .ok none := by
  obtain ⟨m', h1, h2, h3, h4⟩ := addAll_eq s (List.replicate 255 pA) Message.new inv_new.toMsgWF
    (by rw [List.length_replicate]; cases s <;> exact Nat.le_of_eq (Nat.zero_add 255))
  refine ⟨m', addAll_reachable e s _ _ _ .new h1, ?_, ?_⟩
  · rw [sec_count, ← sec_len h2, h3, List.length_append, List.length_replicate]
    cases s <;> exact Nat.zero_add 255
  · rw [sec_byCode, byCode_eq (sec_len h2 s), h3]
    have : secProps s Message.new = [] := by cases s <;> rfl
    rw [this, List.nil_append, List.find?_replicate_of_neg (by decide)]

/-- **C12, the part that holds.** If the code is present or the section has room, `setproperty`
is defined; the lookup of the code gives the data; lookups of other codes, every slot with
another code, the other sections and the header are unchanged; the count grows by
one iff the code was absent. Missing: absent code in a section of 255 properties. -/
theorem C12_upsert_partial (e : Endian) (s : Sec) (m : Message) (hm : Reachable e m) (c : Byte)
    (d : List Byte) (hroom : s.byCode m c ≠ .ok none ∨ s.count m < 255) :
    ∃ m', s.put m c d = .ok m' ∧
      (∃ p, s.byCode m' c = .ok (some p) ∧ p.code = c ∧ p.data = d) ∧
      (∀ c', c' ≠ c → s.byCode m' c' = s.byCode m c') ∧
      (∀ n p, s.nth m n = .ok (some p) → p.code ≠ c → s.nth m' n = .ok (some p)) ∧
      (s.count m' = s.count m + if s.byCode m c = .ok none then 1 else 0) ∧
      (∀ t, t ≠ s → t.count m' = t.count m ∧ ∀ n, t.nth m' n = t.nth m n) ∧
      (m'.ehd1, m'.ehd2, m'.tid0, m'.tid1, m'.seoj, m'.deoj, m'.esv, m'.fromAddr, m'.toAddr) =
        (m.ehd1, m.ehd2, m.tid0, m.tid1, m.seoj, m.deoj, m.esv, m.fromAddr, m.toAddr) := by
  have hi := (reachable_inv hm).toMsgWF
  have hlen := sec_len hi s
  simp only [sec_count, sec_byCode, byCode_eq hlen, sec_at] at hroom ⊢
  cases hf : (secProps s m).find? (fun p => p.code == c) with
  | some q =>
    have hq : q.code = c := by
      have := List.find?_some hf; simpa using this
    have hput := propSet_eq hlen c d
    rw [hf] at hput; simp only at hput
    refine ⟨secWith s m (secOpc s m) (Message.modifyFirst c (fun p => { p with data := d }) (secProps s m)),
      ?_, ?_, ?_, ?_, ?_, ?_, ?_⟩
    · rw [sec_put, hput]; rfl
    all_goals try rw [(secWith_self ..).1, (secWith_self ..).2]
    · refine ⟨{ q with data := d }, ?_, hq, rfl⟩
      rw [byCode_eq (by rw [modifyFirst_length]; exact hlen),
        find_modifyFirst_self (fun p => { p with data := d }) rfl hf]
    · intro c' hc'
      rw [byCode_eq (by rw [modifyFirst_length]; exact hlen),
        find_modifyFirst_other (fun p => { p with data := d }) (fun _ => rfl) hc']
    · intro n p hp hc
      rw [propGet_eq hlen] at hp
      rw [propGet_eq (by rw [modifyFirst_length]; exact hlen)]
      simp only [Res.ok.injEq] at hp ⊢
      exact getElem_modifyFirst _ n p hp hc
    · rw [(secWith_self ..).2]; simp
    · intro t ht
      obtain ⟨a, b⟩ := secWith_other ht m (secOpc s m)
        (Message.modifyFirst c (fun p => { p with data := d }) (secProps s m))
      exact ⟨by rw [b], fun n => by rw [a, b]⟩
    · cases s <;> rfl
  | none =>
    have hroom' : (secProps s m).length < 255 := by
      rcases hroom with h | h
      · exact absurd (by rw [hf]) h
      · omega
    have hput := propSet_eq hlen c d
    rw [hf] at hput; simp only [hroom', if_true] at hput
    have hadd := propAdd_eq (o := secOpc s m) (l := secProps s m)
      { Property.new with code := c, data := d } hlen hroom'
    have hlen' := (propAdd_ok hadd).2.2.2.2
    refine ⟨secWith s m (secOpc s m + 1) (secProps s m ++ [{ Property.new with code := c, data := d }]),
      ?_, ?_, ?_, ?_, ?_, ?_, ?_⟩
    · rw [sec_put, hput]; rfl
    all_goals try rw [(secWith_self ..).1, (secWith_self ..).2]
    · refine ⟨{ Property.new with code := c, data := d }, ?_, rfl, rfl⟩
      rw [byCode_eq hlen']
      simp [List.find?_append, hf]
    · intro c' hc'
      rw [byCode_eq hlen']
      have : (c == c') = false := by simpa using fun h => hc' h.symm
      simp [List.find?_append, this]
    · intro n p hp hc
      rw [propGet_eq hlen] at hp
      rw [propGet_eq hlen']
      simp only [Res.ok.injEq] at hp ⊢
      have : n < (secProps s m).length := by
        rw [List.getElem?_eq_some_iff] at hp; exact hp.1
      rw [List.getElem?_append_left this]; exact hp
    · rw [(secWith_self ..).2, ← hlen']; simp; omega
    · intro t ht
      obtain ⟨a, b⟩ := secWith_other ht m (secOpc s m + 1)
        (secProps s m ++ [{ Property.new with code := c, data := d }])
      exact ⟨by rw [b], fun n => by rw [a, b]⟩
    · cases s <;> rfl

/-- non-vacuity: one present and one absent code -/
example (e : Endian) : Reachable e sampleSetGet ∧ Sec.set.byCode sampleSetGet 0x80 ≠ .ok none ∧
    Sec.set.byCode sampleSetGet 0x81 = .ok none ∧ Sec.set.count sampleSetGet < 255 :=
  ⟨sampleSetGet_reachable e, by decide, by decide, by decide⟩

end Uecho.Props
