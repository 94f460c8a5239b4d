import Verif.Lemmas.Parse
import Verif.Spec.MessageApi
/-! Lemmas: serialisation fills the buffer with the encoding of the frame. -/
set_option linter.unusedSimpArgs false
namespace Uecho.Lemmas
open Uecho Uecho.Spec

/-- `pre` written, `k` cells still indeterminate. -/
def part (pre : List Byte) (k : Nat) : List (Option Byte) :=
  pre.map some ++ List.replicate k none

theorem wr_part (pre : List Byte) (k : Nat) (b : Byte) (off : Nat) (h : off = pre.length) :
    wr (part pre (k + 1)) off (some b) = .ok (part (pre ++ [b]) k) := by
  subst h
  unfold wr part
  rw [if_pos (by simp)]
  simp [List.set_append_right, List.replicate_succ]

theorem wrN_part (pre d : List Byte) (k : Nat) (off : Nat) (h : off = pre.length) :
    wrN (part pre (d.length + k)) off (d.map some) = .ok (part (pre ++ d) k) := by
  subst h
  unfold wrN part
  rw [if_pos (by simp)]
  simp [List.take_append, List.drop_append, List.drop_eq_nil_of_le]

/-- bytes of the properties of a section, without the count -/
def encProps (ps : List Property) : List Byte := (view ps).flatMap encodeProp

theorem encProps_cons (p : Property) (ps : List Property) :
    encProps (p :: ps) = p.code :: BitVec.ofNat 8 p.data.length :: (p.data ++ encProps ps) := by
  simp [encProps, view, encodeProp]

theorem opcSize_eq {o : Byte} {l : List Property} (h : l.length = o.toNat) :
    Message.opcSize o l = .ok (encProps l).length := by
  unfold Message.opcSize
  rw [slots_eq h]
  simp only [Res.bind_ok, Res.pure_eq, Res.ok.injEq]
  have : ∀ (l : List Property) (a : Nat),
      l.foldl (fun n p => n + 2 + p.data.length) a = a + (encProps l).length := by
    intro l
    induction l with
    | nil => intro a; simp [encProps, view]
    | cons p ps ih => intro a; simp only [List.foldl_cons, ih, encProps_cons, List.length_cons,
        List.length_append]; omega
  simp [this l 0]

theorem setOpcBytes_eq : ∀ (ps : List Property) (pre : List Byte) (k off : Nat), off = pre.length →
    Message.setOpcBytes ps (part pre ((encProps ps).length + k)) off =
      .ok (part (pre ++ encProps ps) k, off + (encProps ps).length)
  | [], pre, k, off, h => by simp [Message.setOpcBytes, encProps, view]
  | p :: ps, pre, k, off, h => by
      unfold Message.setOpcBytes
      rw [encProps_cons]
      simp only [List.length_cons, List.length_append]
      rw [show p.data.length + (encProps ps).length + 1 + 1 + k =
        (p.data.length + ((encProps ps).length + k) + 1) + 1 by omega]
      rw [wr_part _ _ _ _ h]
      simp only [Res.bind_ok]
      rw [wr_part _ _ _ _ (by simp [h])]
      simp only [Res.bind_ok]
      by_cases hd : p.data.length ≤ 0
      · have : p.data = [] := List.eq_nil_of_length_eq_zero (by omega)
        simp only [hd, if_true]
        rw [this]
        simp only [List.length_nil, Nat.zero_add]
        rw [setOpcBytes_eq ps _ k _ (by simp [h])]
        simp; omega
      · simp only [hd, if_false]
        rw [wrN_part _ _ _ _ (by simp [h])]
        simp only [Res.bind_ok]
        rw [setOpcBytes_eq ps _ k _ (by simp [h]; omega)]
        simp; omega

theorem setOpcBytes_eq0 (ps : List Property) (pre : List Byte) (off : Nat) (h : off = pre.length) :
    Message.setOpcBytes ps (part pre (encProps ps).length) off =
      .ok (part (pre ++ encProps ps) 0, off + (encProps ps).length) :=
  setOpcBytes_eq ps pre 0 off h

/-- Encoding of a message object with its own header bytes. -/
def encMsg (m : Message) : List Byte :=
  [m.ehd1, m.ehd2, m.tid0, m.tid1, m.seoj.1, m.seoj.2.1, m.seoj.2.2,
   m.deoj.1, m.deoj.2.1, m.deoj.2.2, m.esv] ++
  if IsSetGet m.esv then
    (m.opcSet :: encProps m.epSet) ++ (m.opcGet :: encProps m.epGet)
  else m.opc :: encProps m.ep

theorem isReadWrite_true {m : Message} (h : IsSetGet m.esv) : m.isReadWrite = true :=
  (isReadWrite_iff _).2 h
theorem isReadWrite_false {m : Message} (h : ¬ IsSetGet m.esv) : m.isReadWrite = false := by
  have := fun h' => h ((isReadWrite_iff m.esv).1 h')
  simpa [Message.isReadWrite] using this

theorem size_eq {m : Message} (h : MsgWF m) : m.size = .ok (encMsg m).length := by
  unfold Message.size encMsg
  by_cases hv : IsSetGet m.esv
  · rw [isReadWrite_true hv, opcSize_eq h.epSet, opcSize_eq h.epGet]
    simp [hv]; omega
  · rw [isReadWrite_false hv, opcSize_eq h.ep]
    simp [hv]; omega

theorem getBytes_eq {m : Message} (h : MsgWF m) : m.getBytes = .ok ((encMsg m).map some) := by
  unfold Message.getBytes
  rw [size_eq h]
  simp only [Res.bind_ok]
  have hstart : List.replicate (encMsg m).length (none : Option Byte) =
      part [] ((encMsg m).length) := by simp [part]
  rw [hstart]
  have hend : ∀ l : List Byte, part l 0 = l.map some := by intro l; simp [part]
  by_cases hv : IsSetGet m.esv
  · have hl : (encMsg m).length = (encProps m.epSet).length + ((encProps m.epGet).length + 0 + 1)
        + 1 + 1 + 1 + 1 + 1 + 1 + 1 + 1 + 1 + 1 + 1 + 1 := by
      simp [encMsg, hv]
    rw [hl]
    simp only [isReadWrite_true hv, slots_eq h.epSet, slots_eq h.epGet, if_true]
    repeat rw [wr_part _ _ _ _ (by simp), Res.bind_ok]
    rw [Res.bind_ok, setOpcBytes_eq _ _ _ _ (by simp)]
    simp only [Res.bind_ok]
    rw [wr_part _ _ _ _ (by simp; omega)]
    simp only [Res.bind_ok]
    rw [setOpcBytes_eq0 _ _ _ (by simp; omega)]
    simp only [Res.bind_ok, Res.pure_eq, hend]
    simp [encMsg, hv]
  · have hl : (encMsg m).length = ((encProps m.ep).length + 0)
        + 1 + 1 + 1 + 1 + 1 + 1 + 1 + 1 + 1 + 1 + 1 + 1 := by
      simp [encMsg, hv]
    rw [hl]
    simp only [isReadWrite_false hv, slots_eq h.ep, Bool.false_eq_true, if_false]
    repeat rw [wr_part _ _ _ _ (by simp), Res.bind_ok]
    rw [Res.bind_ok, setOpcBytes_eq0 _ _ _ (by simp)]
    simp only [Res.bind_ok, Res.pure_eq, hend]
    simp [encMsg, hv]

theorem ofNat_len {o : Byte} {l : List Property} (h : l.length = o.toNat) :
    BitVec.ofNat 8 (view l).length = o := by simp [view, h]

theorem encMsg_eq_encode {m : Message} (h : MsgWF m) (h1 : m.ehd1 = 0x10) (h2 : m.ehd2 = 0x81) :
    encMsg m = encode (toFrame m) := by
  unfold encMsg encode toFrame encProps
  by_cases hv : IsSetGet m.esv
  · simp [hv, encodeBody, encodeSection, h1, h2, ofNat_len h.epSet, ofNat_len h.epGet]
  · simp [hv, encodeBody, encodeSection, h1, h2, ofNat_len h.ep]

/-! ## Reachable messages satisfy the invariant -/

theorem propAdd_ok {o : Byte} {l : List Property} {p o' l'} (h : Message.propAdd o l p = .ok (o', l')) :
    l.length = o.toNat ∧ o.toNat ≠ 255 ∧ o' = o + 1 ∧ l' = l ++ [p] ∧ l'.length = o'.toNat := by
  unfold Message.propAdd at h
  simp only at h
  split at h
  · simp at h
  · rename_i hne
    split at h
    · rename_i hl
      simp at h; obtain ⟨rfl, rfl⟩ := h
      have h255 : o.toNat ≠ 255 := by
        intro hh; apply hne; apply BitVec.eq_of_toNat_eq; simp [hh]
      refine ⟨hl, h255, rfl, rfl, ?_⟩
      have := o.isLt
      simp [hl]; omega
    · simp at h

theorem propAdd_eq {o : Byte} {l : List Property} (p : Property) (h : l.length = o.toNat)
    (h' : l.length < 255) : Message.propAdd o l p = .ok (o + 1, l ++ [p]) := by
  unfold Message.propAdd
  have : ¬ (o + 1 = 0) := by
    intro hh
    have h1 := congrArg BitVec.toNat hh
    have h2 := o.isLt
    rw [BitVec.toNat_add] at h1
    simp at h1; omega
  simp only [this, if_false, h, if_true]

theorem modifyFirst_length (c : Byte) (f : Property → Property) (l : List Property) :
    (Message.modifyFirst c f l).length = l.length := by
  induction l with
  | nil => rfl
  | cons p ps ih => simp only [Message.modifyFirst]; split <;> simp [ih]

theorem propSet_ok {o : Byte} {l : List Property} {c d o' l'} (hl : l.length = o.toNat)
    (h : Message.propSet o l c d = .ok (o', l')) : l'.length = o'.toNat := by
  unfold Message.propSet Message.propGetByCode at h
  rw [slots_eq hl] at h
  simp only [Res.bind_ok, Res.pure_eq] at h
  cases hf : l.find? (fun p => p.code == c) with
  | some q => rw [hf] at h; simp at h; obtain ⟨rfl, rfl⟩ := h; simp [modifyFirst_length, hl]
  | none =>
    rw [hf] at h
    simp only [Res.bind_eq_ok] at h
    obtain ⟨⟨o2, l2⟩, h1, h2⟩ := h
    simp at h2; obtain ⟨rfl, rfl⟩ := h2
    obtain ⟨_, _, rfl, rfl, hh⟩ := propAdd_ok h1
    simpa using hh

/-- The invariant of message objects. -/
structure Inv (m : Message) : Prop extends MsgWF m where
  ehd1 : m.ehd1 = 0x10
  ehd2 : m.ehd2 = 0x81

theorem inv_new : Inv Message.new := ⟨⟨rfl, rfl, rfl⟩, rfl, rfl⟩

theorem inv_parsed {m : Message} {f : Frame} (h : Inv m) (hf : f.WF) : Inv (parsed m f) := by
  have key : ∀ n, n ≤ 255 → n = (BitVec.ofNat 8 n).toNat := by
    intro n hn; simp; omega
  obtain ⟨_, _, _, _, b⟩ := f
  cases b with
  | plain ps =>
    exact ⟨⟨by simpa [parsed] using key _ hf.2.1, rfl, rfl⟩, h.ehd1, h.ehd2⟩
  | setGet s g =>
    exact ⟨⟨rfl, by simpa [parsed] using key _ hf.2.1.1, by simpa [parsed] using key _ hf.2.2.1⟩,
      h.ehd1, h.ehd2⟩

theorem inv_parse {m m' : Message} {data len r} (h : Inv m) (hl : len ≤ data.length)
    (he : m.parse data len = .ok (r, m')) : Inv m' := by
  have hs := parse_spec h.toMsgWF data len hl
  cases hd : decode (data.take len) with
  | some x =>
    obtain ⟨f, rest⟩ := x
    rw [hd] at hs; simp only at hs
    rw [he] at hs; simp at hs; obtain ⟨rfl, rfl⟩ := hs
    exact inv_parsed h (decode_sound hd).2
  | none =>
    rw [hd] at hs; simp only at hs
    obtain ⟨m2, h1, h2, h3, h4⟩ := hs
    rw [he] at h1; simp at h1; obtain ⟨rfl, rfl⟩ := h1
    exact ⟨h2, h3 ▸ h.ehd1, h4 ▸ h.ehd2⟩

theorem inv_addProperty {m m' : Message} {p} (h : Inv m) (he : m.addProperty p = .ok m') : Inv m' := by
  unfold Message.addProperty at he
  rw [Res.bind_eq_ok] at he
  obtain ⟨⟨o, l⟩, h1, h2⟩ := he
  simp at h2; subst h2
  exact ⟨⟨(propAdd_ok h1).2.2.2.2, h.epSet, h.epGet⟩, h.ehd1, h.ehd2⟩

theorem inv_copyProps {src : Message} : ∀ ns {dst m'}, Inv dst →
    Message.copyProps src ns dst = .ok m' → Inv m'
  | [], dst, m', h, he => by simp [Message.copyProps] at he; exact he ▸ h
  | n :: ns, dst, m', h, he => by
      simp only [Message.copyProps, Res.bind_eq_ok] at he
      obtain ⟨o, ho, he⟩ := he
      cases o with
      | none => exact inv_copyProps ns h he
      | some p =>
        simp only [Res.bind_eq_ok] at he
        obtain ⟨d2, hd, he⟩ := he
        exact inv_copyProps ns (inv_addProperty h hd) he

theorem inv_clear {m m' : Message} (h : Inv m) (he : m.clear = .ok m') : Inv m' := by
  rw [clear_eq h.toMsgWF] at he
  simp at he; subst he
  exact ⟨⟨rfl, rfl, rfl⟩, h.ehd1, h.ehd2⟩

theorem reachable_inv {e : Endian} {m : Message} (h : Reachable e m) : Inv m := by
  induction h with
  | new => exact inv_new
  | setTid _ v ih => exact ⟨⟨ih.ep, ih.epSet, ih.epGet⟩, ih.ehd1, ih.ehd2⟩
  | setSrc _ c he ih =>
    unfold Message.setSourceObjectCode at he
    rw [Res.bind_eq_ok] at he
    obtain ⟨_, _, h2⟩ := he
    simp at h2; subst h2
    exact ⟨⟨ih.ep, ih.epSet, ih.epGet⟩, ih.ehd1, ih.ehd2⟩
  | setDst _ c he ih =>
    unfold Message.setDestinationObjectCode at he
    rw [Res.bind_eq_ok] at he
    obtain ⟨_, _, h2⟩ := he
    simp at h2; subst h2
    exact ⟨⟨ih.ep, ih.epSet, ih.epGet⟩, ih.ehd1, ih.ehd2⟩
  | setEsv _ v ih => exact ⟨⟨ih.ep, ih.epSet, ih.epGet⟩, ih.ehd1, ih.ehd2⟩
  | setSrcAddr _ a ih =>
    cases a <;> exact ⟨⟨ih.ep, ih.epSet, ih.epGet⟩, ih.ehd1, ih.ehd2⟩
  | setDstAddr _ a ih =>
    cases a <;> exact ⟨⟨ih.ep, ih.epSet, ih.epGet⟩, ih.ehd1, ih.ehd2⟩
  | addProperty _ p he ih => exact inv_addProperty ih he
  | addPropertySet _ p he ih =>
    unfold Message.addPropertySet at he
    rw [Res.bind_eq_ok] at he
    obtain ⟨⟨o, l⟩, h1, h2⟩ := he
    simp at h2; subst h2
    exact ⟨⟨ih.ep, (propAdd_ok h1).2.2.2.2, ih.epGet⟩, ih.ehd1, ih.ehd2⟩
  | addPropertyGet _ p he ih =>
    unfold Message.addPropertyGet at he
    rw [Res.bind_eq_ok] at he
    obtain ⟨⟨o, l⟩, h1, h2⟩ := he
    simp at h2; subst h2
    exact ⟨⟨ih.ep, ih.epSet, (propAdd_ok h1).2.2.2.2⟩, ih.ehd1, ih.ehd2⟩
  | setProperty _ c d he ih =>
    unfold Message.setProperty at he
    rw [Res.bind_eq_ok] at he
    obtain ⟨⟨o, l⟩, h1, h2⟩ := he
    simp at h2; subst h2
    exact ⟨⟨propSet_ok ih.ep h1, ih.epSet, ih.epGet⟩, ih.ehd1, ih.ehd2⟩
  | setPropertySet _ c d he ih =>
    unfold Message.setPropertySet at he
    rw [Res.bind_eq_ok] at he
    obtain ⟨⟨o, l⟩, h1, h2⟩ := he
    simp at h2; subst h2
    exact ⟨⟨ih.ep, propSet_ok ih.epSet h1, ih.epGet⟩, ih.ehd1, ih.ehd2⟩
  | setPropertyGet _ c d he ih =>
    unfold Message.setPropertyGet at he
    rw [Res.bind_eq_ok] at he
    obtain ⟨⟨o, l⟩, h1, h2⟩ := he
    simp at h2; subst h2
    exact ⟨⟨ih.ep, ih.epSet, propSet_ok ih.epGet h1⟩, ih.ehd1, ih.ehd2⟩
  | editProp _ n p ih => exact ⟨⟨by simp [ih.ep], ih.epSet, ih.epGet⟩, ih.ehd1, ih.ehd2⟩
  | editPropSet _ n p ih => exact ⟨⟨ih.ep, by simp [ih.epSet], ih.epGet⟩, ih.ehd1, ih.ehd2⟩
  | editPropGet _ n p ih => exact ⟨⟨ih.ep, ih.epSet, by simp [ih.epGet]⟩, ih.ehd1, ih.ehd2⟩
  | clear _ he ih => exact inv_clear ih he
  | clearProperties _ he ih =>
    unfold Message.clearProperties at he
    rw [slots_eq ih.ep, slots_eq ih.epSet, slots_eq ih.epGet] at he
    simp at he; subst he
    exact ⟨⟨rfl, rfl, rfl⟩, ih.ehd1, ih.ehd2⟩
  | parse _ data len r hl he ih => exact inv_parse ih hl he
  | parsePacket _ data l a r he ih =>
    unfold Message.parsePacket at he
    rw [Res.bind_eq_ok] at he
    obtain ⟨⟨ok, m2⟩, h1, h2⟩ := he
    have i2 := inv_parse ih (Nat.le_refl _) h1
    cases ok with
    | false => simp at h2; exact h2.2 ▸ i2
    | true =>
      simp at h2; rw [← h2.2]
      cases l <;> cases a <;> exact ⟨⟨i2.ep, i2.epSet, i2.epGet⟩, i2.ehd1, i2.ehd2⟩
  | set _ _ he ih ihs =>
    rename_i hs
    unfold Message.setFrom at he
    simp only [Res.bind_eq_ok] at he
    obtain ⟨d1, h1, sc, h2, d2, h3, dc, h4, d3, h5, h6⟩ := he
    refine inv_copyProps _ ?_ h6
    have i1 := inv_clear ih h1
    have i2 : Inv d2 := by
      unfold Message.setSourceObjectCode at h3
      rw [Res.bind_eq_ok] at h3
      obtain ⟨_, _, h⟩ := h3
      simp at h; subst h
      exact ⟨⟨i1.ep, i1.epSet, i1.epGet⟩, ihs.ehd1, ihs.ehd2⟩
    have i3 : Inv d3 := by
      unfold Message.setDestinationObjectCode at h5
      rw [Res.bind_eq_ok] at h5
      obtain ⟨_, _, h⟩ := h5
      simp at h; subst h
      exact ⟨⟨i2.ep, i2.epSet, i2.epGet⟩, i2.ehd1, i2.ehd2⟩
    constructor
    · constructor
      all_goals
        unfold Message.setDestinationAddress Message.setSourceAddress
        split <;> split <;> first | exact i3.ep | exact i3.epSet | exact i3.epGet
    · unfold Message.setDestinationAddress Message.setSourceAddress
      split <;> split <;> exact i3.ehd1
    · unfold Message.setDestinationAddress Message.setSourceAddress
      split <;> split <;> exact i3.ehd2

end Uecho.Lemmas
