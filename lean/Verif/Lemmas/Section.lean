import Verif.Lemmas.Copy
import Verif.Spec.Section
/-! Lemmas about property sections. -/
set_option linter.unusedSimpArgs false
namespace Uecho.Lemmas
open Uecho Uecho.Spec

/-- slots of a section (helper) -/
def secProps : Sec → Message → List Property
  | .plain, m => m.ep
  | .set, m => m.epSet
  | .get, m => m.epGet

def secWith : Sec → Message → Byte → List Property → Message
  | .plain, m, o, l => { m with opc := o, ep := l }
  | .set, m, o, l => { m with opcSet := o, epSet := l }
  | .get, m, o, l => { m with opcGet := o, epGet := l }

def secOpc : Sec → Message → Byte
  | .plain, m => m.opc
  | .set, m => m.opcSet
  | .get, m => m.opcGet

theorem sec_len {m : Message} (h : MsgWF m) (s : Sec) : (secProps s m).length = (secOpc s m).toNat := by
  cases s
  · exact h.ep
  · exact h.epSet
  · exact h.epGet

theorem sec_count (s : Sec) (m : Message) : s.count m = (secOpc s m).toNat := by cases s <;> rfl

theorem sec_add (s : Sec) (m : Message) (p : Property) : s.add m p =
    (Message.propAdd (secOpc s m) (secProps s m) p >>= fun x => .ok (secWith s m x.1 x.2)) := by
  cases s <;> rfl

theorem sec_put (s : Sec) (m : Message) (c : Byte) (d : List Byte) : s.put m c d =
    (Message.propSet (secOpc s m) (secProps s m) c d >>= fun x => .ok (secWith s m x.1 x.2)) := by
  cases s <;> rfl

theorem sec_at (s : Sec) (m : Message) (n : Nat) : s.nth m n =
    Message.propGet (secOpc s m) (secProps s m) n := by cases s <;> rfl

theorem sec_byCode (s : Sec) (m : Message) (c : Byte) : s.byCode m c =
    Message.propGetByCode (secOpc s m) (secProps s m) c := by cases s <;> rfl

theorem secWith_self (s : Sec) (m o l) : secProps s (secWith s m o l) = l ∧
    secOpc s (secWith s m o l) = o := by cases s <;> exact ⟨rfl, rfl⟩

theorem secWith_other {s t : Sec} (h : t ≠ s) (m o l) : secProps t (secWith s m o l) = secProps t m ∧
    secOpc t (secWith s m o l) = secOpc t m := by
  cases s <;> cases t <;> first | exact ⟨rfl, rfl⟩ | exact absurd rfl h

theorem secWith_wf {m : Message} (h : MsgWF m) (s : Sec) (o l) (hl : l.length = o.toNat) :
    MsgWF (secWith s m o l) := by
  cases s
  · exact ⟨hl, h.epSet, h.epGet⟩
  · exact ⟨h.ep, hl, h.epGet⟩
  · exact ⟨h.ep, h.epSet, hl⟩

theorem propGet_eq {o : Byte} {l : List Property} (h : l.length = o.toNat) (n : Nat) :
    Message.propGet o l n = .ok l[n]? := by
  by_cases hn : n < l.length
  · rw [propGet_lt h hn]; simp [hn]
  · rw [propGet_ge h (by omega)]; simp; omega

theorem byCode_eq {o : Byte} {l : List Property} (h : l.length = o.toNat) (c : Byte) :
    Message.propGetByCode o l c = .ok (l.find? (fun p => p.code == c)) := by
  unfold Message.propGetByCode
  rw [slots_eq h]; rfl

theorem addAll_eq (s : Sec) : ∀ (ps : List Property) (m : Message), MsgWF m →
    (secProps s m).length + ps.length ≤ 255 →
    ∃ m', s.addAll m ps = .ok m' ∧ MsgWF m' ∧ secProps s m' = secProps s m ++ ps ∧
      ∀ t, t ≠ s → secProps t m' = secProps t m ∧ secOpc t m' = secOpc t m
  | [], m, h, _ => ⟨m, rfl, h, by simp, fun _ _ => ⟨rfl, rfl⟩⟩
  | p :: ps, m, h, hl => by
      simp only [List.length_cons] at hl
      have hlen := sec_len h s
      have hadd := propAdd_eq (o := secOpc s m) (l := secProps s m) p hlen (by omega)
      have hlen' := (propAdd_ok hadd).2.2.2.2
      obtain ⟨m', h1, h2, h3, h4⟩ := addAll_eq s ps
        (secWith s m (secOpc s m + 1) (secProps s m ++ [p]))
        (secWith_wf h s _ _ hlen') (by rw [(secWith_self ..).1]; simp; omega)
      refine ⟨m', ?_, h2, ?_, ?_⟩
      · simp only [Sec.addAll, sec_add, hadd, Res.bind_ok, h1]
      · rw [h3, (secWith_self ..).1]; simp
      · intro t ht
        obtain ⟨a, b⟩ := h4 t ht
        obtain ⟨c, d⟩ := secWith_other ht m (secOpc s m + 1) (secProps s m ++ [p])
        exact ⟨a.trans c, b.trans d⟩

theorem addAll_ub (s : Sec) : ∀ (ps : List Property) (m : Message), MsgWF m →
    255 < (secProps s m).length + ps.length → s.addAll m ps = .ub
  | [], m, h, hl => by
      have := sec_len h s
      have := (secOpc s m).isLt
      simp at hl; omega
  | p :: ps, m, h, hl => by
      simp only [List.length_cons] at hl
      have hlen := sec_len h s
      by_cases h255 : (secProps s m).length < 255
      · have hadd := propAdd_eq (o := secOpc s m) (l := secProps s m) p hlen h255
        have hlen' := (propAdd_ok hadd).2.2.2.2
        simp only [Sec.addAll, sec_add, hadd, Res.bind_ok]
        exact addAll_ub s ps _ (secWith_wf h s _ _ hlen') (by rw [(secWith_self ..).1]; simp; omega)
      · have : Message.propAdd (secOpc s m) (secProps s m) p = .ub := by
          unfold Message.propAdd
          have hlt := (secOpc s m).isLt
          have : secOpc s m + 1 = 0 := by
            apply BitVec.eq_of_toNat_eq
            rw [BitVec.toNat_add]; simp; omega
          simp only [this, if_true]
        simp only [Sec.addAll, sec_add, this, Res.bind_ub]

theorem find_modifyFirst_self {l : List Property} {c : Byte} {q : Property} (f : Property → Property)
    (hf : (f q).code = q.code)
    (h : l.find? (fun p => p.code == c) = some q) :
    (Message.modifyFirst c f l).find? (fun p => p.code == c) = some (f q) := by
  induction l with
  | nil => simp at h
  | cons p ps ih =>
    simp only [Message.modifyFirst]
    by_cases hp : p.code == c
    · simp only [List.find?_cons, hp] at h
      simp at h; subst h
      have : ((f p).code == c) = true := by rw [hf]; exact hp
      simp only [hp, if_true, List.find?_cons, this]
    · simp only [Bool.not_eq_true] at hp
      simp only [List.find?_cons, hp] at h
      simp only [hp, Bool.false_eq_true, if_false, List.find?_cons]
      exact ih h

theorem find_modifyFirst_other {l : List Property} {c c' : Byte} (f : Property → Property)
    (hf : ∀ q, (f q).code = q.code) (h : c' ≠ c) :
    (Message.modifyFirst c f l).find? (fun p => p.code == c') = l.find? (fun p => p.code == c') := by
  induction l with
  | nil => rfl
  | cons p ps ih =>
    simp only [Message.modifyFirst]
    by_cases hp : p.code == c
    · have h1 : ((f p).code == c') = false := by
        rw [hf]; simp at hp ⊢; intro hh; exact h (hh ▸ hp)
      have h2 : (p.code == c') = false := by
        simp at hp ⊢; intro hh; exact h (hh ▸ hp)
      simp only [hp, if_true, List.find?_cons, h1, h2]
    · simp only [hp, Bool.false_eq_true, if_false, List.find?_cons, ih]

theorem getElem_modifyFirst {l : List Property} {c : Byte} (f : Property → Property) (n : Nat)
    (p : Property) (h : l[n]? = some p) (hc : p.code ≠ c) :
    (Message.modifyFirst c f l)[n]? = some p := by
  induction l generalizing n with
  | nil => simp at h
  | cons q qs ih =>
    simp only [Message.modifyFirst]
    cases n with
    | zero =>
      simp at h; subst h
      have : (q.code == c) = false := by simpa using hc
      simp [this]
    | succ n =>
      simp only [List.getElem?_cons_succ] at h
      by_cases hq : q.code == c
      · simpa [hq] using h
      · simp only [hq, Bool.false_eq_true, if_false, List.getElem?_cons_succ]; exact ih n h

/-- `uecho_property_set` on a well-formed section. -/
theorem propSet_eq {o : Byte} {l : List Property} (hl : l.length = o.toNat) (c : Byte) (d : List Byte) :
    Message.propSet o l c d =
      match l.find? (fun p => p.code == c) with
      | some _ => .ok (o, Message.modifyFirst c (fun p => { p with data := d }) l)
      | none => if l.length < 255 then
          .ok (o + 1, l ++ [{ Property.new with code := c, data := d }]) else .ub := by
  unfold Message.propSet
  rw [byCode_eq hl]
  simp only [Res.bind_ok]
  cases hf : l.find? (fun p => p.code == c) with
  | some q => simp [setData_fst]
  | none =>
    simp only
    by_cases h : l.length < 255
    · rw [propAdd_eq _ hl h]
      simp [setData_fst, h, Property.setCode]
    · have : Message.propAdd o l (Property.new.setCode c) = .ub := by
        unfold Message.propAdd
        have hlt := o.isLt
        have : o + 1 = 0 := by
          apply BitVec.eq_of_toNat_eq
          rw [BitVec.toNat_add]; simp; omega
        simp only [this, if_true]
      simp [this, h]

end Uecho.Lemmas
