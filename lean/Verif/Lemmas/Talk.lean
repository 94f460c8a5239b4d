import Verif.Spec.Talk
import Verif.Lemmas.PostCmd
import Verif.Lemmas.Light
namespace Uecho.Lemmas
open Uecho Uecho.Spec Uecho.PostCmd Uecho.Props

theorem loop_reachable (e : Endian) (l : Bool) : ∀ (k pos : Nat) (s : List Char) (v : Vars) (m m' : Message), Reachable e m →
    loop l k pos s v m = .ok m' → Reachable e m'
  | 0, _, _, _, m, m', hm, h => by simp only [loop, Res.ok.injEq] at h; exact h ▸ hm
  | k + 1, pos, s, v, m, m', hm, h => by
      unfold loop at h
      by_cases h1 : s.length < 4
      · rw [if_pos h1] at h; simp only [Res.ok.injEq] at h; exact h ▸ hm
      rw [if_neg h1, Res.bind_eq_ok] at h
      obtain ⟨v1, _, h⟩ := h
      by_cases h2 : v1.pdc = 0#32
      · rw [if_pos h2, Res.bind_eq_ok] at h
        obtain ⟨m1, g, h⟩ := h
        exact loop_reachable e l k _ _ _ m1 m' (.setProperty hm _ _ g) h
      rw [if_neg h2] at h
      by_cases h3 : v1.pdc.toInt * 2 < - 2 ^ 31 ∨ 2 ^ 31 ≤ v1.pdc.toInt * 2
      · rw [if_pos h3] at h; cases h
      rw [if_neg h3] at h
      simp only at h
      split at h
      · simp only [Res.ok.injEq] at h; exact h ▸ hm
      split at h
      · rw [Res.bind_eq_ok] at h
        obtain ⟨m1, g, h⟩ := h
        exact loop_reachable e l k _ _ _ m1 m' (.setProperty hm _ _ g) h
      · simp only [Res.bind_eq_ok] at h
        obtain ⟨⟨d, b⟩, _, m1, g, h⟩ := h
        exact loop_reachable e l k _ _ _ m1 m' (.setProperty hm _ _ g) h

theorem request_reachable (e : Endian) {l : Bool} {v : Vars} {c0 e0 : CInt} {n : Node} {o s p : List Char} {m : Message}
    (h : request l v c0 e0 n o s p = .ok m) : Reachable e m := by
  unfold request at h
  simp only [Res.bind_eq_ok] at h
  obtain ⟨_, _, _, _, m1, g, h⟩ := h
  exact loop_reachable e l _ _ _ _ m1 m (.setDst (.setEsv .new _) _ g) h

theorem printDigits_code (a b c : Byte) :
    printDigits 6 (a.toNat * 65536 + b.toNat * 256 + c.toNat) = printByte a.toNat ++ printByte b.toNat ++ printByte c.toNat := by
  have ha := a.isLt
  have hb := b.isLt
  have hc := c.isLt
  unfold printByte
  simp only [printDigits, List.map_cons, List.map_nil, List.nil_append, List.cons_append, List.cons.injEq, and_true]
  refine ⟨?_, ?_, ?_, ?_, ?_, ?_⟩ <;> congr 2 <;> omega

theorem printProp_spells {c : Byte} {d : List Byte} (hl : d.length ≤ 255) :
    Spells (typed [(c, d)]) (printByte c.toNat ++ printNat d.length ++ d.flatMap (fun x => printByte x.toNat)) := by
  rw [List.append_assoc]
  have hn : printNat d.length = printByte (BitVec.ofNat 8 d.length).toNat := by
    unfold printNat
    rw [if_pos (by omega), BitVec.toNat_ofNat, Nat.mod_eq_of_lt (by omega)]
  rw [hn]
  have : typed [(c, d)] = [c] ++ ([BitVec.ofNat 8 d.length] ++ d) := by simp [typed]
  rw [this]
  exact spells_append (printByte_spells _) (spells_append (printByte_spells _) (printData_spells _))

theorem tidNat_inj (e : Endian) {s t : Byte × Byte} (h : tidNat e s = tidNat e t) : s = t := by
  obtain ⟨a, b⟩ := s
  obtain ⟨c, d⟩ := t
  have ha := a.isLt
  have hb := b.isLt
  have hc := c.isLt
  have hd := d.isLt
  have : a.toNat = c.toNat ∧ b.toNat = d.toNat := by cases e <;> simp only [tidNat] at h <;> omega
  rw [BitVec.eq_of_toNat_eq this.1, BitVec.eq_of_toNat_eq this.2]

theorem lightRun_append (e : Endian) : ∀ (es fs : List LightEvent) {n n1 : Node}, lightRun e n es = .ok n1 →
    lightRun e n (es ++ fs) = lightRun e n1 fs
  | [], fs, n, n1, h => by simp only [lightRun, Res.ok.injEq] at h; rw [← h]; rfl
  | .datagram g :: es, fs, n, n1, h => by
      simp only [lightRun, Res.bind_eq_ok] at h
      obtain ⟨⟨n2, eff⟩, h1, h2⟩ := h
      simp only [List.cons_append, lightRun, h1, Res.bind_ok]
      exact lightRun_append e es fs h2
  | .restart b :: es, fs, n, n1, h => by
      simp only [lightRun, Res.bind_eq_ok] at h
      obtain ⟨⟨n2, eff⟩, h1, h2⟩ := h
      simp only [List.cons_append, lightRun, h1, Res.bind_ok]
      exact lightRun_append e es fs h2

theorem lightRun_holds {e : Endian} {x : Byte × Byte × Byte} {hs : List Observer} {k : Byte} {d : List Byte} :
    ∀ (es : List LightEvent) (n n' : Node), HandlersSet n → lightRun e n es = .ok n' →
      (∀ g, LightEvent.datagram g ∈ es → ¬ Overwrites x k g) → Uecho.Spec.Holds n x hs k d → Uecho.Spec.Holds n' x hs k d ∧ HandlersSet n'
  | [], n, n', hn, h, _, hh => by
      simp only [lightRun, Res.ok.injEq] at h; exact h ▸ ⟨hh, hn⟩
  | .datagram g :: es, n, n', hn, h, hg, hh => by
      simp only [lightRun, Res.bind_eq_ok] at h
      obtain ⟨⟨n1, eff⟩, h1, h2⟩ := h
      have hone : receiveAll e n [g] = .ok n1 := by simp only [receiveAll, h1, Res.bind_ok]
      obtain ⟨g1, g2⟩ := receiveAll_holds [g] n n1 hn hone (by intro y hy; simp only [List.mem_singleton] at hy; subst hy; exact hg y (by simp)) hh
      exact lightRun_holds es n1 n' g2 h2 (fun y hy => hg y (List.mem_cons_of_mem _ hy)) g1
  | .restart b :: es, n, n', hn, h, hg, hh => by
      simp only [lightRun, Res.bind_eq_ok] at h
      obtain ⟨⟨n1, eff⟩, h1, h2⟩ := h
      have ho := start_objs h1
      refine lightRun_holds es n1 n' (by unfold HandlersSet; rw [ho]; exact hn) h2 (fun y hy => hg y (List.mem_cons_of_mem _ hy)) ?_
      unfold Uecho.Spec.Holds destObj at hh ⊢
      rw [ho]; exact hh

/-- reading one property that nobody refuses -/
theorem read_one {e : Endian} {n : Node} {x : Byte × Byte × Byte} {k : Byte} {d : List Byte} (hn : HandlersSet n)
    (hold : Uecho.Spec.Holds n x [] k d) (t : Byte × Byte) (src : Byte × Byte × Byte) (loc : Option String) (a : String) :
    ∃ eff, n.receive e loc (some a) (encode ⟨t, src, x, 0x62#8, .plain [(k, [])]⟩) = .ok (n, eff) ∧
      sentTo a eff = [sends (some a) ⟨t, x, src, 0x72#8, .plain [(k, d)]⟩] := by
  obtain ⟨o, p, ho, hnode, hobs, hp, hdat⟩ := hold
  have hacc : ∀ q, accepts [] 0x62#8 k q [] = true := fun _ => rfl
  obtain ⟨f, hfe⟩ : ∃ f : Frame, f = ⟨t, src, x, 0x62#8, .plain [(k, [])]⟩ := ⟨_, rfl⟩
  have hesv : f.esv = 0x62#8 := by rw [hfe]
  have hbody : f.body = .plain [(k, [])] := by rw [hfe]
  have hto : destObj n f.deoj = some o := by rw [hfe]; exact ho
  have hf : f.WF := by
    unfold Frame.WF
    rw [hbody]
    exact ⟨by rw [hesv]; decide, by simp, by simp⟩
  have hreq : IsRequestEsv f.esv := by rw [hesv]; decide
  have hone : AtMostOneEach f := by unfold AtMostOneEach; rw [hbody]; simp
  have hall : AllGranted o f := by
    unfold AllGranted
    rw [hbody]
    simp only
    rw [if_neg (by rw [hesv]; decide)]
    intro y hy
    simp only [List.mem_singleton] at hy; subst hy
    simp only [granted, hp, hobs, hesv, hacc]
  obtain ⟨n', eff, hrec⟩ := C66_receive_safe_partial e n loc a (encode f) hn
  have hsame : n' = n := by
    have h' := hrec
    rw [← List.append_nil (encode _)] at h'
    exact C34_other_services_change_nothing e n n' loc a _ [] eff hf hn (by rw [hesv]; decide) h'
  subst hsame
  have hsent := granted_answer hf hn hto hnode hreq hone hall (v := 0x72#8) (by rw [hesv]; rfl) (by decide) hrec
  have hr : respFrame o f 0x72#8 = ⟨t, x, src, 0x72#8, .plain [(k, d)]⟩ := by
    unfold respFrame outBody
    rw [hbody]
    simp only
    rw [runRes_read (by rw [hesv]; decide)]
    simp only [readSection, List.map_cons, List.map_nil, hp, hobs, hesv, hacc, if_true, hdat]
    rw [hfe]
  rw [hr] at hsent
  rw [hfe] at hrec
  exact ⟨eff, hrec, hsent⟩

/-- writing one property that nobody refuses -/
theorem write_one {e : Endian} {n : Node} {x : Byte × Byte × Byte} {k : Byte} {d old : List Byte} (hn : HandlersSet n) (hd : d.length ≤ 255)
    (hold : Uecho.Spec.Holds n x [] k old) (t : Byte × Byte) (src : Byte × Byte × Byte) (loc : Option String) (a : String) :
    ∃ n' eff, n.receive e loc (some a) (encode ⟨t, src, x, 0x61#8, .plain [(k, d)]⟩) = .ok (n', eff) ∧
      Uecho.Spec.Holds n' x [] k d ∧ HandlersSet n' := by
  obtain ⟨o, p, ho, hnode, hobs, hp, hdat⟩ := hold
  have hacc : ∀ q, accepts [] 0x61#8 k q d = true := fun _ => rfl
  obtain ⟨f, hfe⟩ : ∃ f : Frame, f = ⟨t, src, x, 0x61#8, .plain [(k, d)]⟩ := ⟨_, rfl⟩
  have hesv : f.esv = 0x61#8 := by rw [hfe]
  have hbody : f.body = .plain [(k, d)] := by rw [hfe]
  have hx : f.deoj = x := by rw [hfe]
  have hf : f.WF := by
    unfold Frame.WF
    rw [hbody]
    exact ⟨by rw [hesv]; decide, by simp, by intro y hy; simp only [List.mem_singleton] at hy; subst hy; exact hd⟩
  obtain ⟨n', eff, hrec⟩ := C66_receive_safe_partial e n loc a (encode f) hn
  have hrec' := hrec
  rw [← List.append_nil (encode _)] at hrec'
  obtain ⟨i, o', hi, hmin, hn', hod, hget⟩ := C34_write_effect e n n' loc a _ [(k, d)] [] eff o hf hn (.inr hesv) hbody (by rw [hx]; exact ho) hrec'
  have hw : objEoj o = x := by
    have := List.find?_some ho; simpa using this
  have hw' : objEoj o' = x := by
    rw [← hw]; unfold objEoj; rw [hod.1]
  rw [hx] at hmin
  have hfind := Uecho.Props.find_set (x := x) hi hmin hw hw'
  rw [if_pos rfl] at hfind
  have hset := receive_handlers (g := ⟨loc, a, encode f⟩) hn hrec
  rw [hfe] at hrec
  refine ⟨n', eff, hrec, ⟨o', { p with data := d }, by unfold destObj; rw [hn']; exact hfind, by rw [hod.1]; exact hnode,
    by rw [hod.1]; exact hobs, ?_, rfl⟩, hset⟩
  rw [hget, hobs, hesv]
  simp only [writeSection, granted, hp, hacc, if_true]
  simp [PMap.store, hp]

theorem powerAfter_append {b c d : Byte} {es fs : List LightEvent} (h1 : PowerAfter b es c) (h2 : PowerAfter c fs d) :
    PowerAfter b (es ++ fs) d := by
  induction h1 with
  | done => exact h2
  | restart _ ih => exact .restart (ih h2)
  | written w _ ih => exact .written w (ih h2)
  | other w _ ih => exact .other w (ih h2)

/-- the text of a property -/
def propText (q : Prop8) : List Char := printByte q.1.toNat ++ printNat q.2.length ++ q.2.flatMap (fun x => printByte x.toNat)

/-- the text of a line -/
def lineText (a : String) (src : Byte × Byte × Byte) (esv : Byte) (ps : List Prop8) : List Char :=
  a.toList ++ [' '] ++ (printByte src.1.toNat ++ printByte src.2.1.toNat ++ printByte src.2.2.toNat) ++ [' '] ++ printByte esv.toNat ++ [' '] ++
    (ps.map propText).flatMap (· ++ [' ']) ++ ['\n']

theorem spellsEach_print : ∀ ps : List Prop8, (∀ p ∈ ps, p.2.length ≤ 255) → SpellsEach ps (ps.map propText)
  | [], _ => .nil
  | (c, d) :: ps, h => .cons (printProp_spells (h (c, d) (by simp))) (spellsEach_print ps fun q hq => h q (by simp [hq]))

theorem lineText_line (a : String) (src : Byte × Byte × Byte) (esv : Byte) {ps : List Prop8} (h : ∀ p ∈ ps, p.2.length ≤ 255) :
    Line a src esv ps (lineText a src esv ps) :=
  ⟨_, _, _, spells_append (spells_append (printByte_spells _) (printByte_spells _)) (printByte_spells _), printByte_spells _,
    spellsEach_print ps h, rfl⟩

/-- the line that is printed -/
theorem printResponse_line {e : Endian} {m : Message} (hm : Reachable e m) {a : String} (ha : m.fromAddr = some a) :
    printResponse m = .ok (lineText a m.seoj m.esv (view m.ep)) := by
  have hi := (reachable_inv hm).toMsgWF
  obtain ⟨⟨x, y, z⟩, hx⟩ : ∃ q, q = m.seoj := ⟨_, rfl⟩
  have hlt := x.isLt
  have hlt2 := y.isLt
  have hlt3 := z.isLt
  unfold printResponse printProps Message.getSourceObjectCode Message.codeOfEoj
  rw [slots_eq hi.ep, ← hx]
  simp only [byte2integer_three, Res.bind_ok, Res.pure_eq, ha]
  rw [BitVec.toNat_ofNat, Nat.mod_eq_of_lt (by omega), printDigits_code]
  simp [lineText, view, propText, List.flatMap_map]

end Uecho.Lemmas
