import Verif.Lemmas.SearchVals
import Verif.Spec.SearchLive
import Verif.Props.Remote
/-! # Lemmas about a device that answers the requests of `Model/SearchCmd.lean` -/
namespace Uecho.Lemmas
open Uecho Uecho.Spec Uecho.SearchCmd Uecho.Props

theorem getRequest_wf (t : Byte × Byte) (x : Byte × Byte × Byte) (k : Byte) : (getRequest t x k).WF :=
  ⟨by simp [getRequest, IsSetGet], by simp, by simp⟩

theorem get_answer {e : Endian} (t : Byte × Byte) {x : Byte × Byte × Byte} {k : Byte} {n : Node} {hs : List Observer} {d : List Byte}
    (hn : HandlersSet n) (hold : Holds n x hs k d) (hacc : ∀ p, accepts hs 0x62 k p [] = true) (loc : Option String) (b : String) :
    ∃ eff, n.receive e loc (some b) (encode (getRequest t x k)) = .ok (n, eff) ∧
      sentTo b eff = [sends (some b) ⟨t, x, profileEoj, 0x72, .plain [(k, d)]⟩] := by
  obtain ⟨o, p, ho, hnode, hobs, hp, hdat⟩ := hold
  have hf := getRequest_wf t x k
  have hall : AllGranted o (getRequest t x k) := by
    unfold AllGranted getRequest
    simp only
    rw [if_neg (by decide)]
    intro y hy
    simp only [List.mem_singleton] at hy; subst hy
    simp only [granted, hp, hobs, hacc]
  obtain ⟨n', eff, hrec⟩ := C66_receive_safe_partial e n loc b (encode (getRequest t x k)) hn
  have hsame : n' = n := by
    have h' := hrec
    rw [← List.append_nil (encode _)] at h'
    exact C34_other_services_change_nothing e n n' loc b _ [] eff hf hn (by simp only [getRequest]; decide) h'
  subst hsame
  have hsent := granted_answer hf hn ho hnode (by simp only [getRequest]; decide) (by unfold AtMostOneEach getRequest; simp) hall (v := 0x72) rfl
    (by decide) hrec
  have hr : respFrame o (getRequest t x k) 0x72 = ⟨t, x, profileEoj, 0x72, .plain [(k, d)]⟩ := by
    unfold respFrame outBody getRequest
    simp only
    rw [runRes_read (by decide)]
    simp only [readSection, List.map_cons, List.map_nil, hp, hobs, hacc, if_true, hdat]
  rw [hr] at hsent
  exact ⟨eff, hrec, hsent⟩

theorem sends_inj {a b : Option String} {f g : Frame} (hf : f.WF) (hg : g.WF) (h : sends a f = sends b g) : a = b ∧ f = g := by
  unfold sends at h
  simp only [Effect.send.injEq] at h
  refine ⟨h.1, ?_⟩
  have h2 : encode f = encode g := (List.map_inj_right (fun _ _ h => Option.some.inj h)).1 h.2
  have h3 := decode_complete (r := []) hf
  rw [h2, decode_complete hg] at h3
  cases h3
  rfl

theorem answers_one {t : Byte × Byte} {a : Arrival} {f g : Frame} (h : AnswersGet t a f) (k : AnswersGet t a g) : f = g := by
  obtain ⟨h1, ⟨r, h2⟩, _⟩ := h
  obtain ⟨k1, ⟨r', k2⟩, _⟩ := k
  have h3 := decode_complete (r := r) h1
  rw [← h2, k2, decode_complete k1] at h3
  cases h3
  rfl

theorem last_cut {α : Type} {p : α → Prop} {xs ys xs' ys' : List α} {a b : α} (h : xs ++ a :: ys = xs' ++ b :: ys') (ha : p a) (hb : p b)
    (hy : ∀ z ∈ ys, ¬ p z) (hy' : ∀ z ∈ ys', ¬ p z) : a = b := by
  rcases List.append_eq_append_iff.1 h with ⟨l, h1, h2⟩ | ⟨l, h1, h2⟩
  · cases l with
    | nil => simp only [List.nil_append, List.cons.injEq] at h2; exact h2.1
    | cons z l =>
      simp only [List.cons_append, List.cons.injEq] at h2
      exact absurd hb (hy b (by rw [h2.2]; simp))
  · cases l with
    | nil => simp only [List.nil_append, List.cons.injEq] at h2; exact h2.1.symm
    | cons z l =>
      simp only [List.cons_append, List.cons.injEq] at h2
      exact absurd ha (hy' a (by rw [h2.2]; simp))

theorem last_one {t : Byte × Byte} {as xs ys : List Arrival} {a : Arrival} {f : Frame} {r : Option Frame} (h : LastAnswer t as r)
    (ha : as = xs ++ a :: ys) (hf : AnswersGet t a f) (hy : ∀ b ∈ ys, ∀ g, ¬ AnswersGet t b g) : r = some f := by
  cases r with
  | none => exact absurd hf (h a (by rw [ha]; simp) f)
  | some g =>
    obtain ⟨xs', b, ys', h1, h2, h3⟩ := h
    have : b = a := last_cut (p := fun z => ∃ g, AnswersGet t z g) (h1.symm.trans ha) ⟨g, h2⟩ ⟨f, hf⟩ (fun z hz ⟨g, hg⟩ => h3 z hz g hg)
      (fun z hz ⟨g, hg⟩ => hy z hz g hg)
    subst this
    rw [answers_one h2 hf]

theorem _root_.Uecho.Spec.Pairs.get {α β : Type} {r : α → β → Prop} {xs : List α} {as : List β} (h : Pairs r xs as) {k : Nat} {x : α}
    (hx : xs[k]? = some x) : ∃ a, as[k]? = some a ∧ r x a := by
  induction h generalizing k with
  | nil => cases hx
  | cons h1 _ ih =>
    cases k with
    | zero => simp only [List.getElem?_cons_zero, Option.some.injEq] at hx; subst hx; exact ⟨_, rfl, h1⟩
    | succ k => simp only [List.getElem?_cons_succ] at hx ⊢; exact ih hx

/-- A line that says what the last answer says shows the value of the device whose answer is the last. -/
theorem shows_live {ms : List Std.Manufacture} {as : List Arrival} {a : Option String} {t : Byte × Byte} {x : Byte × Byte × Byte} {k : Byte}
    {ln : Line} {d : List Byte} {b : String} {eff : List Effect}
    (hv : ValueOf ms as (.node (sends a (getRequest t x k))) ln) (hd : d.length ≤ 255)
    (hsent : sentTo b eff = [sends (some b) ⟨t, x, profileEoj, 0x72, .plain [(k, d)]⟩]) {xs ys : List Arrival} {z : Arrival}
    (hz : as = xs ++ z :: ys) (he : Effect.send (some b) (z.data.map some) ∈ eff) (hy : ∀ y ∈ ys, ∀ g, ¬ AnswersGet t y g) :
    ShowsValue ms d ln := by
  obtain ⟨t', r, h1, ⟨a', x', k', h2⟩, h3⟩ := hv
  have hfr := (sends_inj (getRequest_wf t x k) (getRequest_wf t' x' k') (CEvent.node.inj h2)).2
  unfold getRequest at hfr
  have ht : t = t' := congrArg Frame.tid hfr
  subst ht
  have hm : Effect.send (some b) (z.data.map some) ∈ sentTo b eff := by
    unfold sentTo
    exact List.mem_filter.2 ⟨he, by simp⟩
  rw [hsent] at hm
  simp only [List.mem_singleton, sends, Effect.send.injEq, true_and] at hm
  have hdat : z.data = encode ⟨t, x, profileEoj, 0x72, .plain [(k, d)]⟩ := (List.map_inj_right (fun _ _ h => Option.some.inj h)).1 hm
  have hans : AnswersGet t z ⟨t, x, profileEoj, 0x72, .plain [(k, d)]⟩ :=
    ⟨⟨by simp [IsSetGet], by simp, by intro y hy; simp only [List.mem_singleton] at hy; subst hy; exact hd⟩, ⟨[], by rw [hdat]; simp⟩, rfl, by simp⟩
  have hr := last_one h1 hz hans hy
  subst hr
  cases ln with
  | property i j c v nm => simp only at h3; exact h3
  | node ad nm => simp only [makerNamed, Option.map_some, plainOf] at h3; exact h3
  | object i c nm => exact h3.elim

theorem told_get {sent : List CEvent} {out : List Line} {asks : List Ask} (hp1 : Pairs IsAsk sent asks) (hp2 : Pairs (IsTold stdDb) out asks)
    {k : Nat} {a : Option String} {t : Byte × Byte} {x : Byte × Byte × Byte} {epc : Byte} {ln : Line}
    (hy : sent[k]? = some (.node (sends a (getRequest t x epc)))) (hln : out[k]? = some ln) : IsTold stdDb ln ⟨a, x, epc⟩ := by
  obtain ⟨q, hq, t', h1⟩ := hp1.get hy
  obtain ⟨q', hq', h2⟩ := hp2.get hln
  rw [hq] at hq'; cases hq'
  obtain ⟨g1, g2⟩ := sends_inj (getRequest_wf t x epc) (getRequest_wf t' q.eoj q.epc) (CEvent.node.inj h1)
  unfold getRequest at g2
  have e1 : x = q.eoj := congrArg Frame.deoj g2
  have e2 : epc = q.epc := by
    have := congrArg Frame.body g2
    simp only [Body.plain.injEq, List.cons.injEq, Prod.mk.injEq, and_true] at this
    exact this
  rw [g1, e1, e2]
  exact h2

end Uecho.Lemmas
