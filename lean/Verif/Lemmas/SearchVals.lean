import Verif.Lemmas.BenchCmd
import Verif.Spec.SearchVals
/-! # Lemmas about the values that `Model/SearchCmd.lean` prints -/
namespace Uecho.Lemmas
open Uecho Uecho.Spec Uecho.SearchCmd Uecho.BenchCmd Uecho.Props

/-- The message has the properties of the frame. -/
def Gives (m : Message) (f : Frame) : Prop := view m.ep = plainOf f ∧ m.opc = BitVec.ofNat 8 (plainOf f).length

theorem delivered {e : Endian} {db : Db} {c c' : Ctrl} {h h' : Heap} {ev : List CEvent} (x : Arrival) {t : Byte × Byte} {q old : Message}
    (h1 : c.postReq = some 0) (h2 : c.postRes = some 1) (h3 : h 0 = some q) (h4 : h 1 = some old) (h5 : Reachable e old)
    (ht : (q.tid0, q.tid1) = t) (he : q.esv = 0x62) (hr : c.receive e db x.orc h x.loc (some x.sender) x.data = .ok (c', h', ev)) :
    (∃ f, AnswersGet t x f ∧ CEvent.signal ∈ ev ∧ h' 0 = h 0 ∧ ∃ m, h' 1 = some m ∧ Gives m f) ∨
    ((∀ f, ¬ AnswersGet t x f) ∧ CEvent.signal ∉ ev ∧ h' = h) := by
  cases hd : decode x.data with
  | none =>
    rw [receive_bad e db _ c h _ _ hd] at hr
    simp only [Res.ok.injEq, Prod.mk.injEq] at hr
    obtain ⟨_, rfl, rfl⟩ := hr
    refine .inr ⟨fun f hf => ?_, by simp, rfl⟩
    obtain ⟨k1, ⟨rest, k2⟩, _⟩ := hf
    rw [k2, decode_complete k1] at hd
    cases hd
  | some y =>
    obtain ⟨f, rest⟩ := y
    obtain ⟨hx, hf⟩ := decode_sound hd
    rw [hx] at hr
    obtain ⟨n1, eff, s2, ev3, g1, g2, g3, rfl, g5⟩ := (recv e db x.orc hf hr).more
    have hsig : CEvent.signal ∈ eff.map .node ++ (msgPart c ++ s2 ++ ev3) ↔ CEvent.signal ∈ s2 := by
      have a1 : CEvent.signal ∉ eff.map CEvent.node := by
        intro hm; obtain ⟨_, _, hm⟩ := List.mem_map.1 hm; cases hm
      have a2 : CEvent.signal ∉ msgPart c := by unfold msgPart; split <;> simp
      have a3 : CEvent.signal ∉ ev3 := by intro hm; obtain ⟨_, _, hm⟩ := g5 _ hm; cases hm
      simp [a1, a2, a3]
    have hans : q.isResponseMessage e (reqMsg f (some x.sender)) = true ↔ f.tid = t ∧ f.esv ≠ 0x62 := by
      rw [isResponse_iff, ← he, ← ht]
      show f.tid.1 = q.tid0 ∧ f.tid.2 = q.tid1 ∧ f.esv ≠ q.esv ↔ _
      rw [Prod.ext_iff, and_assoc]
    rw [hsig]
    unfold Ctrl.servePost Ctrl.isWaiting Ctrl.handlePost at g3
    simp only [h1, h2, h3, h4, Option.isSome_some, Bool.and_self, if_true] at g3
    by_cases hm : q.isResponseMessage e (reqMsg f (some x.sender)) = true
    · have hreq : Inv (reqMsg f (some x.sender)) := by
        have := inv_parsed inv_new hf
        exact ⟨⟨this.ep, this.epSet, this.epGet⟩, this.ehd1, this.ehd2⟩
      rw [if_pos hm, setFrom_eq e (reachable_inv h5).toMsgWF hreq.toMsgWF] at g3
      simp only [Res.bind_ok, Res.pure_eq, Res.ok.injEq, Prod.mk.injEq] at g3
      obtain ⟨rfl, rfl⟩ := g3
      refine .inl ⟨f, ⟨hf, ⟨rest, hx⟩, hans.1 hm⟩, by simp, by simp [Heap.set], _, if_pos rfl, ?_, ?_⟩
      · rw [view_copy]
        show view (match f.body with | .plain ps => ps.map mkProp | .setGet _ _ => []) = plainOf f
        unfold plainOf
        cases f.body with
        | plain ps =>
          simp only
          unfold view
          rw [List.map_map]
          exact List.map_id'' (fun _ => rfl) ps
        | setGet s g => rfl
      · show (match f.body with | .plain ps => BitVec.ofNat 8 ps.length | .setGet _ _ => 0) = _
        unfold plainOf
        cases f.body <;> rfl
    · rw [if_neg hm] at g3
      simp only [Res.ok.injEq, Prod.mk.injEq] at g3
      obtain ⟨rfl, rfl⟩ := g3
      refine .inr ⟨fun g hg => ?_, by simp, rfl⟩
      obtain ⟨k1, ⟨rest', k2⟩, k3⟩ := hg
      rw [k2, decode_complete k1] at hd
      cases hd
      exact hm (hans.2 k3)

theorem arrivals_vals {e : Endian} {db : Db} {t : Byte × Byte} : ∀ (as : List Arrival) {c c' : Ctrl} {h h' : Heap} {b : Bool}, Fit e db c → Waits e False c h →
    (∃ q, h 0 = some q ∧ (q.tid0, q.tid1) = t ∧ q.esv = 0x62) → arrivals e db as c h = .ok (c', h', b) →
    ∃ r, LastAnswer t as r ∧ b = r.isSome ∧ (∀ f, r = some f → ∃ m, h' 1 = some m ∧ Gives m f) ∧ (r = none → h' = h) := by
  intro as
  induction as with
  | nil =>
    intro c c' h h' b _ _ _ ha
    cases ha
    exact ⟨none, by simp [LastAnswer], rfl, by simp, fun _ => rfl⟩
  | cons a as ih =>
    intro c c' h h' b hc hw ⟨q, q1, q2, q3⟩ ha
    simp only [arrivals, Res.bind_eq_ok, Res.pure_eq, Res.ok.injEq, Prod.mk.injEq] at ha
    obtain ⟨⟨c1, h1, ev⟩, hr, ⟨c2, h2, b2⟩, ha, _, rfl, rfl⟩ := ha
    obtain ⟨f1, _, w1⟩ := receive_fit hc hw (fun h => h.elim) hr
    obtain ⟨p1, p2, _, old, p4, p5, _⟩ := hw
    rcases delivered a p1 p2 q1 p4 p5 q2 q3 hr with ⟨f, d1, d2, d3, d4⟩ | ⟨d1, d2, rfl⟩
    · obtain ⟨r, r1, r2, r3, r4⟩ := ih f1 w1 ⟨q, d3.trans q1, q2, q3⟩ ha
      cases r with
      | some g =>
        obtain ⟨xs, y, ys, e1, e2⟩ := r1
        exact ⟨some g, ⟨a :: xs, y, ys, by rw [e1]; rfl, e2⟩, by simp [d2], r3, by simp⟩
      | none =>
        refine ⟨some f, ⟨[], a, as, rfl, d1, r1⟩, by simp [d2], ?_, by simp⟩
        intro g hg
        cases hg
        rw [r4 rfl]
        exact d4
    · obtain ⟨r, r1, r2, r3, r4⟩ := ih f1 w1 ⟨q, q1, q2, q3⟩ ha
      refine ⟨r, ?_, by simp only [d2, decide_false, Bool.false_or, r2], r3, r4⟩
      cases r with
      | some g =>
        obtain ⟨xs, y, ys, e1, e2⟩ := r1
        exact ⟨a :: xs, y, ys, by rw [e1]; rfl, e2⟩
      | none =>
        intro x hx
        rcases List.mem_cons.1 hx with rfl | hx
        · exact d1
        · exact r1 x hx

theorem post_vals {e : Endian} {db : Db} {w : Nat → List Arrival} {s s' : St} (hf : Fit e db s.c) {a : String} {x : Byte × Byte × Byte} {k : Byte}
    {req : Message} {res : Option Message} (hq : Reachable e req)
    (hx : ∀ t, { toFrame req with tid := t, seoj := profileEoj } = ⟨t, profileEoj, x, 0x62, .plain [(k, [])]⟩)
    (hp : post e db w s (some a) req = .ok (s', res)) :
    s'.posts = s.posts + 1 ∧ s'.out = s.out ∧ ∃ t r, s'.sent = s.sent ++ [.node (sends (some a) ⟨t, profileEoj, x, 0x62, .plain [(k, [])]⟩)] ∧
      LastAnswer t (w s.posts) r ∧ (r = none → res = none) ∧ ∀ f, r = some f → ∃ m, res = some m ∧ Gives m f := by
  obtain ⟨p, hpr⟩ := Option.isSome_iff_exists.mp hf.profile
  let h0 : Heap := fun p => if p = 0 then some req else if p = 1 then some Message.new else none
  have e1 : s.c.postBegin e h0 (some a) 0 1 true = .ok ({ s.c with postReq := some 0, postRes := some 1, node := s.c.node.nextTid },
      h0.set 0 { req.setTid e (nextT s.c.node.lastTid) with seoj := profileEoj },
      [.node (sends (some a) { toFrame req with tid := tidBytes e (nextT s.c.node.lastTid), seoj := profileEoj })], true) := by
    unfold Ctrl.postBegin
    simp only [h0, if_true, sendMessage_eq e s.c.node a (reachable_inv hq), hpr, Res.pure_eq, Res.bind_ok]
    rfl
  have hfit : Fit e db { s.c with postReq := some 0, postRes := some 1, node := s.c.node.nextTid } :=
    ⟨.postBegin _ _ _ _ hf.reach e1, hf.handlers, hf.profile⟩
  have hwait : Waits e False { s.c with postReq := some 0, postRes := some 1, node := s.c.node.nextTid }
      (h0.set 0 { req.setTid e (nextT s.c.node.lastTid) with seoj := profileEoj }) :=
    ⟨rfl, rfl, ⟨{ req.setTid e (nextT s.c.node.lastTid) with seoj := profileEoj }, by simp [Heap.set]⟩, Message.new, by simp [Heap.set, h0], .new,
      fun h => h.elim⟩
  obtain ⟨c2, h2, b, k1, _⟩ := arrivals_spec (q := False) (w s.posts) hfit hwait (fun h => h.elim)
  have hesv : req.esv = 0x62 := congrArg Frame.esv (hx (0, 0))
  obtain ⟨r, r1, r2, r3, _⟩ := arrivals_vals (t := tidBytes e (nextT s.c.node.lastTid)) (w s.posts) hfit hwait
    ⟨{ req.setTid e (nextT s.c.node.lastTid) with seoj := profileEoj }, by simp [Heap.set], rfl, hesv⟩ k1
  unfold post at hp
  rw [show (fun p : Nat => if p = 0 then some req else if p = 1 then some Message.new else none) = h0 from rfl, e1] at hp
  simp only [Res.bind_ok, if_true, Nat.add_sub_cancel, k1, Res.pure_eq, Res.ok.injEq, Prod.mk.injEq] at hp
  obtain ⟨rfl, rfl⟩ := hp
  refine ⟨rfl, rfl, tidBytes e (nextT s.c.node.lastTid), r, by rw [hx], r1, fun hr => ?_, fun f hr => ?_⟩
  · rw [r2, hr]; rfl
  · obtain ⟨m, m1, m2⟩ := r3 f hr
    exact ⟨m, by rw [r2, hr]; exact m1, m2⟩

/-! ## An invariant of the walks -/

/-- The lines about requests. -/
def askLines (out : List Line) : List Line := out.filter fun l => (objectLine l).isNone

/-- One line for each request, and it says what was answered. -/
def Honest (ms : List Std.Manufacture) (w : Nat → List Arrival) (s : St) : Prop :=
  s.sent.length = s.posts ∧ (askLines s.out).length = s.posts ∧
  ∀ (k : Nat) y ln, s.sent[k]? = some y → (askLines s.out)[k]? = some ln → ValueOf ms (w k) y ln

theorem Honest.step {ms : List Std.Manufacture} {w : Nat → List Arrival} {s s' : St} (h : Honest ms w s) {y : CEvent} {ln : Line}
    (h1 : s'.posts = s.posts + 1) (h2 : s'.sent = s.sent ++ [y]) (h3 : s'.out = s.out ++ [ln]) (h4 : objectLine ln = none) (h5 : ValueOf ms (w s.posts) y ln) :
    Honest ms w s' := by
  obtain ⟨a, b, c⟩ := h
  have hl : askLines s'.out = askLines s.out ++ [ln] := by
    unfold askLines
    rw [h3, List.filter_append]
    congr 1
    rw [List.filter_cons_of_pos (by rw [h4]; rfl), List.filter_nil]
  refine ⟨by rw [h2, h1, List.length_append, a]; rfl, by rw [hl, h1, List.length_append, b]; rfl, fun k y' ln' k1 k2 => ?_⟩
  rw [h2] at k1
  rw [hl] at k2
  by_cases hk : k < s.posts
  · rw [List.getElem?_append_left (by omega)] at k1 k2
    exact c k y' ln' k1 k2
  · have := (List.getElem?_eq_some_iff.1 k1).1
    rw [List.length_append, a] at this
    simp only [List.length_cons, List.length_nil] at this
    have hk' : k = s.posts := by omega
    subst hk'
    rw [List.getElem?_append_right (by omega), a, Nat.sub_self] at k1
    rw [List.getElem?_append_right (by omega), b, Nat.sub_self] at k2
    simp only [List.getElem?_cons_zero, Option.some.injEq] at k1 k2
    rw [← k1, ← k2]
    exact h5

theorem Honest.object {ms : List Std.Manufacture} {w : Nat → List Arrival} {s : St} (h : Honest ms w s) {ln : Line} (hl : (objectLine ln).isSome) :
    Honest ms w { s with out := s.out ++ [ln] } := by
  have : askLines (s.out ++ [ln]) = askLines s.out := by
    unfold askLines
    rw [List.filter_append, List.filter_cons_of_neg (by rw [Option.isNone_iff_eq_none]; intro hn; rw [hn] at hl; cases hl)]
    simp
  unfold Honest
  simp only [this]
  exact h

theorem data_view (m : Message) : m.ep.map (·.data) = (view m.ep).map (·.2) := by
  unfold view
  rw [List.map_map]
  rfl

theorem askProps_honest {e : Endian} {db : Db} (ms : List Std.Manufacture) (w : Nat → List Arrival) (i j : Nat) (a : String)
    (x : Byte × Byte × Byte) : ∀ (fuel l : Nat) (s s' : St), Fit e db s.c → At s.c i j a x → Honest ms w s →
      askProps e db w fuel i j l s = .ok (some s') → Honest ms w s' := by
  intro fuel
  induction fuel with
  | zero => intro l s s' _ _ _ h; cases h
  | succ fuel ih =>
    intro l s s' hf hat hh h
    obtain ⟨n, o, h1, h2, h3, h4⟩ := hat
    have ho : objAt s.c i j = some o := by unfold objAt; rw [h1]; exact h3
    rw [askProps, ho] at h
    simp only at h
    cases hp : o.props[l]? with
    | none => rw [hp] at h; cases h; exact hh
    | some p =>
      rw [hp] at h
      simp only at h
      by_cases hq : p.isReadRequired = true
      · rw [if_pos hq] at h
        simp only [Res.bind_eq_ok] at h
        obtain ⟨m, m1, ⟨s1, res⟩, p1, d, hd, h⟩ := h
        obtain ⟨m', m1', m2, m3⟩ := readRequest_spec e x p.code
        rw [getCode_ofNat, h4] at m1
        rw [m1', Res.ok.injEq] at m1
        subst m1
        obtain ⟨s2, res2, y, q1, q2, q3, _, _, _, q7⟩ := post_spec (q := False) (w := w) (fun h => h.elim) hf m2 m3 (a := a)
        have hadr : (s.c.nodes[i]?).bind (·.address) = some a := by rw [h1]; exact h2
        rw [hadr] at p1
        rw [q1] at p1
        cases p1
        obtain ⟨v1, v2, t, r, v3, v4, v5, v6⟩ := post_vals hf m2 m3 q1
        cases hn : (objAt s1.c i j).bind (fun o => (o.props[l]?).bind (·.name)) with
        | none => rw [hn] at h; cases h
        | some nm =>
          rw [hn] at h
          simp only at h
          refine ih (l + 1) { s1 with out := s1.out ++ [.property j l p.code d nm] } s' q2 (At.grew ⟨n, o, h1, h2, h3, h4⟩ q3) ?_ h
          refine hh.step (ln := .property j l p.code d nm) v1 v3 (by simp only [v2]) rfl ⟨t, r, v4, ⟨_, _, _, rfl⟩, ?_⟩
          simp only
          cases r with
          | none =>
            rw [v5 rfl] at hd
            cases hd
            rfl
          | some f =>
            obtain ⟨m, w1, w2, _⟩ := v6 f rfl
            subst w1
            simp only [answer, slots_eq (reachable_inv (q7 m rfl).1).toMsgWF.ep, Res.bind_ok, Res.pure_eq, Res.ok.injEq] at hd
            rw [← hd, data_view, w2]
            rfl
      · rw [if_neg hq] at h
        exact ih (l + 1) s s' hf ⟨n, o, h1, h2, h3, h4⟩ hh h

theorem askObjs_honest {e : Endian} {db : Db} (hdb : DbCodes db) (hnm : Named db) (ms : List Std.Manufacture) (w : Nat → List Arrival) (rounds i : Nat) (a : String) :
    ∀ (fuel j : Nat) (s s' : St), Fit e db s.c → (∃ n, s.c.nodes[i]? = some n ∧ n.address = some a) → Honest ms w s →
      askObjs e db w rounds fuel i j s = .ok (some s') → Honest ms w s' := by
  intro fuel
  induction fuel with
  | zero => intro j s s' _ _ _ h; cases h
  | succ fuel ih =>
    intro j s s' hf ⟨n, h1, h2⟩ hh h
    have hoa : objAt s.c i j = n.objs[j]? := by unfold objAt; rw [h1]; rfl
    rw [askObjs, hoa] at h
    cases ho : n.objs[j]? with
    | none => rw [ho] at h; cases h; exact hh
    | some o =>
      rw [ho] at h
      simp only at h
      have hat : At ({ s with out := s.out ++ [.object j o.getCode o.name] } : St).c i j a (objEoj o) := ⟨n, o, h1, h2, ho, rfl⟩
      obtain ⟨r1, k1, k2⟩ := askProps_spec hdb hnm w i j a (objEoj o) rounds 0 { s with out := s.out ++ [.object j o.getCode o.name] } hf hat
      rw [k1] at h
      simp only [Res.bind_ok] at h
      cases r1 with
      | none => cases h
      | some s1 =>
        obtain ⟨f1, _, g1, _⟩ := k2 s1 rfl
        obtain ⟨n1, m1, m2, _⟩ := g1.1 i n h1
        have hh1 := askProps_honest ms w i j a (objEoj o) rounds 0 { s with out := s.out ++ [.object j o.getCode o.name] } s1 hf hat (hh.object rfl) k1
        exact ih (j + 1) s1 s' f1 ⟨n1, m1, m2.trans h2⟩ hh1 h

theorem benchNodes_honest {e : Endian} {db : Db} (hdb : DbCodes db) (hnm : Named db) (ms : List Std.Manufacture) (w : Nat → List Arrival) (rounds : Nat) :
    ∀ (fuel i : Nat) (b b' : BSt), Fit e db b.s.c → Honest ms w b.s → benchNodes e db w rounds fuel i b = .ok (some b') → Honest ms w b'.s := by
  intro fuel
  induction fuel with
  | zero => intro i b b' _ _ h; cases h
  | succ fuel ih =>
    intro i b b' hf hh h
    rw [benchNodes] at h
    cases hn : b.s.c.nodes[i]? with
    | none => rw [hn] at h; cases h; exact hh
    | some n =>
      rw [hn] at h
      simp only at h
      obtain ⟨a, ha⟩ := Option.ne_none_iff_exists'.1 ((reach_cinv hf.reach).addr n (List.mem_of_getElem? hn))
      obtain ⟨r1, k1, k2⟩ := askObjs_spec hdb hnm w rounds i a rounds 0 b.s hf ⟨n, hn, ha⟩
      rw [k1] at h
      simp only [Res.bind_ok] at h
      cases r1 with
      | none => cases h
      | some s1 => exact ih (i + 1) ⟨s1, b.heads ++ [n.address]⟩ b' (k2 s1 rfl).1 (askObjs_honest hdb hnm ms w rounds i a rounds 0 b.s s1 hf ⟨n, hn, ha⟩ hh k1) h

theorem passes_honest {e : Endian} {db : Db} (hdb : DbCodes db) (hnm : Named db) (ms : List Std.Manufacture) (w : Nat → List Arrival) (rounds : Nat) :
    ∀ (n : Nat) (b b' : BSt), Fit e db b.s.c → Honest ms w b.s → passes e db w rounds n b = .ok (some b') → Honest ms w b'.s := by
  intro n
  induction n with
  | zero => intro b b' _ hh h; cases h; exact hh
  | succ n ih =>
    intro b b' hf hh h
    obtain ⟨r1, k1, k2⟩ := benchNodes_spec hdb hnm w rounds rounds 0 b hf
    rw [passes, k1] at h
    simp only [Res.bind_ok] at h
    cases r1 with
    | none => cases h
    | some b1 => exact ih b1 b' (k2 b1 rfl).1 (benchNodes_honest hdb hnm ms w rounds rounds 0 b b1 hf hh k1) h

theorem beValue_reverse (l : List Byte) : beValue l = leValue l.reverse := by
  have h : ∀ (l : List Byte), beValue l.reverse = leValue l := by
    intro l
    induction l with
    | nil => rfl
    | cons b l ih =>
      unfold beValue at ih ⊢
      rw [List.reverse_cons, List.foldl_append, ih]
      simp only [List.foldl_cons, List.foldl_nil, leValue]
      omega
  rw [← h, List.reverse_reverse]

theorem byte2integer_value {v : List Byte} {c : CInt} (h : byte2integer v = .ok c) : c.toNat = beValue v := by
  by_cases hl : v.length ≤ 4
  · rw [byte2integer_eq v hl] at h
    split at h
    · rename_i hv
      cases h
      rw [beValue_reverse, BitVec.toNat_ofNat]
      omega
    · cases h
  · unfold byte2integer at h
    rw [byte2integerLoop_ub _ _ _ (by simp; omega) (by omega)] at h
    cases h

theorem maker_honest {e : Endian} {db : Db} {ms : List Std.Manufacture} {w : Nat → List Arrival} {s s' : St} {a : String} {nm : Option String} (hf : Fit e db s.c)
    (hh : Honest ms w s) (h : maker e db ms w s (some a) = .ok (s', nm)) : Honest ms w { s' with out := s'.out ++ [.node (some a) nm] } := by
  obtain ⟨m, m1, m2, m3⟩ := readRequest_spec e profileEoj 0x8A#8
  have hcode : (0x0EF001#32 : CInt) = BitVec.ofNat 32 (eojNat profileEoj) := by decide
  unfold maker at h
  rw [hcode, m1] at h
  simp only [Res.bind_ok, Res.bind_eq_ok] at h
  obtain ⟨⟨s1, res⟩, hp, h⟩ := h
  obtain ⟨v1, v2, t, r, v3, v4, v5, v6⟩ := post_vals hf m2 m3 hp
  obtain ⟨_, _, _, q1, _, _, _, _, _, q7⟩ := post_spec (q := False) (w := w) (fun h => h.elim) hf m2 m3 (a := a)
  rw [hp] at q1
  cases q1
  suffices hs : s' = s1 ∧ nm = makerNamed ms r by
    obtain ⟨rfl, rfl⟩ := hs
    exact hh.step (ln := .node (some a) (makerNamed ms r)) v1 v3 (by simp only [v2]) rfl ⟨t, r, v4, ⟨_, _, _, rfl⟩, rfl⟩
  cases r with
  | none =>
    rw [v5 rfl] at h
    simp only [Res.pure_eq, Res.ok.injEq, Prod.mk.injEq] at h
    exact ⟨h.1.symm, h.2.symm⟩
  | some f =>
    obtain ⟨m, w1, w2, w3⟩ := v6 f rfl
    subst w1
    have hinv := (reachable_inv (q7 m rfl).1).toMsgWF
    have hlen : m.ep.length = (plainOf f).length := by rw [← w2]; unfold view; rw [List.length_map]
    have hopc : m.opc.toNat = m.ep.length := hinv.ep.symm
    simp only at h
    have hone : m.opc = 1#8 ↔ m.ep.length = 1 := by
      rw [← hopc]
      constructor
      · intro h; rw [h]; rfl
      · intro h; exact BitVec.eq_of_toNat_eq h
    by_cases ho : m.opc = 1#8
    · rw [if_pos ho] at h
      have hg : m.getProperty 0 = .ok m.ep[0]? := propGet_eq hinv.ep 0
      rw [hg] at h
      obtain ⟨p, hpe⟩ := List.length_eq_one_iff.1 (hone.1 ho)
      rw [hpe] at h
      simp only [Res.bind_ok, List.getElem?_cons_zero, Res.bind_eq_ok, Res.pure_eq, Res.ok.injEq, Prod.mk.injEq] at h
      obtain ⟨code, hc, h1, h2⟩ := h
      refine ⟨h1.symm, ?_⟩
      have hpl : plainOf f = [(p.code, p.data)] := by rw [← w2, hpe]; rfl
      unfold makerNamed
      simp only [Option.map_some, hpl]
      rw [← h2]
      unfold Std.getManufacture
      congr 2
      funext x
      rw [← byte2integer_value hc]
      rw [Bool.eq_iff_iff]
      simp only [beq_iff_eq, decide_eq_true_eq]
      exact BitVec.toNat_inj.symm
    · rw [if_neg ho] at h
      simp only [Res.pure_eq, Res.ok.injEq, Prod.mk.injEq] at h
      refine ⟨h.1.symm, ?_⟩
      rw [← h.2]
      unfold makerNamed
      simp only [Option.map_some]
      have hl1 : (plainOf f).length ≠ 1 := by rw [← hlen]; exact fun h => ho (hone.2 h)
      split
      · rename_i heq
        simp only [Option.some.injEq] at heq
        rw [heq] at hl1
        exact absurd rfl hl1
      · rfl

theorem askNodes_honest {e : Endian} {db : Db} (hdb : DbCodes db) (hnm : Named db) (ms : List Std.Manufacture) (w : Nat → List Arrival) (rounds : Nat) :
    ∀ (fuel i : Nat) (s s' : St), Fit e db s.c → Honest ms w s → askNodes e db ms w rounds fuel i s = .ok (some s') → Honest ms w s' := by
  intro fuel
  induction fuel with
  | zero => intro i s s' _ _ h; cases h
  | succ fuel ih =>
    intro i s s' hf hh h
    rw [askNodes] at h
    cases hn : s.c.nodes[i]? with
    | none => rw [hn] at h; cases h; exact hh
    | some n =>
      rw [hn] at h
      obtain ⟨a, ha⟩ := Option.ne_none_iff_exists'.1 ((reach_cinv hf.reach).addr n (List.mem_of_getElem? hn))
      simp only [ha, Res.bind_eq_ok] at h
      obtain ⟨⟨s0, nm⟩, hm, r, k1, h⟩ := h
      obtain ⟨f0, g0⟩ := (maker_spec (q := False) ms (fun h => h.elim) hf a).2 s0 nm hm
      obtain ⟨n0, b1, b2, _⟩ := g0.1 i n hn
      have hadr : ∃ n, ({ s0 with out := s0.out ++ [.node (some a) nm] } : St).c.nodes[i]? = some n ∧ n.address = some a := ⟨n0, b1, b2.trans ha⟩
      obtain ⟨r1, c1, c2⟩ := askObjs_spec hdb hnm w rounds i a rounds 0 { s0 with out := s0.out ++ [.node (some a) nm] } f0 hadr
      simp only at k1
      rw [c1] at k1
      cases k1
      cases r with
      | none => cases h
      | some s1 =>
        exact ih (i + 1) s1 s' (c2 s1 rfl).1 (askObjs_honest hdb hnm ms w rounds i a rounds 0 { s0 with out := s0.out ++ [.node (some a) nm] } s1 f0 hadr (maker_honest hf hh hm) c1) h

end Uecho.Lemmas
