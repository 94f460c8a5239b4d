import Verif.Lemmas.Talk
import Verif.Props.PostCmd
import Verif.Props.CtrlHistory
import Verif.Props.Light
/-!
# C162: a command and a device talk to each other

Specification: `Verif/Spec/Talk.lean`.
-/
namespace Uecho.Props
open Uecho Uecho.Spec Uecho.Lemmas Uecho.PostCmd

/-- what a user typed, as a message -/
theorem typed_message (l : Bool) (v : Vars) (c0 e0 : CInt) {n : Node} {x : Byte × Byte × Byte} (hx : (destObj n x).isSome) {esv : Byte}
    (hs : ¬ IsSetGet esv) {ps : List Prop8} (hlen : ∀ q ∈ ps, q.2.length ≤ 255) (hnum : ps.length ≤ 255) (hnd : (codes ps).Nodup)
    {objT esvT propsT : List Char} (ho : Spells [x.1, x.2.1, x.2.2] objT) (he : Spells [esv] esvT) (hp : Spells (typed ps) propsT) :
    ∃ m, request l v c0 e0 n objT esvT propsT = .ok m ∧ m.esv = esv ∧ m.deoj = x ∧ (toFrame m).body = .plain ps := by
  obtain ⟨m, g1, g2, g3, g4⟩ := setAll_new ps (blank (target3 n x) esv) (blank_inv _ _) hnd (by simpa [blank, Message.new] using hnum)
  have hk : ps.length ≤ propsT.length := by
    rw [spells_length hp]
    have := typed_length ps
    omega
  obtain ⟨v', hl⟩ := loop_typed l ps propsT [] propsT.length 0 v (blank (target3 n x) esv) hlen hp hk
  rw [g1, List.append_nil] at hl
  have hm : request l v c0 e0 n objT esvT propsT = .ok m := by
    rw [request_eq l v c0 e0 n ho he, hl]
    exact loop_short l _ _ [] v' m (by simp)
  have hesv : m.esv = esv := by rw [g4]; rfl
  refine ⟨m, hm, hesv, ?_, ?_⟩
  · rw [g4]
    show target3 n x = x
    rw [target3, if_pos hx]
  · unfold toFrame
    simp only [hesv, if_neg hs, g3]
    rfl

/-- **C162.** Whatever a user types, and whatever the device: the command sends one frame with the properties that were typed, and the first
frame that comes back from the device with the same transaction id and another service is printed, with who sent it, the object, the
service, and every property spelled as a user would type it. -/
theorem C162_answer (l : Bool) {e : Endian} {db : Db} (v : Vars) (c0 e0 : CInt) {c : Ctrl} (hc : CtrlReach e db c)
    (hpr : (destObj c.node profileEoj).isSome) {n : Node} (a : String) {x : Byte × Byte × Byte}
    (hx : (destObj n x).isSome) {esv : Byte} (hs : ¬ IsSetGet esv) (hans : Answered esv) {ps : List Prop8} (hlen : ∀ q ∈ ps, q.2.length ≤ 255)
    (hnum : ps.length ≤ 255) (hnd : (codes ps).Nodup) {objT esvT propsT : List Char} (ho : Spells [x.1, x.2.1, x.2.2] objT)
    (he : Spells [esv] esvT) (hp : Spells (typed ps) propsT) :
    ∃ t, tidNat e t = succTid c.node.lastTid.toNat ∧
      ∀ (g : Frame) (qs : List Prop8), g.WF → g.tid = t → g.esv ≠ esv → g.body = .plain qs →
        ∃ line, CommandTalks l e db v c0 e0 c n a objT esvT propsT ⟨t, profileEoj, x, esv, .plain ps⟩ g line ∧
          Line a g.seoj g.esv qs line := by
  obtain ⟨m, hm, m1, m2, m3⟩ := typed_message l v c0 e0 hx hs hlen hnum hnd ho he hp
  have hreach := request_reachable e hm
  refine ⟨tidBytes e (nextT c.node.lastTid), tidNat_next e _, ?_⟩
  intro g qs hg ht hne hb
  have hgs : ¬ IsSetGet g.esv := by
    unfold Frame.WF at hg; rw [hb] at hg; exact hg.1
  have hqs : ∀ q ∈ qs, q.2.length ≤ 255 := by
    unfold Frame.WF at hg; rw [hb] at hg
    intro q hq
    have := hg.2.2 q hq
    omega
  refine ⟨_, ?_, lineText_line a g.seoj g.esv hqs⟩
  refine ⟨m, hm, (waits_iff m).2 (m1 ▸ hans), ?_⟩
  intro h req res hne2 hreq
  obtain ⟨c1, m1', t, k1, k2, k3, k4⟩ := C143_post hc hpr hne2 hreach hreq a true
  obtain rfl : t = tidBytes e (nextT c.node.lastTid) := tidNat_inj e (by rw [k2, tidNat_next])
  have hfr : ({ toFrame m with tid := tidBytes e (nextT c.node.lastTid), seoj := profileEoj } : Frame) =
      ⟨tidBytes e (nextT c.node.lastTid), profileEoj, x, esv, .plain ps⟩ := by
    rw [← m3, ← m1, ← m2]; rfl
  rw [hfr] at k1
  refine ⟨c1, m1', k1, ?_⟩
  intro d h2 old hl r1 r2 r3 hnull orc loc
  have hc1 : CtrlReach e db c1 := .postBegin _ _ _ _ hc k1
  have hset := later_setting hc1 hl
  have hptr : c1.postReq = some req ∧ c1.postRes = some res := by
    unfold Ctrl.postBegin at k1
    simp only [hreq, Res.bind_eq_ok, Res.pure_eq, Res.ok.injEq, Prod.mk.injEq] at k1
    obtain ⟨_, _, rfl, _⟩ := k1
    exact ⟨rfl, rfl⟩
  have j1 : d.postReq = some req := (congrArg (fun x => x.2.1) hset).trans hptr.1
  have j2 : d.postRes = some res := (congrArg (fun x => x.2.2) hset).trans hptr.2
  obtain ⟨d', h', ev, hr⟩ := C71_receive_safe_partial (later_reach hc1 hl) orc h2 loc a (encode g) hnull (fun r s hr hs => by
    obtain rfl : req = r := Option.some.inj (j1.symm.trans hr)
    obtain rfl : res = s := Option.some.inj (j2.symm.trans hs)
    exact ⟨⟨_, r1⟩, _, r2, r3⟩)
  have hr' : d.receive e db orc h2 loc (some a) (encode g ++ []) = .ok (d', h', ev) := by rw [List.append_nil]; exact hr
  obtain ⟨s1, s2, s3⟩ := k4 d hl h2 old r1 r2 r3 orc loc a g [] hg d' h' ev hr'
  have hsig := s1.2 ⟨ht, m1 ▸ hne⟩
  obtain ⟨-, m', q1, q2, -, q4, q5⟩ := s3 hsig
  refine ⟨d', h', ev, m', hr, hsig, q1, ?_⟩
  have hf' := q4 hgs
  have e1 : m'.seoj = g.seoj := congrArg Frame.seoj hf'
  have e2 : m'.esv = g.esv := congrArg Frame.esv hf'
  have e3 : view m'.ep = qs := by
    have := congrArg Frame.body hf'
    unfold toFrame at this
    simp only [e2, if_neg hgs, hb, Body.plain.injEq] at this
    exact this
  rw [printResponse_line q5 q2, e1, e2, e3]

/-- reading the power: `uechopost 10.0.0.2 029101 62 8000` -/
example : Spells [lightEoj.1, lightEoj.2.1, lightEoj.2.2] "029101".toList ∧ Spells [0x62#8] "62".toList ∧
    Spells (typed [(0x80#8, [])]) "8000".toList := by
  refine ⟨?_, ?_, ?_⟩ <;> repeat (first | exact Spells.nil | refine Spells.cons (by unfold IsDigit; decide) (by unfold IsDigit; decide) ?_)

/-- **C162.** Whatever happened to the light, the command that reads its power prints it: the last byte that was written to it, or 30 if none
was. The light sends nothing else and stays as it is. -/
theorem C162_shown (l : Bool) {e : Endian} {db ldb : Db} (hdb : (ldb.getObject 0x00#8 0x00#8).isSome) {junk junk1 junk2 rnd : Nat → Byte}
    {tid0 : BitVec 32} {verbose : Bool} {maker : CInt} {bound : List String} {lamp0 lamp : Node} {es : List LightEvent} {b : Byte}
    (hm : Light.main e ldb junk junk1 junk2 rnd tid0 verbose maker bound = .ok (some lamp0)) (hrun : lightRun e lamp0 es = .ok lamp)
    (hb : PowerAfter 0x30#8 es b) (v : Vars) (c0 e0 : CInt) {c : Ctrl} (hc : CtrlReach e db c) (hpr : (destObj c.node profileEoj).isSome)
    {n : Node} (a own : String) (loc : Option String) (hx : (destObj n lightEoj).isSome) {objT esvT propsT : List Char}
    (ho : Spells [0x02#8, 0x91#8, 0x01#8] objT) (he : Spells [0x62#8] esvT) (hp : Spells [0x80#8, 0x00#8] propsT) :
    ∃ f g line eff, CommandTalks l e db v c0 e0 c n a objT esvT propsT f g line ∧
      lamp.receive e loc (some own) (encode f) = .ok (lamp, eff) ∧ allSent eff = [sends (some own) g] ∧
      Line a lightEoj 0x72#8 [(0x80#8, [b])] line := by
  obtain ⟨t, -, h⟩ := C162_answer l (db := db) v c0 e0 hc hpr a hx (esv := 0x62#8) (by decide) (.inr (.inl rfl)) (ps := [(0x80#8, [])])
    (by simp) (by simp) (by simp [codes]) ho he hp
  obtain ⟨eff, r1, r2⟩ := C148_power_partial hdb hm hrun hb loc own t profileEoj
  obtain ⟨line, k1, k2⟩ := h (powerReply t profileEoj 0x72#8 [b]) [(0x80#8, [b])]
    ⟨(by decide : ¬ IsSetGet 0x72#8), by simp [SectionOK]⟩ rfl (by decide : (0x72#8 : Byte) ≠ 0x62#8) rfl
  exact ⟨_, _, line, eff, k1, r1, r2, k2⟩

/-- **C162.** Whatever happened to the light, the command that writes one byte to its power prints that it was accepted, and from then on that
byte is the power, until it is written again. -/
theorem C162_switched (l : Bool) {e : Endian} {db ldb : Db} (hdb : (ldb.getObject 0x00#8 0x00#8).isSome) {junk junk1 junk2 rnd : Nat → Byte}
    {tid0 : BitVec 32} {verbose : Bool} {maker : CInt} {bound : List String} {lamp0 lamp : Node} {es : List LightEvent} {b : Byte}
    (hm : Light.main e ldb junk junk1 junk2 rnd tid0 verbose maker bound = .ok (some lamp0)) (hrun : lightRun e lamp0 es = .ok lamp)
    (hb : PowerAfter 0x30#8 es b) (v : Vars) (c0 e0 : CInt) {c : Ctrl} (hc : CtrlReach e db c) (hpr : (destObj c.node profileEoj).isSome)
    {n : Node} (a own : String) (loc : Option String) (hx : (destObj n lightEoj).isSome) (x : Byte) {objT esvT propsT : List Char}
    (ho : Spells [0x02#8, 0x91#8, 0x01#8] objT) (he : Spells [0x61#8] esvT) (hp : Spells [0x80#8, 0x01#8, x] propsT) :
    ∃ f g line lamp2 eff, CommandTalks l e db v c0 e0 c n a objT esvT propsT f g line ∧
      lamp.receive e loc (some own) (encode f) = .ok (lamp2, eff) ∧ allSent eff = [sends (some own) g] ∧
      Line a lightEoj 0x71#8 [(0x80#8, [])] line ∧
      lightRun e lamp0 (es ++ [.datagram ⟨loc, own, encode f⟩]) = .ok lamp2 ∧
      PowerAfter 0x30#8 (es ++ [.datagram ⟨loc, own, encode f⟩]) x := by
  obtain ⟨t, -, h⟩ := C162_answer l (db := db) v c0 e0 hc hpr a hx (esv := 0x61#8) (by decide) (.inl rfl) (ps := [(0x80#8, [x])])
    (by simp) (by simp) (by simp [codes]) ho he hp
  obtain ⟨lamp2, eff, r1, r2⟩ := C148_written hdb hm hrun hb loc own t profileEoj x
  obtain ⟨line, k1, k2⟩ := h (powerReply t profileEoj 0x71#8 []) [(0x80#8, [])]
    ⟨(by decide : ¬ IsSetGet 0x71#8), by simp [SectionOK]⟩ rfl (by decide : (0x71#8 : Byte) ≠ 0x61#8) rfl
  refine ⟨_, _, line, lamp2, eff, k1, r1, r2, k2, ?_, ?_⟩
  · rw [lightRun_append e es _ hrun]
    simp only [lightRun]
    have : lamp.receive e loc (some own) (encode ⟨t, profileEoj, lightEoj, 0x61#8, .plain [(0x80#8, [x])]⟩) = .ok (lamp2, eff) := r1
    rw [this]; rfl
  · refine powerAfter_append hb (.written (f := powerRequest t profileEoj 0x61#8 [x])
      ⟨⟨(by decide : ¬ IsSetGet 0x61#8), by simp [SectionOK]⟩, ⟨[], by rw [List.append_nil]; rfl⟩, rfl, .inr (.inl rfl)⟩ ?_)
    have : obey b (written (powerRequest t profileEoj 0x61#8 [x])) = x := rfl
    rw [this]
    exact .done

/-- **C162.** A command that writes a byte to the power of the light, and after any time in which nobody else writes to it a command, of any
controller, that reads it: the second one prints the byte. -/
theorem C162_switched_then_shown (l : Bool) {e : Endian} {db db2 ldb : Db} (hdb : (ldb.getObject 0x00#8 0x00#8).isSome)
    {junk junk1 junk2 rnd : Nat → Byte} {tid0 : BitVec 32} {verbose : Bool} {maker : CInt} {bound : List String} {lamp0 lamp : Node}
    {es : List LightEvent} {b : Byte}
    (hm : Light.main e ldb junk junk1 junk2 rnd tid0 verbose maker bound = .ok (some lamp0)) (hrun : lightRun e lamp0 es = .ok lamp)
    (hb : PowerAfter 0x30#8 es b) (v v2 : Vars) (c0 e0 : CInt) {c c2 : Ctrl} (hc : CtrlReach e db c) (hc2 : CtrlReach e db2 c2)
    (hpr : (destObj c.node profileEoj).isSome) (hpr2 : (destObj c2.node profileEoj).isSome)
    {n n2 : Node} (a own own2 : String) (loc loc2 : Option String) (hx : (destObj n lightEoj).isSome) (hx2 : (destObj n2 lightEoj).isSome)
    (x : Byte) {objT setT getT powerT dataT : List Char} (ho : Spells [0x02#8, 0x91#8, 0x01#8] objT) (hs : Spells [0x61#8] setT)
    (hg : Spells [0x62#8] getT) (hp : Spells [0x80#8, 0x01#8, x] dataT) (hq : Spells [0x80#8, 0x00#8] powerT) :
    ∃ f1 g1 line1 lamp1 eff1, CommandTalks l e db v c0 e0 c n a objT setT dataT f1 g1 line1 ∧
      lamp.receive e loc (some own) (encode f1) = .ok (lamp1, eff1) ∧ allSent eff1 = [sends (some own) g1] ∧
      Line a lightEoj 0x71#8 [(0x80#8, [])] line1 ∧
      ∀ (fs : List LightEvent) (lamp2 : Node), (∀ ev ∈ fs, ∀ g, ev = .datagram g → ¬ ∃ f, WritesLight g f) → lightRun e lamp1 fs = .ok lamp2 →
        ∃ f2 g2 line2 eff2, CommandTalks l e db2 v2 c0 e0 c2 n2 a objT getT powerT f2 g2 line2 ∧
          lamp2.receive e loc2 (some own2) (encode f2) = .ok (lamp2, eff2) ∧ allSent eff2 = [sends (some own2) g2] ∧
          Line a lightEoj 0x72#8 [(0x80#8, [x])] line2 := by
  obtain ⟨f1, g1, line1, lamp1, eff1, k1, k2, k3, k4, k5, k6⟩ :=
    C162_switched l hdb hm hrun hb v c0 e0 hc hpr a own loc hx x ho hs hp
  refine ⟨f1, g1, line1, lamp1, eff1, k1, k2, k3, k4, ?_⟩
  intro fs lamp2 hq' hrun2
  have hquiet : ∀ fs : List LightEvent, (∀ ev ∈ fs, ∀ g, ev = .datagram g → ¬ ∃ f, WritesLight g f) → PowerAfter x fs x := by
    intro fs
    induction fs with
    | nil => exact fun _ => .done
    | cons ev fs ih =>
      intro h
      have ih' := ih fun y hy => h y (List.mem_cons_of_mem _ hy)
      cases ev with
      | datagram g => exact .other (h _ (List.mem_cons_self ..) g rfl) ih'
      | restart bd => exact .restart ih'
  exact C162_shown l hdb hm (by rw [lightRun_append e _ fs k5]; exact hrun2) (powerAfter_append k6 (hquiet fs hq')) v2 c0 e0 hc2 hpr2 a own2 loc2
    hx2 ho hg hq

/-- **C162.** Data that is not one byte is refused: the command prints the error response (50) with the data that was typed, and the light is as
it was. -/
theorem C162_refused (l : Bool) {e : Endian} {db ldb : Db} (hdb : (ldb.getObject 0x00#8 0x00#8).isSome) {junk junk1 junk2 rnd : Nat → Byte}
    {tid0 : BitVec 32} {verbose : Bool} {maker : CInt} {bound : List String} {lamp0 lamp : Node} {es : List LightEvent} {b : Byte}
    (hm : Light.main e ldb junk junk1 junk2 rnd tid0 verbose maker bound = .ok (some lamp0)) (hrun : lightRun e lamp0 es = .ok lamp)
    (hb : PowerAfter 0x30#8 es b) (v : Vars) (c0 e0 : CInt) {c : Ctrl} (hc : CtrlReach e db c) (hpr : (destObj c.node profileEoj).isSome)
    {n : Node} (a own : String) (loc : Option String) (hx : (destObj n lightEoj).isSome) (d : List Byte) (hd : d.length < 256)
    (h1 : d.length ≠ 1) {objT esvT propsT : List Char}
    (ho : Spells [0x02#8, 0x91#8, 0x01#8] objT) (he : Spells [0x61#8] esvT) (hp : Spells (typed [(0x80#8, d)]) propsT) :
    ∃ f g line eff, CommandTalks l e db v c0 e0 c n a objT esvT propsT f g line ∧
      lamp.receive e loc (some own) (encode f) = .ok (lamp, eff) ∧ allSent eff = [sends (some own) g] ∧
      Line a lightEoj 0x50#8 [(0x80#8, d)] line := by
  have hd' : d.length ≤ 255 := by omega
  obtain ⟨t, -, h⟩ := C162_answer l (db := db) v c0 e0 hc hpr a hx (esv := 0x61#8) (by decide) (.inl rfl) (ps := [(0x80#8, d)])
    (by simp [hd']) (by simp) (by simp [codes]) ho he hp
  obtain ⟨eff, r1, r2⟩ := C148_refused hdb hm hrun hb loc own t profileEoj d hd h1
  obtain ⟨line, k1, k2⟩ := h (powerReply t profileEoj 0x50#8 d) [(0x80#8, d)]
    ⟨(by decide : ¬ IsSetGet 0x50#8), by simp [SectionOK, hd']⟩ rfl (by decide : (0x50#8 : Byte) ≠ 0x61#8) rfl
  exact ⟨_, _, line, eff, k1, r1, r2, k2⟩

/-- **C162.** A controller that searches finds the light, whatever either went through, if nobody wrote to the list of instances of the light: when
the answer comes, the controller has a node with the address of the light, and this node has the light. (The node does not stop
a write to that list.) With this, the commands above can be used. -/
theorem C162_found {e e2 : Endian} {db ldb : Db} (hdb : (ldb.getObject 0x00#8 0x00#8).isSome) {junk junk1 junk2 rnd : Nat → Byte}
    {tid0 : BitVec 32} {verbose : Bool} {maker : CInt} {bound : List String} {lamp0 lamp : Node} {es : List LightEvent}
    (hm : Light.main e ldb junk junk1 junk2 rnd tid0 verbose maker bound = .ok (some lamp0)) (hrun : lightRun e lamp0 es = .ok lamp)
    (hq : ∀ g, LightEvent.datagram g ∈ es → ¬ Overwrites profileEoj 0xD6#8 g) {c : Ctrl} (hpr : (destObj c.node profileEoj).isSome)
    (a own : String) (loc : Option String) :
    ∃ c1 f g eff, c.search e2 = .ok (c1, [.node (sends none f)]) ∧
      lamp.receive e loc (some own) (encode f) = .ok (lamp, eff) ∧ sentTo own eff = [sends (some own) g] ∧
      ∀ (d d' : Ctrl) (h h' : Heap) (ev : List CEvent) (orc : Oracle) (loc2 : Option String), CtrlReach e2 db d →
        d.receive e2 db orc h loc2 (some a) (encode g) = .ok (d', h', ev) →
        ∃ n, d'.getNode (some a) = some n ∧ n.address = some a ∧ (destObj n lightEoj).isSome := by
  obtain ⟨p, hp⟩ := Option.isSome_iff_exists.1 hpr
  obtain ⟨c1, t, hs, _⟩ := C69_search_request e2 c p hp
  obtain ⟨n0, o, h1, h2, _, _, _, _, h3⟩ := light_main e hdb junk junk1 junk2 rnd tid0 verbose maker bound
  obtain rfl : n0 = lamp0 := by rw [hm] at h1; exact (Option.some.inj (Res.ok.inj h1)).symm
  obtain ⟨hh, hn⟩ := lightRun_holds es n0 lamp h2.hs hrun hq h3
  obtain ⟨eff, r1, r2⟩ := read_one (e := e) hn hh t profileEoj loc own
  refine ⟨c1, _, _, eff, hs, r1, r2, ?_⟩
  intro d d' h h' ev orc loc2 hd hr
  rw [← List.append_nil (encode _)] at hr
  obtain ⟨⟨n, k1, k2⟩, _⟩ := C52_listed_instances hd orc loc2 a
    ⟨t, profileEoj, profileEoj, 0x72#8, .plain [(0xD6#8, [0x01#8, 0x02#8, 0x91#8, 0x01#8])]⟩ [0x01#8, 0x02#8, 0x91#8, 0x01#8]
    ⟨(by decide : ¬ IsSetGet 0x72#8), by simp [SectionOK]⟩ ⟨.inl rfl, rfl⟩ (by simp) _ hr
  have hl : firsts (listedCodes [0x01#8, 0x02#8, 0x91#8, 0x01#8]) = [lightEoj] := by decide
  rw [hl] at k2
  have hd' : CtrlReach e2 db d' := by rw [List.append_nil] at hr; exact .receive orc loc2 a _ hd hr
  refine ⟨n, k1, ((getNode_iff (reach_cinv hd') a n).1 k1).2, ?_⟩
  have hmem : lightEoj ∈ eojs n := by
    cases hk : d.getNode (some a) with
    | none =>
      rw [hk] at k2
      simp only at k2
      rw [k2]; decide
    | some n1 =>
      rw [hk] at k2
      rw [k2.1]
      by_cases hin : lightEoj ∈ eojs n1
      · exact List.mem_append_left _ hin
      · exact List.mem_append_right _ (List.mem_filter.2 ⟨by simp, by simpa using hin⟩)
  unfold destObj
  rw [List.find?_isSome]
  obtain ⟨y, hy, hye⟩ := List.mem_map.1 hmem
  exact ⟨y, hy, by simpa using hye⟩

/-- **C162.** One datagram hides the light: after anybody wrote an empty list of instances to its node profile, which the node
accepts although the property is read-only (C35), no controller that does not know the node yet finds the light by a search, however often the
light is stopped and started, until somebody writes the list again. -/
theorem C162_hidden {e e2 : Endian} {db ldb : Db} (hdb : (ldb.getObject 0x00#8 0x00#8).isSome) {junk junk1 junk2 rnd : Nat → Byte}
    {tid0 : BitVec 32} {verbose : Bool} {maker : CInt} {bound : List String} {lamp0 lamp : Node} {es : List LightEvent}
    (hm : Light.main e ldb junk junk1 junk2 rnd tid0 verbose maker bound = .ok (some lamp0)) (hrun : lightRun e lamp0 es = .ok lamp)
    (hq : ∀ g, LightEvent.datagram g ∈ es → ¬ Overwrites profileEoj 0xD6#8 g) (t0 : Byte × Byte) (src : Byte × Byte × Byte)
    (who : String) (loc0 : Option String) :
    ∃ lamp1 eff0, lamp.receive e loc0 (some who) (encode ⟨t0, src, profileEoj, 0x61#8, .plain [(0xD6#8, [0x00#8])]⟩) = .ok (lamp1, eff0) ∧
      ∀ (fs : List LightEvent) (lamp2 : Node), (∀ g, LightEvent.datagram g ∈ fs → ¬ Overwrites profileEoj 0xD6#8 g) →
        lightRun e lamp1 fs = .ok lamp2 →
        ∀ (c : Ctrl), (destObj c.node profileEoj).isSome → ∀ (a own : String) (loc : Option String),
          ∃ c1 f g eff, c.search e2 = .ok (c1, [.node (sends none f)]) ∧
            lamp2.receive e loc (some own) (encode f) = .ok (lamp2, eff) ∧ sentTo own eff = [sends (some own) g] ∧
            ∀ (d d' : Ctrl) (h h' : Heap) (ev : List CEvent) (orc : Oracle) (loc2 : Option String), CtrlReach e2 db d →
              d.getNode (some a) = none → d.receive e2 db orc h loc2 (some a) (encode g) = .ok (d', h', ev) →
              ∃ n, d'.getNode (some a) = some n ∧ destObj n lightEoj = none := by
  obtain ⟨n0, o, h1, h2, _, _, _, _, h3⟩ := light_main e hdb junk junk1 junk2 rnd tid0 verbose maker bound
  obtain rfl : n0 = lamp0 := by rw [hm] at h1; exact (Option.some.inj (Res.ok.inj h1)).symm
  obtain ⟨hh, hn⟩ := lightRun_holds es n0 lamp h2.hs hrun hq h3
  obtain ⟨lamp1, eff0, w1, w2, w3⟩ := write_one (e := e) hn (d := [0x00#8]) (by simp) hh t0 src loc0 who
  refine ⟨lamp1, eff0, w1, ?_⟩
  intro fs lamp2 hq2 hrun2 c hpr a own loc
  obtain ⟨p, hp⟩ := Option.isSome_iff_exists.1 hpr
  obtain ⟨c1, t, hs, _⟩ := C69_search_request e2 c p hp
  obtain ⟨hh2, hn2⟩ := lightRun_holds fs lamp1 lamp2 w3 hrun2 hq2 w2
  obtain ⟨eff, r1, r2⟩ := read_one (e := e) hn2 hh2 t profileEoj loc own
  refine ⟨c1, _, _, eff, hs, r1, r2, ?_⟩
  intro d d' h h' ev orc loc2 hd hk hr
  rw [← List.append_nil (encode _)] at hr
  obtain ⟨⟨n, k1, k2⟩, _⟩ := C52_listed_instances hd orc loc2 a
    ⟨t, profileEoj, profileEoj, 0x72#8, .plain [(0xD6#8, [0x00#8])]⟩ [0x00#8]
    ⟨(by decide : ¬ IsSetGet 0x72#8), by simp [SectionOK]⟩ ⟨.inl rfl, rfl⟩ (by simp) _ hr
  rw [hk] at k2
  have hl : firsts (listedCodes [0x00#8]) = [] := by decide
  simp only [hl, List.filter_nil] at k2
  refine ⟨n, k1, ?_⟩
  unfold destObj
  rw [List.find?_eq_none]
  intro y hy hye
  have hmem : objEoj y ∈ eojs n := List.mem_map.2 ⟨y, hy, rfl⟩
  have he : objEoj y = lightEoj := by simpa using hye
  rw [k2, he] at hmem
  revert hmem; decide

/-- what a device with a light says about itself, and a controller that found it -/
def lampList : Frame := ⟨(0, 9), profileEoj, profileEoj, 0x72#8, .plain [(0xD6#8, [0x01#8, 0x02#8, 0x91#8, 0x01#8])]⟩
def lampCtrl : Ctrl := kGet (kRecv kNew "10.0.0.7" lampList)
theorem lampCtrl_recv : kRecv kNew "10.0.0.7" lampList = .ok (lampCtrl, kHeap, [.status (some "10.0.0.7") .added]) := by with_unfolding_all rfl
example : CtrlReach .little [] lampCtrl ∧ (destObj lampCtrl.node profileEoj).isSome ∧
    ∃ n, lampCtrl.nodes[0]? = some n ∧ n.address = some "10.0.0.7" ∧ (destObj n lightEoj).isSome :=
  ⟨.receive kOrc none "10.0.0.7" _ kNew_reach lampCtrl_recv, by with_unfolding_all rfl, _, by with_unfolding_all rfl, by with_unfolding_all rfl,
    by with_unfolding_all rfl⟩

/-- switching the light does not write to its list of instances -/
example : ∀ g, LightEvent.datagram g ∈ [.datagram ⟨none, "10.0.0.9", encode (powerRequest (0, 1) profileEoj 0x61#8 [0x31#8])⟩, .restart ["10.0.0.2"]] →
    ¬ Overwrites profileEoj 0xD6#8 g := by
  intro g hg hov
  obtain ⟨f, rest, hf, hb, hx, -⟩ := hov
  have hd := decode_complete (r := rest) hf
  rw [← hb] at hd
  simp only [List.mem_cons, LightEvent.datagram.injEq, reduceCtorEq, List.not_mem_nil, or_false] at hg
  subst hg
  have h1 := decode_complete (f := powerRequest (0, 1) profileEoj 0x61#8 [0x31#8]) (r := []) (by decide)
  rw [List.append_nil] at h1
  simp only at hd; rw [h1] at hd; cases hd; revert hx; decide

/-- what is printed when the light is on -/
example : Line "10.0.0.2" lightEoj 0x72#8 [(0x80#8, [0x30#8])] "10.0.0.2 029101 72 800130 \n".toList := by
  refine ⟨"029101".toList, "72".toList, ["800130".toList], ?_, ?_, .cons ?_ .nil, by decide⟩ <;>
    repeat (first | exact Spells.nil | refine Spells.cons (by unfold IsDigit; decide) (by unfold IsDigit; decide) ?_)

end Uecho.Props
