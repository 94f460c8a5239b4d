import Verif.Lemmas.Light
/-!
# C148: the light of the example program

Specification: `Verif/Spec/Light.lean`.
-/
namespace Uecho.Props
open Uecho Uecho.Spec Uecho.Lemmas

/-- **C148.** If the database has the definitions all devices share, the program gets to its loop, on a host of either byte order, whatever
memory contains, with or without `-v` and `-m`; the node has its profile and the light; and no sequence of datagrams and restarts makes
it do something undefined. -/
theorem C148_runs (e : Endian) {db : Db} (hdb : (db.getObject 0x00#8 0x00#8).isSome) (junk junk1 junk2 rnd : Nat → Byte) (tid0 : BitVec 32)
    (verbose : Bool) (maker : CInt) (bound : List String) :
    ∃ n, Light.main e db junk junk1 junk2 rnd tid0 verbose maker bound = .ok (some n) ∧ n.objs.map objEoj = [profileEoj, lightEoj] ∧
      ∀ es, ∃ n' b, lightRun e n es = .ok n' ∧ PowerAfter 0x30#8 es b := by
  obtain ⟨n, o, h1, h2, _, _, h3, _⟩ := light_main e hdb junk junk1 junk2 rnd tid0 verbose maker bound
  refine ⟨n, h1, h3, fun es => ?_⟩
  obtain ⟨n', h4⟩ := lightRun_total (e := e) es n h2.hs
  obtain ⟨b, h5⟩ := light_power es 0x30#8
  exact ⟨n', b, h4, h5⟩

example : (stdDb.getObject 0x00#8 0x00#8).isSome := by decide +kernel

/-- the power of the light after events -/
theorem light_after {e : Endian} {db : Db} (hdb : (db.getObject 0x00#8 0x00#8).isSome) {junk junk1 junk2 rnd : Nat → Byte} {tid0 : BitVec 32}
    {verbose : Bool} {maker : CInt} {bound : List String} {n n' : Node} {es : List LightEvent} {b : Byte}
    (hm : Light.main e db junk junk1 junk2 rnd tid0 verbose maker bound = .ok (some n)) (hrun : lightRun e n es = .ok n')
    (hb : PowerAfter 0x30#8 es b) : LightInv n' b := by
  obtain ⟨n0, o, h1, h2, _⟩ := light_main e hdb junk junk1 junk2 rnd tid0 verbose maker bound
  rw [hm] at h1
  simp only [Res.ok.injEq, Option.some.injEq] at h1
  subst h1
  exact lightRun_inv hb h2 hrun

theorem allSent_calls (n : Node) (o : Obj) (l : List Effect) : allSent (calls n o ++ l) = allSent l := by
  unfold allSent calls
  rw [List.filter_append]
  split <;> split <;> simp

/-- what is sent for a request for the power alone -/
theorem light_reply (e : Endian) {n : Node} {b : Byte} (hi : LightInv n b) (loc : Option String) (a : String) (tid : Byte × Byte)
    (src : Byte × Byte × Byte) {esv : Byte} (hr : IsRequestEsv esv) (hs : ¬ IsSetGet esv) {d : List Byte} (hd : d.length < 256) :
    ∃ o p n' eff, destObj n lightEoj = some o ∧ o.observers = lightHandlers ∧ o.hasNode = true ∧ o.getProperty 0x80#8 = some p ∧ p.data = [b] ∧
      n.receive e loc (some a) (encode (powerRequest tid src esv d)) = .ok (n', eff) ∧
      (outObj o (powerRequest tid src esv d) = o → n' = n) ∧
      allSent eff = allSent (respEff o (powerRequest tid src esv d) a) := by
  obtain ⟨o, p, h1, h2, h3, h4, h5, h6⟩ := hi.light
  have hf : (powerRequest tid src esv d).WF := ⟨hs, by
    unfold SectionOK
    simp
    omega⟩
  obtain ⟨i, hx, _, h⟩ := receive_request e n loc a hf [] h1 hr (fun x hx => hi.hs o (destObj_mem h1) x hx)
  rw [List.append_nil] at h
  have hann : outAnn o (powerRequest tid src esv d) = [] := by
    simp only [outAnn, powerRequest, runAnn, List.append_nil, stepAnn, h4]
    split
    · have hno : (Attr.readWrite &&& (Attr.anno ||| Attr.annoRequired) != 0#32) = false := by decide
      unfold PropertyList.ann Property.setData Property.isAnnounceable
      split
      · rfl
      · have hc : (p.setCount d.length).attr = Attr.readWrite := by unfold Property.setCount Property.clearData; split <;> exact h6
        simp only [hc]
        rw [if_neg]
        simp [hno]
    · rfl
  rw [hann] at h
  refine ⟨o, p, _, _, h1, h3, h2, h4, h5, h, ?_, ?_⟩
  · intro ho
    rw [ho]
    simp only [List.length_nil, iterT, ite_self]
    have : n.objs.set i o = n.objs := by
      rw [List.getElem?_eq_some_iff] at hx
      obtain ⟨hlt, hx⟩ := hx
      rw [← hx]; exact List.set_getElem_self hlt
    rw [this]
  · simp only [annEff, ite_self, List.append_nil, allSent_calls]

/-- the answer to a request to read the power -/
theorem light_read {e : Endian} {n' : Node} {b : Byte} (hi : LightInv n' b) (loc : Option String) (a : String) (tid : Byte × Byte)
    (src : Byte × Byte × Byte) : ∃ eff, n'.receive e loc (some a) (encode (powerRequest tid src 0x62#8 [])) = .ok (n', eff) ∧
      allSent eff = [sends (some a) (powerReply tid src 0x72#8 [b])] := by
  obtain ⟨o, p, n2, eff, h1, h3, h2, h4, h5, h, hsame, hs⟩ :=
    light_reply e hi loc a tid src (esv := 0x62#8) (by decide) (by decide) (d := []) (by decide)
  have hg : accepts lightHandlers 0x62#8 0x80#8 p [] = true := rfl
  refine ⟨eff, ?_, ?_⟩
  · rw [h, hsame]
    simp only [outObj, powerRequest, runObj, stepObj]
    simp [isW]
  · rw [hs]
    simp only [respEff, outEsv, outCnt, powerRequest, runVer, granted, h4, h3, hg, h2, respFrame, outBody, runRes, stepRes, h5]
    rfl

/-- **C148.** Whatever happened to the light, a node that asks for its power is told the last byte that was written to it, or on (0x30) if
none was, with nothing else sent and nothing changed. `PowerAfter` says which byte that is. -/
theorem C148_power_partial {e : Endian} {db : Db} (hdb : (db.getObject 0x00#8 0x00#8).isSome) {junk junk1 junk2 rnd : Nat → Byte}
    {tid0 : BitVec 32} {verbose : Bool} {maker : CInt} {bound : List String} {n n' : Node} {es : List LightEvent} {b : Byte}
    (hm : Light.main e db junk junk1 junk2 rnd tid0 verbose maker bound = .ok (some n)) (hrun : lightRun e n es = .ok n')
    (hb : PowerAfter 0x30#8 es b) (loc : Option String) (a : String) (tid : Byte × Byte) (src : Byte × Byte × Byte) :
    ∃ eff, n'.receive e loc (some a) (encode (powerRequest tid src 0x62#8 [])) = .ok (n', eff) ∧
      allSent eff = [sends (some a) (powerReply tid src 0x72#8 [b])] := by
  have hi := light_after hdb hm hrun hb
  exact light_read hi loc a tid src

/-- a controller switches the light off, and the light is restarted -/
example : PowerAfter 0x30#8 [.datagram ⟨none, "10.0.0.9", encode (powerRequest (0, 1) (0x05, 0xFF, 0x01) 0x60#8 [0x31#8])⟩,
    .restart ["10.0.0.2"]] 0x31#8 :=
  .written (f := powerRequest (0, 1) (0x05, 0xFF, 0x01) 0x60#8 [0x31#8])
    ⟨⟨(by decide : ¬ IsSetGet 0x60#8), by simp [SectionOK]⟩, ⟨[], by simp⟩, rfl, .inl rfl⟩ (.restart .done)

/-- **C148.** Whatever happened to the light, any single byte written to its power is accepted and is its power from then on: the light
answers that it was written, and that is all it sends. -/
theorem C148_written {e : Endian} {db : Db} (hdb : (db.getObject 0x00#8 0x00#8).isSome) {junk junk1 junk2 rnd : Nat → Byte}
    {tid0 : BitVec 32} {verbose : Bool} {maker : CInt} {bound : List String} {n n' : Node} {es : List LightEvent} {b : Byte}
    (hm : Light.main e db junk junk1 junk2 rnd tid0 verbose maker bound = .ok (some n)) (hrun : lightRun e n es = .ok n')
    (hb : PowerAfter 0x30#8 es b) (loc : Option String) (a : String) (tid : Byte × Byte) (src : Byte × Byte × Byte) (x : Byte) :
    ∃ n2 eff, n'.receive e loc (some a) (encode (powerRequest tid src 0x61#8 [x])) = .ok (n2, eff) ∧
      allSent eff = [sends (some a) (powerReply tid src 0x71#8 [])] := by
  have hi := light_after hdb hm hrun hb
  obtain ⟨o, p, n2, eff, h1, h3, h2, h4, h5, h, hsame, hs⟩ :=
    light_reply e hi loc a tid src (esv := 0x61#8) (by decide) (by decide) (d := [x]) (by simp)
  have hg : accepts lightHandlers 0x61#8 0x80#8 p [x] = true := rfl
  refine ⟨n2, eff, h, ?_⟩
  rw [hs]
  simp only [respEff, outEsv, outCnt, powerRequest, runVer, granted, h4, h3, hg, h2, respFrame, outBody, runRes, stepRes, h5]
  rfl

/-- **C148.** Data that is not one byte is refused: the light says so with an error response that carries the data back, nothing else is
sent, and the light is as it was. -/
theorem C148_refused {e : Endian} {db : Db} (hdb : (db.getObject 0x00#8 0x00#8).isSome) {junk junk1 junk2 rnd : Nat → Byte}
    {tid0 : BitVec 32} {verbose : Bool} {maker : CInt} {bound : List String} {n n' : Node} {es : List LightEvent} {b : Byte}
    (hm : Light.main e db junk junk1 junk2 rnd tid0 verbose maker bound = .ok (some n)) (hrun : lightRun e n es = .ok n')
    (hb : PowerAfter 0x30#8 es b) (loc : Option String) (a : String) (tid : Byte × Byte) (src : Byte × Byte × Byte) (d : List Byte)
    (hd : d.length < 256) (h1 : d.length ≠ 1) :
    ∃ eff, n'.receive e loc (some a) (encode (powerRequest tid src 0x61#8 d)) = .ok (n', eff) ∧
      allSent eff = [sends (some a) (powerReply tid src 0x50#8 d)] := by
  have hi := light_after hdb hm hrun hb
  have hno : ∀ p, Light.requestHandler p 0x61#8 d = false := by
    intro p
    match d with
    | [] => rfl
    | [_] => simp at h1
    | _ :: _ :: _ => rfl
  obtain ⟨o, p, n2, eff, h1, h3, h2, h4, h5, h, hsame, hs⟩ :=
    light_reply e hi loc a tid src (esv := 0x61#8) (by decide) (by decide) (d := d) hd
  have hg : accepts lightHandlers 0x61#8 0x80#8 p d = false := by rw [light_accepts (.inr rfl)]; exact hno p
  refine ⟨eff, ?_, ?_⟩
  · rw [h, hsame]
    simp only [outObj, powerRequest, runObj, stepObj, granted, h4, h3, hg]
    simp
  · rw [hs]
    simp only [respEff, outEsv, outCnt, powerRequest, runVer, granted, h4, h3, hg, h2, respFrame, outBody, runRes, stepRes, h5]
    rfl

/-- **C148 violated: values.** The definition of the power allows on (0x30) and off (0x31); any other byte can be written and is the power
from then on. -/
theorem C148_values_violated {e : Endian} {db : Db} (hdb : (db.getObject 0x00#8 0x00#8).isSome) {junk junk1 junk2 rnd : Nat → Byte}
    {tid0 : BitVec 32} {verbose : Bool} {maker : CInt} {bound : List String} {n n' : Node} {es : List LightEvent} {b : Byte}
    (hm : Light.main e db junk junk1 junk2 rnd tid0 verbose maker bound = .ok (some n)) (hrun : lightRun e n es = .ok n')
    (hb : PowerAfter 0x30#8 es b) (loc : Option String) (a : String) (tid : Byte × Byte) (src : Byte × Byte × Byte) (x : Byte)
    (_ : x ≠ 0x30#8) (_ : x ≠ 0x31#8) :
    ∃ n2 eff eff2, n'.receive e loc (some a) (encode (powerRequest tid src 0x61#8 [x])) = .ok (n2, eff) ∧
      n2.receive e loc (some a) (encode (powerRequest tid src 0x62#8 [])) = .ok (n2, eff2) ∧
      allSent eff2 = [sends (some a) (powerReply tid src 0x72#8 [x])] := by
  obtain ⟨n2, eff, h, hs⟩ := C148_written hdb hm hrun hb loc a tid src x
  have hw : WritesLight ⟨loc, a, encode (powerRequest tid src 0x61#8 [x])⟩ (powerRequest tid src 0x61#8 [x]) :=
    ⟨⟨(by decide : ¬ IsSetGet 0x61#8), by simp [SectionOK]⟩, ⟨[], by simp⟩, rfl, .inr (.inl rfl)⟩
  have hi := light_write (light_after hdb hm hrun hb) hw h
  obtain ⟨eff2, h2, hs2⟩ := light_read (e := e) hi loc a tid src
  exact ⟨n2, eff, eff2, h, h2, hs2⟩

/-- **C148 violated: announcements.** The definition of the power says that a change is announced: the property is read-write and announced
there, and the light makes it read-write only. A write of the power, other than what it was, is answered to the node that asked, and the
others are not told (`C148_written`). -/
theorem C148_announced_violated {e : Endian} {db : Db} (hdb : (db.getObject 0x00#8 0x00#8).isSome) {junk junk1 junk2 rnd : Nat → Byte}
    {tid0 : BitVec 32} {verbose : Bool} {maker : CInt} {bound : List String} {n n' : Node} {es : List LightEvent} {b : Byte}
    (hm : Light.main e db junk junk1 junk2 rnd tid0 verbose maker bound = .ok (some n)) (hrun : lightRun e n es = .ok n')
    (hb : PowerAfter 0x30#8 es b) (loc : Option String) (a : String) (tid : Byte × Byte) (src : Byte × Byte × Byte) (x : Byte)
    (_ : x ≠ b) : ∃ n2 eff, n'.receive e loc (some a) (encode (powerRequest tid src 0x61#8 [x])) = .ok (n2, eff) ∧
      ∀ f, sends none f ∉ eff := by
  obtain ⟨n2, eff, h, hs⟩ := C148_written hdb hm hrun hb loc a tid src x
  refine ⟨n2, eff, h, fun f hf => ?_⟩
  have : sends none f ∈ allSent eff := by
    unfold allSent; rw [List.mem_filter]; exact ⟨hf, rfl⟩
  rw [hs] at this
  simp [sends] at this

/-- the standard says that the power of a light is read, written and announced when it changes -/
example : ((stdDb.getObject 0x02#8 0x91#8).bind fun o => PropertyList.find o.props 0x80#8).map
    (fun p => (p.isReadRequired || p.isReadable, p.isWriteRequired || p.isWritable, p.isAnnounceable)) = some (true, true, true) := by
  decide +kernel

/-- **C148 violated: the maker.** With `-m`, the profile of the node has the code of the maker the user gave, but the light still has
0xFFFFF0: it is added to the node after the code was set. -/
theorem C148_maker_violated (e : Endian) {db : Db} (hdb : (db.getObject 0x00#8 0x00#8).isSome) (junk junk1 junk2 rnd : Nat → Byte) (tid0 : BitVec 32)
    (verbose : Bool) (maker : CInt) (hmaker : 0 < maker.toInt) (bound : List String) :
    ∃ n o q bs, Light.main e db junk junk1 junk2 rnd tid0 verbose maker bound = .ok (some n) ∧
      destObj n profileEoj = some q ∧ dataOf q 0x8A#8 = some bs ∧ bs.length = 3 ∧ beValue bs = maker.toNat % 2 ^ 24 ∧
      destObj n lightEoj = some o ∧ dataOf o 0x8A#8 = some [0xFF#8, 0xFF#8, 0xF0#8] := by
  obtain ⟨n, o, h1, _, h2, h3, _, h4, _⟩ := light_main e hdb junk junk1 junk2 rnd tid0 verbose maker bound
  obtain ⟨q, bs, g1, g2, g3, g4⟩ := h4 hmaker
  exact ⟨n, o, q, bs, h1, g1, g2, g3, g4, h2, by rw [dataOf_dat]; exact h3⟩

/-- **C148 violated: the Get map.** The light has 25 properties that can be read, and says of itself that they are 50. -/
theorem C148_map_violated : ∃ junk1 junk2 o bs, Light.new stdDb junk1 junk2 = .ok (some o) ∧ dataOf o 0x9F#8 = some (50#8 :: bs) ∧
    (o.props.filter Property.isReadable).length = 25 := by
  have h : (match Light.new stdDb (fun _ => 0#8) (fun _ => 0#8) with
    | .ok (some o) => decide (((dataOf o 0x9F#8).bind List.head?) = some 50#8) && decide ((o.props.filter Property.isReadable).length = 25)
    | _ => false) = true := by decide +kernel
  refine ⟨fun _ => 0#8, fun _ => 0#8, ?_⟩
  cases hn : Light.new stdDb (fun _ => 0#8) (fun _ => 0#8) with
  | ub => rw [hn] at h; cases h
  | ok r =>
    cases r with
    | none => rw [hn] at h; cases h
    | some o =>
      rw [hn] at h
      simp only [Bool.and_eq_true, decide_eq_true_eq] at h
      cases hd : dataOf o 0x9F#8 with
      | none => rw [hd] at h; simp at h
      | some l =>
        rw [hd] at h
        cases l with
        | nil => simp at h
        | cons b bs =>
          simp at h
          exact ⟨o, bs, rfl, by rw [hd, h.1], h.2⟩

end Uecho.Props
