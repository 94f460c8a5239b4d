import Verif.Props.Listener
/-!
# Acknowledging notifications, and requests to all instances of a class

C132: a notification that requires a response (INFC, 0x74) is acknowledged (INFC_Res, 0x7A) to the sender with the
same codes and no data. C133: a request whose destination has instance code 0 is for every instance of
the class; one that names an instance is for that instance alone.
-/
namespace Uecho.Props
open Uecho Uecho.Spec Uecho.Lemmas

/-! ## C132 -/

/-- What the node does with an INFC, in terms of the properties of the addressed object: exactly one
answer if there is at most one property, the object has it and no handler refuses; otherwise none. -/
theorem infc_outcome {e : Endian} {n n' : Node} {loc : Option String} {a : String} {f : Frame}
    {qs : List Prop8} {rest : List Byte} {eff : List Effect} {o : Obj} (hf : f.WF) (hn : HandlersSet n)
    (hesv : f.esv = 0x74) (hb : f.body = .plain qs) (ho : destObj n f.deoj = some o)
    (hnode : o.hasNode = true) (h : n.receive e loc (some a) (encode f ++ rest) = .ok (n', eff)) :
    n' = n ∧ Outcome f a eff (if AtMostOneEach f ∧ AllGranted o f then
      some ⟨f.tid, f.deoj, f.seoj, 0x7A, .plain (readSection o.observers 0x74 o.getProperty qs)⟩ else none) := by
  have hreq : IsRequestEsv f.esv := by rw [hesv]; decide
  refine ⟨(C33_read_values e n n' loc a f qs rest eff o hf hn (.inr (.inr hesv)) hb ho h).1, ?_⟩
  have h1 := (receive_outcome hf hn ho hreq h).1
  have h2 : (if o.hasNode then (outEsv o f).map (respFrame o f) else none) =
      (if AtMostOneEach f ∧ AllGranted o f then
        some ⟨f.tid, f.deoj, f.seoj, 0x7A, .plain (readSection o.observers 0x74 o.getProperty qs)⟩ else none) := by
    rw [if_pos hnode]
    split
    · rename_i hg
      have hd : objEoj o = f.deoj := by
        have := List.find?_some ho; simpa using this
      have h7 : outEsv o f = some 0x7A := by
        unfold outEsv; rw [(allAccepted_iff hf).2 hg, responseEsv_true hreq, hesv]; rfl
      rw [h7]
      simp only [Option.map_some, respFrame, outBody, hb, hesv]
      rw [runRes_read (by decide)]
    · rename_i hg
      have : (outCnt o f == total f) = false := by
        cases hc : (outCnt o f == total f) with
        | false => rfl
        | true => exact absurd ((allAccepted_iff hf).1 hc) hg
      have h7 : outEsv o f = none := by
        unfold outEsv; rw [this, responseEsv_false hreq, hesv]; rfl
      rw [h7]; rfl
  rw [← h2]; exact h1

/-- **C132** (partial: one property, which the addressed object has itself and which no handler
refuses; the full claim has none of these conditions and is false, see the theorems below). The
notification leaves the node as it was and is answered to its sender with 0x7A, with the same transaction
id, the objects exchanged and the same code; the only datagram sent is this answer. -/
theorem C132_acknowledged_partial (e : Endian) (n n' : Node) (loc : Option String) (a : String) (f : Frame)
    (c : Byte) (d : List Byte) (rest : List Byte) (eff : List Effect) (o : Obj) (p : Property)
    (hf : f.WF) (hn : HandlersSet n) (hesv : f.esv = 0x74) (hb : f.body = .plain [(c, d)])
    (ho : destObj n f.deoj = some o) (hnode : o.hasNode = true)
    (hp : o.getProperty c = some p) (hacc : accepts o.observers 0x74 c p d = true)
    (h : n.receive e loc (some a) (encode f ++ rest) = .ok (n', eff)) :
    n' = n ∧ ∃ pre r, eff = pre ++ [sends (some a) r] ∧ (∀ to b, .send to b ∉ pre) ∧
      r.esv = 0x7A ∧ r.tid = f.tid ∧ r.seoj = f.deoj ∧ r.deoj = f.seoj ∧ r.body = .plain [(c, p.data)] := by
  obtain ⟨h1, pre, heff, hpre⟩ := infc_outcome hf hn hesv hb ho hnode h
  have hg : AtMostOneEach f ∧ AllGranted o f := by
    unfold AtMostOneEach AllGranted
    rw [hb]
    have : ¬ IsWriteEsv f.esv := by rw [hesv]; decide
    simp only [this, if_false, List.length_singleton, Nat.le_refl, List.mem_singleton, forall_eq, true_and]
    rw [hesv]; simp only [granted, hp, hacc]
  rw [if_pos hg] at heff
  refine ⟨h1, pre, _, heff, ?_, rfl, rfl, rfl, rfl, ?_⟩
  · intro to b hmem
    rcases hpre _ hmem with h | ⟨_, h⟩ | ⟨h, _⟩
    · cases h
    · cases h
    · rw [hesv] at h; exact absurd h (by decide)
  · simp only [readSection, List.map_cons, List.map_nil, hp, hacc, if_true]

/-- non-vacuity: the device has 0x80, nobody refuses -/
example : xDevice.getProperty 0x80 = some { Property.new with code := 0x80, attr := 0x53, data := [0x30], hasParent := true } ∧
    accepts xDevice.observers 0x74 0x80 { Property.new with code := 0x80, attr := 0x53, data := [0x30], hasParent := true } [0x42] = true ∧
    (xFrame 0x74 (.plain [(0x80, [0x42])])).WF := by
  refine ⟨by decide, by decide, ?_⟩
  simp [Frame.WF, xFrame, SectionOK, IsSetGet]

/-- **C132 violated: the addressed object's own data.** The answer to the notification is not without
data: it carries whatever the receiver's own property of that code holds. -/
theorem C132_data_violated (e : Endian) (n n' : Node) (loc : Option String) (a : String) (f : Frame)
    (c : Byte) (d : List Byte) (rest : List Byte) (eff : List Effect) (o : Obj) (p : Property)
    (hf : f.WF) (hn : HandlersSet n) (hesv : f.esv = 0x74) (hb : f.body = .plain [(c, d)])
    (ho : destObj n f.deoj = some o) (hnode : o.hasNode = true)
    (hp : o.getProperty c = some p) (hacc : accepts o.observers 0x74 c p d = true) (hd : p.data ≠ [])
    (h : n.receive e loc (some a) (encode f ++ rest) = .ok (n', eff)) :
    ¬ ∃ r, sends (some a) r ∈ eff ∧ r.esv = 0x7A ∧ r.body = .plain [(c, [])] := by
  obtain ⟨_, pre, r, heff, hpre, h1, h2, h3, h4, h5⟩ :=
    C132_acknowledged_partial e n n' loc a f c d rest eff o p hf hn hesv hb ho hnode hp hacc h
  rintro ⟨r', hmem, he, hbody⟩
  rw [heff] at hmem
  rcases List.mem_append.1 hmem with hm | hm
  · exact hpre _ _ hm
  · simp only [List.mem_singleton, sends, Effect.send.injEq, true_and] at hm
    have hm' := (List.map_inj_right (fun _ _ => Option.some.inj)).1 hm
    have hl := congrArg List.length hm'
    simp only [encode, h5, hbody, encodeBody, encodeSection, encodeProp, List.length_append, List.length_cons,
      List.length_nil, List.flatMap_cons, List.flatMap_nil, List.append_nil] at hl
    exact hd (List.length_eq_zero_iff.1 (by omega))

/-- non-vacuity: the device answers a notification of 0x80 = 0x42 with its own 0x80, which is 0x30 -/
example : xNode.receive .little none (some "10.0.0.2") (encode (xFrame 0x74 (.plain [(0x80, [0x42])]))) =
    .ok (xNode, [.nodeListener, sends (some "10.0.0.2")
      ⟨(0, 9), (0x01, 0x30, 0x01), (0x05, 0xFF, 0x01), 0x7A, .plain [(0x80, [0x30])]⟩]) := by
  with_unfolding_all rfl

/-- **C132 violated: unknown properties.** A controller that does not itself have the property
it is notified of acknowledges nothing: no datagram at all is sent. -/
theorem C132_unknown_violated (e : Endian) (n n' : Node) (loc : Option String) (a : String) (f : Frame)
    (qs : List Prop8) (rest : List Byte) (eff : List Effect) (o : Obj)
    (hf : f.WF) (hn : HandlersSet n) (hesv : f.esv = 0x74) (hb : f.body = .plain qs)
    (ho : destObj n f.deoj = some o) (hnode : o.hasNode = true)
    (hp : ∃ q ∈ qs, o.getProperty q.1 = none)
    (h : n.receive e loc (some a) (encode f ++ rest) = .ok (n', eff)) :
    ∀ to b, .send to b ∉ eff := by
  obtain ⟨_, pre, heff, hpre⟩ := infc_outcome hf hn hesv hb ho hnode h
  rw [if_neg (by
    rintro ⟨_, hg⟩
    unfold AllGranted at hg
    rw [hb] at hg
    have : ¬ IsWriteEsv f.esv := by rw [hesv]; decide
    simp only [this, if_false] at hg
    obtain ⟨q, hq, hnone⟩ := hp
    have := hg q hq
    simp [granted, hnone] at this)] at heff
  intro to b hmem
  rw [heff, List.append_nil] at hmem
  rcases hpre _ hmem with h | ⟨_, h⟩ | ⟨h, _⟩
  · cases h
  · cases h
  · rw [hesv] at h; exact absurd h (by decide)

/-- non-vacuity: the device has no 0xF1 -/
example : ∃ q ∈ [((0xF1 : Byte), ([0x42] : List Byte))], xDevice.getProperty q.1 = none := by decide

/-- **C132 violated: several properties.** A notification with two or more properties is not acknowledged
at all, even if the object has them all. -/
theorem C132_several_violated (e : Endian) (n n' : Node) (loc : Option String) (a : String) (f : Frame)
    (qs : List Prop8) (rest : List Byte) (eff : List Effect) (o : Obj)
    (hf : f.WF) (hn : HandlersSet n) (hesv : f.esv = 0x74) (hb : f.body = .plain qs)
    (ho : destObj n f.deoj = some o) (hnode : o.hasNode = true) (hlen : 2 ≤ qs.length)
    (h : n.receive e loc (some a) (encode f ++ rest) = .ok (n', eff)) :
    ∀ to b, .send to b ∉ eff := by
  obtain ⟨_, pre, heff, hpre⟩ := infc_outcome hf hn hesv hb ho hnode h
  rw [if_neg (by
    rintro ⟨hg, _⟩
    unfold AtMostOneEach at hg
    rw [hb] at hg
    simp only at hg
    omega)] at heff
  intro to b hmem
  rw [heff, List.append_nil] at hmem
  rcases hpre _ hmem with h | ⟨_, h⟩ | ⟨h, _⟩
  · cases h
  · cases h
  · rw [hesv] at h; exact absurd h (by decide)

/-- non-vacuity: the device has both properties; the listener is called and nothing is sent -/
example : xNode.receive .little none (some "10.0.0.2") (encode (xFrame 0x74 (.plain [(0x80, [0x42]), (0x8A, [1])]))) =
    .ok (xNode, [.nodeListener]) := by
  with_unfolding_all rfl

/-! ## C133 -/

/-- **C133** (partial: destinations naming an instance of the node; for instance code 0 see
`C133_all_instances_violated`). A request that names an instance changes at most that object: every
other object of the node is as before, in the same place. -/
theorem C133_named_instance_partial (e : Endian) (n n' : Node) (loc : Option String) (a : String) (f : Frame)
    (rest : List Byte) (eff : List Effect) (o : Obj) (hf : f.WF) (hn : HandlersSet n)
    (hreq : IsRequestEsv f.esv) (ho : destObj n f.deoj = some o)
    (h : n.receive e loc (some a) (encode f ++ rest) = .ok (n', eff)) :
    n'.objs.length = n.objs.length ∧
    ∀ (j : Nat) (y : Obj), n.objs[j]? = some y → (y.grp, y.cls, y.ins) ≠ f.deoj → n'.objs[j]? = some y := by
  obtain ⟨_, i, hi, _, hn', _⟩ := receive_outcome hf hn ho hreq h
  rw [hn']
  refine ⟨by simp, fun j y hj hne => ?_⟩
  have hij : i ≠ j := by
    rintro rfl
    rw [hi] at hj
    cases hj
    have := List.find?_some ho
    exact hne (by simpa [objEoj] using this)
  simp [List.getElem?_set_ne hij, hj]

/-- non-vacuity: a write to the device leaves the profile -/
example : xNode.objs[0]? = some xProfile ∧ (xProfile.grp, xProfile.cls, xProfile.ins) ≠ (xFrame 0x61 (.plain [(0x80, [1])])).deoj := by
  constructor
  · rfl
  · decide

/-- **C133 violated.** However many instances of the class the node has, a request to the
class with instance code 0 (all of them) is ignored by every one: nothing is changed, nothing is
answered, and only the message listener of the node sees it, unless the node has an object whose own
instance code is 0. -/
theorem C133_all_instances_violated (e : Endian) (n : Node) (loc : Option String) (a : String) (f : Frame)
    (g k : Byte) (rest : List Byte) (hf : f.WF) (hdest : f.deoj = (g, k, 0x00))
    (hins : ∀ o ∈ n.objs, o.ins ≠ 0x00) :
    n.receive e loc (some a) (encode f ++ rest) = .ok (n, if n.hasListener then [.nodeListener] else []) := by
  apply C36_unknown_object_ignored e n loc a f rest hf
  intro o ho heq
  rw [hdest] at heq
  exact hins o ho (by injection heq with _ h2; injection h2)

/-- non-vacuity: a node with two devices of class 0x0130, and a read request for all of them -/
example : ∀ o ∈ [xProfile, xDevice, { xDevice with ins := 0x02 }], o.ins ≠ 0x00 := by decide

end Uecho.Props
