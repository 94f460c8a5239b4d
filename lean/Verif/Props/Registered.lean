import Verif.Lemmas.Registered
import Verif.Props.Listener
/-! # C145: what is registered with a node and its objects stays registered -/
namespace Uecho.Props
open Uecho Uecho.Spec Uecho.Lemmas

theorem node_has (n : Node) : n.hasMessageListener = n.hasListener := by
  unfold Node.hasMessageListener; cases n.hasListener <;> rfl

theorem obj_has (o : Obj) : o.hasMessageListener = o.hasListener := by
  unfold Obj.hasMessageListener; cases o.hasListener <;> rfl

/-- **C145.** A datagram makes a node call its own listener, if there is one, and then that of the object the frame is for, if there are both. -/
theorem C145_called (e : Endian) (n n' : Node) (loc : Option String) (a : String) (f : Frame) (hf : f.WF) (rest : List Byte) (eff : List Effect)
    (h : n.receive e loc (some a) (encode f ++ rest) = .ok (n', eff)) :
    listeners eff = (if n.hasMessageListener then [.nodeListener] else []) ++
      match destObj n f.deoj with
      | none => []
      | some o => if o.hasMessageListener then [.objListener o.getCode] else [] := by
  have hsend : ∀ {l : List Effect}, (∀ x ∈ l, ∃ t d, x = .send t d) → listeners l = [] := by
    intro l hl
    unfold listeners
    rw [List.filter_eq_nil_iff]
    intro x hx
    obtain ⟨t, d, rfl⟩ := hl x hx
    simp
  rw [receive_parsed e n loc a hf] at h
  unfold Node.messageListener Message.getDestinationObjectCode at h
  have h1 : (reqMsg f (some a)).deoj = f.deoj := by simp [reqMsg, parsed]
  rw [h1, codeOfEoj_eq] at h
  simp only [Res.bind_ok, getObject_dest] at h
  rw [node_has]
  cases ho : destObj n f.deoj with
  | none =>
    simp only [ho, Res.pure_eq, Res.ok.injEq, Prod.mk.injEq] at h
    rw [← h.2]
    cases n.hasListener <;> rfl
  | some o =>
    have hc : BitVec.ofNat 32 (eojNat f.deoj) = o.getCode := by rw [getCode_ofNat, destObj_code ho]
    simp only [ho, hc] at h ⊢
    rw [obj_has]
    have h0 : ∀ l : List Effect, listeners ((if n.hasListener then [.nodeListener] else []) ++ (if o.hasListener then [.objListener o.getCode] else []) ++ l) =
        (if n.hasListener then [.nodeListener] else []) ++ (if o.hasListener then [.objListener o.getCode] else []) ++ listeners l := by
      intro l
      unfold listeners
      cases n.hasListener <;> cases o.hasListener <;> simp
    by_cases hr : Esv.isRequest (reqMsg f (some a)).esv = true
    · simp only [hr, if_true, Res.bind_eq_ok, Res.pure_eq, Res.ok.injEq, Prod.mk.injEq] at h
      obtain ⟨res, _, src, _, res2, _, ⟨o', res3, ann, k⟩, _, ⟨n2, e3⟩, ha, e4, hp, _, rfl⟩ := h
      rw [List.append_assoc, h0]
      have h3 : ∀ x ∈ e3, ∃ t d, x = .send t d := by
        rw [announceAll_eq] at ha
        intro x hx
        split at ha
        · simp only [Res.ok.injEq, Prod.mk.injEq] at ha
          obtain ⟨_, rfl⟩ := ha
          split at hx
          · obtain ⟨_, _, _, rfl⟩ := annEff_mem hx; exact ⟨_, _, rfl⟩
          · cases hx
        · simp only [Res.ok.injEq, Prod.mk.injEq] at ha
          obtain ⟨_, rfl⟩ := ha; cases hx
      have h4 : ∀ x ∈ e4, ∃ t d, x = .send t d := by
        intro x hx
        simp only at hp
        unfold Node.respond at hp
        split at hp
        · simp only [Res.ok.injEq] at hp; subst hp; cases hx
        · split at hp
          · simp only [Res.bind_eq_ok] at hp
            obtain ⟨b, _, sz, _, hp⟩ := hp
            split at hp
            · unfold Node.announceBytes at hp
              split at hp
              · simp only [Res.pure_eq, Res.ok.injEq] at hp; subst hp; cases hx
              · simp only [Res.bind_eq_ok, Res.pure_eq, Res.ok.injEq] at hp
                obtain ⟨d, _, rfl⟩ := hp
                rw [List.mem_singleton] at hx; exact ⟨_, _, hx⟩
            · unfold Node.sendBytes at hp
              split at hp
              · simp only [Res.ok.injEq] at hp; subst hp; cases hx
              · split at hp
                · simp only [Res.pure_eq, Res.ok.injEq] at hp; subst hp; cases hx
                · simp only [Res.bind_eq_ok, Res.pure_eq, Res.ok.injEq] at hp
                  obtain ⟨d, _, rfl⟩ := hp
                  rw [List.mem_singleton] at hx; exact ⟨_, _, hx⟩
          · simp only [Res.ok.injEq] at hp; subst hp; cases hx
      rw [hsend (l := e3 ++ e4) (fun x hx => (List.mem_append.1 hx).elim (h3 x) (h4 x))]
      simp
    · simp only [hr, Res.pure_eq, Res.ok.injEq, Prod.mk.injEq, Bool.false_eq_true, if_false] at h
      rw [← h.2]
      have := h0 []
      rw [List.append_nil] at this
      rw [this, hsend (by simp)]
      simp

/-- **C145.** The listener given to a node last is called for each datagram, whatever happened since. -/
theorem C145_node_listener {e : Endian} {db : Db} {n d : Node} {b : Bool} (h : NodeLater e db none (n.setMessageListener b) d)
    (loc : Option String) (a : String) (f : Frame) (hf : f.WF) (rest : List Byte) (d' : Node) (eff : List Effect)
    (hr : d.receive e loc (some a) (encode f ++ rest) = .ok (d', eff)) : Effect.nodeListener ∈ eff ↔ b = true := by
  have hl : d.hasListener = b := by
    clear hr
    induction h with
    | same => rfl
    | addObject o _ hs ih => rw [(addObject_regs e hs).1]; exact ih
    | setObject junk c _ hs ih =>
      unfold Node.setObject at hs
      split at hs
      · simp only [Res.ok.injEq, Prod.mk.injEq] at hs; rw [← hs.1]; exact ih
      · simp only [Res.bind_eq_ok] at hs
        obtain ⟨⟨o, a⟩, _, hs⟩ := hs
        rw [(addObject_regs e hs).1]; exact ih
    | clear _ _ ih => exact ih
    | setAddress a _ ih => exact ih
    | setMessageListener b h _ => exact absurd rfl h
    | setLastTid t _ ih => exact ih
    | nextTid _ ih => exact ih
    | @edit d d' eff i f _ _ _ hs ih =>
      unfold Node.onObj at hs
      cases hi : d.objs[i]? with
      | none => rw [hi] at hs; simp at hs
      | some o =>
        simp only [hi, Res.bind_eq_ok] at hs
        obtain ⟨⟨o', a⟩, _, hs⟩ := hs
        rw [(announceAll_regs e hs).lis]; exact ih
    | setManufacturerCode v is _ hs ih => rw [(setManufacturerCode_regs e v is _ _ _ hs).lis]; exact ih
    | announceMessage m _ hs ih => rw [announceMessage_ids e hs]; exact ih
    | sendMessage a m _ hs ih => rw [sendMessage_ids e hs]; exact ih
    | start b _ hs ih => rw [(start_regs e hs).lis]; exact ih
    | receive loc a x _ hs ih => rw [(receive_regs e hs).lis]; exact ih
  have hc := C145_called e d d' loc a f hf rest eff hr
  have hm : Effect.nodeListener ∈ eff ↔ Effect.nodeListener ∈ listeners eff := by
    unfold listeners; simp [List.mem_filter]
  rw [hm, hc, node_has, hl, List.mem_append]
  constructor
  · intro h
    rcases h with h | h
    · cases b
      · simp at h
      · rfl
    · split at h
      · cases h
      · split at h <;> simp at h
  · intro h; left; simp [h]

/-- **C145.** The listener and the handlers given to an object of a node last are those of the object, whatever happened since. -/
theorem C145_object {e : Endian} {db : Db} {n d : Node} {x : Byte × Byte × Byte} {o : Obj} (ho : destObj n x = some o) (h : NodeLater e db (some x) n d) :
    ∃ o', destObj d x = some o' ∧ o'.hasMessageListener = o.hasMessageListener ∧ o'.observers = o.observers := by
  have key : (destObj d x).map reg = some (reg o) := by
    have same : ∀ {a b : Node}, SameRegs a b → (destObj a x).map reg = some (reg o) → (destObj b x).map reg = some (reg o) := by
      intro a b hs h; rw [dest_reg, hs.objs, ← dest_reg]; exact h
    have add : ∀ {a b : Node} {p : Obj} {eff : List Effect} {r : Bool}, a.addObject e p = .ok (b, eff, r) →
        (destObj a x).map reg = some (reg o) → (destObj b x).map reg = some (reg o) := by
      intro a b p eff r hs h
      rw [dest_reg] at h ⊢
      rcases (addObject_regs e hs).2 with ⟨h1, _⟩ | ⟨h1, _⟩
      · rw [h1]; exact h
      · rw [h1, List.find?_append, h]; rfl
    induction h with
    | same => rw [ho]; rfl
    | addObject p _ hs ih => exact add hs ih
    | setObject junk c _ hs ih =>
      unfold Node.setObject at hs
      split at hs
      · simp only [Res.ok.injEq, Prod.mk.injEq] at hs; rw [← hs.1]; exact ih
      · simp only [Res.bind_eq_ok] at hs
        obtain ⟨⟨p, a⟩, _, hs⟩ := hs
        exact add hs ih
    | clear h _ => cases h
    | setAddress a _ ih => exact same ⟨rfl, rfl⟩ ih
    | setMessageListener b _ _ ih => rw [dest_reg] at ih ⊢; exact ih
    | setLastTid t _ ih => exact same ⟨rfl, rfl⟩ ih
    | nextTid _ ih => exact same ⟨rfl, rfl⟩ ih
    | @edit d d' eff i f _ hk hx hs ih =>
      unfold Node.onObj at hs
      cases hi : d.objs[i]? with
      | none => rw [hi] at hs; simp at hs
      | some p =>
        simp only [hi, Res.bind_eq_ok] at hs
        obtain ⟨⟨p', a⟩, hp, hs⟩ := hs
        refine same (announceAll_regs e hs) ?_
        obtain ⟨hk1, _⟩ := hk p p' a hp
        by_cases hpx : objEoj p = x
        · have hh := hx x rfl p p' a hpx hp
          rw [obj_has, obj_has] at hh
          have hreg : reg p' = reg p := by unfold reg; rw [hk1, hh.1, hh.2]
          exact same (SameRegs.set hi hreg d.lastTid) ih
        · have hd : destObj { d with objs := d.objs.set i p' } x = destObj d x := by
            unfold destObj
            have gen : ∀ (l : List Obj) (i : Nat), l[i]? = some p → (l.set i p').find? (fun o => objEoj o == x) = l.find? (fun o => objEoj o == x) := by
              intro l
              induction l with
              | nil => intro i hi; simp at hi
              | cons y ys ih =>
                intro i hi
                cases i with
                | zero =>
                  simp only [List.getElem?_cons_zero, Option.some.injEq] at hi
                  subst hi
                  rw [List.set_cons_zero, List.find?_cons_of_neg (by simpa [hk1] using hpx), List.find?_cons_of_neg (by simpa using hpx)]
                | succ i =>
                  rw [List.set_cons_succ, List.find?_cons, List.find?_cons, ih i (by simpa using hi)]
            exact gen _ _ hi
          rw [hd]; exact ih
    | setManufacturerCode v is _ hs ih => exact same (setManufacturerCode_regs e v is _ _ _ hs) ih
    | announceMessage m _ hs ih => rw [announceMessage_ids e hs]; exact same ⟨rfl, rfl⟩ ih
    | sendMessage a m _ hs ih => rw [sendMessage_ids e hs]; exact same ⟨rfl, rfl⟩ ih
    | start b _ hs ih => exact same (start_regs e hs) ih
    | receive loc a y _ hs ih => exact same (receive_regs e hs) ih
  cases hd : destObj d x with
  | none => rw [hd] at key; cases key
  | some o' =>
    rw [hd] at key
    simp only [Option.map_some, Option.some.injEq, reg, Prod.mk.injEq] at key
    exact ⟨o', rfl, by rw [obj_has, obj_has]; exact key.2.2, key.2.1⟩

/-- **C145.** Nothing is registered with a new node and with an object a node makes. -/
theorem C145_new {e : Endian} {db : Db} :
    (∀ junk rnd tid n eff, Node.new e db junk rnd tid = .ok (n, eff) → n.hasMessageListener = false ∧
      ∀ o ∈ n.objs, o.hasMessageListener = false ∧ o.observers = []) ∧
    ∀ junk n c n' eff r x o, Node.setObject e db junk n c = .ok (n', eff, r) → destObj n x = none → destObj n' x = some o →
      o.hasMessageListener = false ∧ o.observers = [] := by
  constructor
  · intro junk rnd tid n eff h
    unfold Node.new at h
    simp only [Res.bind_eq_ok, Res.pure_eq, Res.ok.injEq, Prod.mk.injEq] at h
    obtain ⟨p, hp, ⟨n1, e1, r⟩, h1, rfl, _⟩ := h
    obtain ⟨g1, g2⟩ := addObject_regs e h1
    have hr := nodeProfile_reg hp
    refine ⟨by rw [node_has]; exact g1, fun o ho => ?_⟩
    rcases g2 with ⟨_, y, hy, _⟩ | ⟨g2, _⟩
    · cases hy
    · have : reg o ∈ n1.objs.map reg := List.mem_map_of_mem ho
      rw [g2] at this
      simp only [List.map_nil, List.nil_append, List.mem_singleton, reg, Prod.mk.injEq] at this
      rw [obj_has]
      exact ⟨this.2.2.trans hr.2, this.2.1.trans hr.1⟩
  · intro junk n c n' eff r x o h hn ho
    unfold Node.setObject at h
    split at h
    · simp only [Res.ok.injEq, Prod.mk.injEq] at h; rw [← h.1, hn] at ho; cases ho
    · simp only [Res.bind_eq_ok] at h
      obtain ⟨⟨p, a⟩, hp, h⟩ := h
      obtain ⟨_, g2⟩ := addObject_regs e h
      have hr := setCode_reg hp
      have k := dest_reg n' x
      have k0 := dest_reg n x
      rw [hn] at k0
      rw [ho] at k
      rcases g2 with ⟨g2, _⟩ | ⟨g2, _⟩
      · rw [g2, ← k0] at k; cases k
      · rw [g2, List.find?_append, ← k0] at k
        simp only [Option.map_some, Option.map_none, Option.none_or, List.find?_cons, List.find?_nil] at k
        split at k
        · simp only [Option.some.injEq, reg, Prod.mk.injEq] at k
          rw [obj_has]
          exact ⟨k.2.2.trans hr.2, k.2.1.trans hr.1⟩
        · cases k

/-! ### Non-vacuity: a node with a listener and a device that has a listener and a handler; the device is written, the node cleared or started -/

def gDevice : Obj := { xDevice with hasListener := true }
def gNode : Node := { xNode with objs := [xProfile, gDevice] }
def gLater : Node := match gNode.start .little ["10.0.0.1"] with | .ok x => x.1 | .ub => gNode
def gWritten : Node := match gLater.receive .little none (some "10.0.0.2") (encode (xFrame 0x61 (.plain [(0x80, [0x31])]))) with
  | .ok x => x.1
  | .ub => gNode
def gEff (x : Res (Node × List Effect)) : List Effect := match x with | .ok x => x.2 | .ub => []

example : (xFrame 0x61 (.plain [(0x80, [0x31])])).WF ∧
    listeners (gEff (gLater.receive .little none (some "10.0.0.2") (encode (xFrame 0x61 (.plain [(0x80, [0x31])]))))) =
      [.nodeListener, .objListener 0x013001#32] ∧
    listeners (gEff (gWritten.receive .little none (some "10.0.0.2") (encode (xFrame 0x62 (.plain [(0x80, [])]))))) =
      [.nodeListener, .objListener 0x013001#32] := by
  refine ⟨by decide, ?_, ?_⟩ <;> decide +kernel

example (db : Db) : NodeLater .little db (some (0x01, 0x30, 0x01)) gNode gWritten ∧ destObj gNode (0x01, 0x30, 0x01) = some gDevice ∧
    gDevice.observers ≠ [] := by
  have h1 : gNode.start .little ["10.0.0.1"] = .ok (gLater, gEff (gNode.start .little ["10.0.0.1"])) := by with_unfolding_all rfl
  have h2 : gLater.receive .little none (some "10.0.0.2") (encode (xFrame 0x61 (.plain [(0x80, [0x31])]))) =
      .ok (gWritten, gEff (gLater.receive .little none (some "10.0.0.2") (encode (xFrame 0x61 (.plain [(0x80, [0x31])]))))) := by
    with_unfolding_all rfl
  exact ⟨.receive none _ _ (.start ["10.0.0.1"] .same h1) h2, rfl, by simp [gDevice, xDevice]⟩

/-- Writing a property is one of the calls in between. -/
example : KeepsIdentity (fun o => .ok (o.setPropertyData 0x80 [0x31])) ∧ ∀ x, KeepsHandlers x (fun o => .ok (o.setPropertyData 0x80 [0x31])) := by
  constructor
  · intro o o' a h
    cases h
    exact ⟨rfl, rfl⟩
  · intro x o o' a _ h
    cases h
    exact ⟨rfl, rfl⟩

end Uecho.Props
