import Verif.Lemmas.HeapMsg
/-! # Ownership of blocks: sequences of calls -/
namespace Uecho.Lemmas.Blocks
open Uecho Uecho.Spec Uecho.Heap

/-- The counts of all the messages are right. -/
def HeldOk (s : Held) : Prop := ∀ x ∈ s.msgs, MsgOk x.2

theorem pick_perm {α : Type} (f : α → List Nat) {h : Nat} : ∀ {l : List (Nat × α)} {a : α} {l' : List (Nat × α)},
    pick h l = some (a, l') → (l.flatMap (fun x => f x.2)).Perm (f a ++ l'.flatMap (fun x => f x.2)) := by
  intro l
  induction l with
  | nil => intro a l' e; cases e
  | cons x l ih =>
    intro a l' e
    simp only [pick] at e
    split at e
    · cases e; simp
    · simp only [Option.map_eq_some_iff] at e
      obtain ⟨⟨b, k⟩, e1, e2⟩ := e
      cases e2
      simp only [List.flatMap_cons]
      have := ih e1
      refine (this.append_left _).trans ?_
      perm

theorem pick_mem {α : Type} {h : Nat} : ∀ {l : List (Nat × α)} {a : α} {l' : List (Nat × α)},
    pick h l = some (a, l') → (∃ k, (k, a) ∈ l) ∧ ∀ x ∈ l', x ∈ l := by
  intro l
  induction l with
  | nil => intro a l' e; cases e
  | cons x l ih =>
    intro a l' e
    simp only [pick] at e
    split at e
    · cases e; exact ⟨⟨x.1, by simp⟩, fun y hy => by simp [hy]⟩
    · simp only [Option.map_eq_some_iff] at e
      obtain ⟨⟨b, k⟩, e1, e2⟩ := e
      cases e2
      obtain ⟨⟨k', h1⟩, h2⟩ := ih e1
      refine ⟨⟨k', by simp [h1]⟩, fun y hy => ?_⟩
      rcases List.mem_cons.1 hy with rfl | hy
      · simp
      · simp [h2 y hy]

theorem pick_ok {h : Nat} {l : List (Nat × HMsg)} {a : HMsg} {l' : List (Nat × HMsg)} (e : pick h l = some (a, l'))
    (ok : ∀ x ∈ l, MsgOk x.2) : MsgOk a ∧ ∀ x ∈ l', MsgOk x.2 :=
  ⟨by obtain ⟨⟨k, hk⟩, _⟩ := pick_mem e; exact ok _ hk, fun x hx => ok x ((pick_mem e).2 x hx)⟩

theorem Triple.perm {α : Type} {P P' : List Nat} {x : H α} {F : α → List Nat} {Q : α → Prop} (t : Triple P x F Q) (e : P'.Perm P) :
    Triple P' x F Q := fun rest m h => t rest m (h.perm e)

theorem onProp_triple {s : Held} (ok : HeldOk s) (h : Nat) {f : HProp → H HProp} (t : ∀ p, Triple (propF p) (f p) propF (fun _ => True)) :
    Triple s.blocks (onProp s h f) Held.blocks HeldOk := by
  unfold onProp
  rcases e : pick h s.props with _ | ⟨p, l⟩
  · exact .pure (.refl _) ok
  · refine (t p).bind (K := l.flatMap (fun x => propF x.2) ++ s.msgs.flatMap (fun x => msgF x.2))
      (by unfold Held.blocks; exact ((pick_perm propF e).append_right _).trans (by perm)) fun q _ => ?_
    exact .pure (by simp only [Held.blocks, List.flatMap_cons] <;> perm) ok

theorem onMsg_triple {s : Held} (ok : HeldOk s) (h : Nat) {f : HMsg → H HMsg} (t : ∀ p, MsgOk p → Triple (msgF p) (f p) msgF MsgOk) :
    Triple s.blocks (onMsg s h f) Held.blocks HeldOk := by
  unfold onMsg
  rcases e : pick h s.msgs with _ | ⟨p, l⟩
  · exact .pure (.refl _) ok
  · obtain ⟨o1, o2⟩ := pick_ok e ok
    refine (t p o1).bind (K := l.flatMap (fun x => msgF x.2) ++ s.props.flatMap (fun x => propF x.2))
      (by unfold Held.blocks; exact ((pick_perm msgF e).append_left _).trans (by perm)) fun q hq => ?_
    refine .pure (by simp only [Held.blocks, List.flatMap_cons] <;> perm) ?_
    intro x hx
    rcases List.mem_cons.1 hx with rfl | hx
    · exact hq
    · exact o2 x hx

theorem Triple.weak {α : Type} {P : List Nat} {x : H α} {F : α → List Nat} {Q R : α → Prop} (t : Triple P x F Q) (h : ∀ a, Q a → R a) :
    Triple P x F R := t.conseq (K := []) (by simp) fun a q => ⟨by simp, h a q⟩

theorem parse_defined {m : HMsg} (hm : MsgOk m) (data : List Byte) (len : Nat) (hl : len ≤ data.length) :
    ∃ v, m.val.parse data len = .ok v := by
  have h := parse_spec (m := m.val) 
    ⟨by simp only [HMsg.val, List.length_map]; exact hm.1, by simp only [HMsg.val, List.length_map]; exact hm.2.1,
      by simp only [HMsg.val, List.length_map]; exact hm.2.2⟩ data len hl
  cases hd : decode (data.take len) with
  | some x => obtain ⟨f, r⟩ := x; rw [hd] at h; exact ⟨_, h⟩
  | none => rw [hd] at h; obtain ⟨m', h, _⟩ := h; exact ⟨_, h⟩

theorem ok_cons {l : List (Nat × HMsg)} {h : Nat} {m : HMsg} (hm : MsgOk m) (hl : ∀ x ∈ l, MsgOk x.2) : ∀ x ∈ (h, m) :: l, MsgOk x.2 := by
  intro x hx
  rcases List.mem_cons.1 hx with rfl | hx
  · exact hm
  · exact hl x hx

theorem call_triple {s : Held} (ok : HeldOk s) (c : Call) : Triple s.blocks (call s c) Held.blocks HeldOk := by
  cases c with
  | propNew h =>
    simp only [call]
    split
    · exact propNew_triple.bind (K := s.blocks) (by simp) fun p _ => .pure (by simp only [Held.blocks, List.flatMap_cons] <;> perm) ok
    · exact .pure (.refl _) ok
  | propCode h c =>
    exact onProp_triple ok h fun p => (use_triple p.self).bind (K := strF p.name ++ ptr p.data) (by simp only [propF] <;> perm) fun _ _ =>
      .pure (by simp only [propF] <;> perm) trivial
  | propSetData h d => exact onProp_triple ok h fun p => (propSetData_triple p d).weak fun _ _ => trivial
  | propAddData h d => exact onProp_triple ok h fun p => (propAddData_triple p d).weak fun _ _ => trivial
  | propSetInteger h v size =>
    simp only [call]
    split
    next hs =>
      refine onProp_triple ok h fun p => ?_
      obtain ⟨bs, hb, _⟩ := integer2byte_ok v size hs.2
      exact (propSetInteger_triple p v size hb).weak fun _ _ => trivial
    · exact .pure (.refl _) ok
  | propSetName h v => exact onProp_triple ok h fun p => (propSetName_triple p v).weak fun _ _ => trivial
  | propRead h =>
    exact onProp_triple ok h fun p => (propRead_triple p).bind (K := []) (by simp) fun _ _ => .pure (by simp) trivial
  | propCopy h h' =>
    simp only [call]
    split
    · rcases e : pick h s.props with _ | ⟨p, l⟩
      · exact .pure (.refl _) ok
      · refine (propCopy_triple p).bind (K := l.flatMap (fun x => propF x.2) ++ s.msgs.flatMap (fun x => msgF x.2))
          (by unfold Held.blocks; exact ((pick_perm propF e).append_right _).trans (by perm)) fun q _ => ?_
        refine .pure ?_ ok
        simp only [Held.blocks, List.flatMap_cons]
        refine List.Perm.trans ?_ (((pick_perm propF e).symm.append_left (propF q)).append_right _)
        perm
    · exact .pure (.refl _) ok
  | propDelete h =>
    simp only [call]
    rcases e : pick h s.props with _ | ⟨p, l⟩
    · exact .pure (.refl _) ok
    · refine (propDelete_triple p).bind (K := l.flatMap (fun x => propF x.2) ++ s.msgs.flatMap (fun x => msgF x.2))
        (by unfold Held.blocks; exact ((pick_perm propF e).append_right _).trans (by perm)) fun q _ => ?_
      exact .pure (by simp [Held.blocks]) ok
  | msgNew h =>
    simp only [call]
    split
    · exact msgNew_triple.bind (K := s.blocks) (by simp) fun p hp =>
        .pure (by simp only [Held.blocks, List.flatMap_cons] <;> perm) (ok_cons hp.1 ok)
    · exact .pure (.refl _) ok
  | msgSearch h =>
    simp only [call]
    split
    · exact searchNew_triple.bind (K := s.blocks) (by simp) fun p hp =>
        .pure (by simp only [Held.blocks, List.flatMap_cons] <;> perm) (ok_cons hp.1 ok)
    · exact .pure (.refl _) ok
  | msgHeader h f =>
    exact onMsg_triple ok h fun m hm => (use_triple m.self).bind
      (K := ptr m.bytes ++ ptr m.fromA ++ ptr m.toA ++ secF m.plain ++ secF m.set ++ secF m.get) (by simp only [msgF] <;> perm) fun _ _ =>
        .pure (by simp only [msgF] <;> perm) hm
  | msgAdd h sec p =>
    simp only [call]
    split
    next m l q l' e1 e2 =>
      split
      next hc =>
        obtain ⟨o1, o2⟩ := pick_ok e1 ok
        have t : Triple (msgF m ++ propF q) (addTo m q sec) msgF MsgOk := by
          cases sec with
          | plain => exact (msgAdd_triple m o1 hc q).weak fun _ h => h.1
          | set => exact (msgAddSet_triple m o1 hc q).weak fun _ h => h.1
          | get => exact (msgAddGet_triple m o1 hc q).weak fun _ h => h.1
        refine t.bind (K := l'.flatMap (fun x => propF x.2) ++ l.flatMap (fun x => msgF x.2))
          (by unfold Held.blocks; exact ((pick_perm propF e2).append (pick_perm msgF e1)).trans (by perm)) fun r hr => ?_
        exact .pure (by simp only [Held.blocks, List.flatMap_cons] <;> perm) (ok_cons hr o2)
      · exact .pure (.refl _) ok
    next => exact .pure (.refl _) ok
  | msgSetProp h sec code d =>
    simp only [call]
    rcases e : pick h s.msgs with _ | ⟨m, l⟩
    · exact .pure (.refl _) ok
    · simp only
      split
      next hc =>
        obtain ⟨o1, o2⟩ := pick_ok e ok
        have t : Triple (msgF m) (setIn m code d sec) msgF MsgOk := by
          cases sec with
          | plain => exact (msgSetProp_triple m o1 hc code d).weak fun _ h => h.1
          | set => exact (msgSetPropSet_triple m o1 hc code d).weak fun _ h => h.1
          | get => exact (msgSetPropGet_triple m o1 hc code d).weak fun _ h => h.1
        refine t.bind (K := l.flatMap (fun x => msgF x.2) ++ s.props.flatMap (fun x => propF x.2))
          (by unfold Held.blocks; exact ((pick_perm msgF e).append_left _).trans (by perm)) fun r hr => ?_
        exact .pure (by simp only [Held.blocks, List.flatMap_cons] <;> perm) (ok_cons hr o2)
      · exact .pure (.refl _) ok
  | msgSetOpc h c =>
    simp only [call]
    rcases e : pick h s.msgs with _ | ⟨m, l⟩
    · exact .pure (.refl _) ok
    · simp only
      split
      next hc =>
        obtain ⟨o1, o2⟩ := pick_ok e ok
        refine (msgSetOpc_triple m o1 (Option.isNone_iff_eq_none.1 hc) c).bind (K := l.flatMap (fun x => msgF x.2) ++ s.props.flatMap (fun x => propF x.2))
          (by unfold Held.blocks; exact ((pick_perm msgF e).append_left _).trans (by perm)) fun r hr => ?_
        exact .pure (by simp only [Held.blocks, List.flatMap_cons] <;> perm) (ok_cons hr.1 o2)
      · exact .pure (.refl _) ok
  | msgParse h data len =>
    simp only [call]
    split
    next hl =>
      refine onMsg_triple ok h fun m hm => ?_
      obtain ⟨v, hv⟩ := parse_defined hm data len hl
      exact (msgParse_triple m hm data len hv).bind (K := []) (by simp) fun r hr => .pure (by simp) hr.1
    · exact .pure (.refl _) ok
  | msgSource h v => exact onMsg_triple ok h fun m hm => (msgSetSource_triple m hm v).weak fun _ h => h.1
  | msgDest h v => exact onMsg_triple ok h fun m hm => (msgSetDest_triple m hm v).weak fun _ h => h.1
  | msgBytes h => exact onMsg_triple ok h fun m hm => (msgGetBytes_triple m hm).weak fun _ ⟨_, e⟩ => e ▸ hm
  | msgSet h src =>
    simp only [call]
    rcases e : pick h s.msgs with _ | ⟨m, l⟩
    · exact .pure (.refl _) ok
    · obtain ⟨o1, o2⟩ := pick_ok e ok
      simp only
      rcases e' : pick src l with _ | ⟨n, l'⟩
      · exact .pure (.refl _) ok
      · obtain ⟨o3, o4⟩ := pick_ok e' o2
        refine (msgSet_triple m n o1 o3).bind (K := l'.flatMap (fun x => msgF x.2) ++ s.props.flatMap (fun x => propF x.2))
          (by unfold Held.blocks; exact (((pick_perm msgF e).trans ((pick_perm msgF e').append_left _)).append_left _).trans (by perm)) fun r hr => ?_
        exact .pure (by simp only [Held.blocks, List.flatMap_cons] <;> perm) (ok_cons hr.1 (ok_cons o3 o4))
  | msgCopy h h' =>
    simp only [call]
    split
    · rcases e : pick h s.msgs with _ | ⟨p, l⟩
      · exact .pure (.refl _) ok
      · obtain ⟨o1, o2⟩ := pick_ok e ok
        refine (msgCopy_triple p o1).bind (K := l.flatMap (fun x => msgF x.2) ++ s.props.flatMap (fun x => propF x.2))
          (by unfold Held.blocks; exact ((pick_perm msgF e).append_left _).trans (by perm)) fun q hq => ?_
        refine .pure ?_ (ok_cons hq.1 ok)
        simp only [Held.blocks, List.flatMap_cons]
        refine List.Perm.trans ?_ (((pick_perm msgF e).symm.append_left (msgF q)).append_left _)
        perm
    · exact .pure (.refl _) ok
  | msgEquals h h' =>
    simp only [call]
    rcases e : pick h s.msgs with _ | ⟨m, l⟩
    · exact .pure (.refl _) ok
    · obtain ⟨o1, o2⟩ := pick_ok e ok
      simp only
      rcases e' : pick h' l with _ | ⟨n, l'⟩
      · exact .pure (.refl _) ok
      · obtain ⟨o3, o4⟩ := pick_ok e' o2
        refine (msgEquals_triple m n o1 o3).bind (K := l'.flatMap (fun x => msgF x.2) ++ s.props.flatMap (fun x => propF x.2))
          (by unfold Held.blocks; exact (((pick_perm msgF e).trans ((pick_perm msgF e').append_left _)).append_left _).trans (by perm)) fun r hr => ?_
        obtain ⟨a, b, rfl⟩ := hr
        exact .pure (by simp only [Held.blocks, List.flatMap_cons] <;> perm) (ok_cons o1 (ok_cons o3 o4))
  | msgClear h =>
    exact onMsg_triple ok h fun m hm => (msgClear_triple m hm).conseq (K := []) (by simp) fun r hr => by
      subst hr; exact ⟨by rw [cleared_F]; simp [cleared], cleared_ok m⟩
  | msgDelete h =>
    simp only [call]
    rcases e : pick h s.msgs with _ | ⟨p, l⟩
    · exact .pure (.refl _) ok
    · obtain ⟨o1, o2⟩ := pick_ok e ok
      refine (msgDelete_triple p o1).bind (K := l.flatMap (fun x => msgF x.2) ++ s.props.flatMap (fun x => propF x.2))
        (by unfold Held.blocks; exact ((pick_perm msgF e).append_left _).trans (by perm)) fun q _ => ?_
      exact .pure (by simp only [Held.blocks] <;> perm) o2

theorem calls_triple (cs : List Call) : ∀ {s : Held}, HeldOk s → Triple s.blocks (calls cs s) Held.blocks HeldOk := by
  induction cs with
  | nil => intro s ok; exact .pure (.refl _) ok
  | cons c cs ih => intro s ok; exact (call_triple ok c).bind (K := []) (by simp) fun s' ok' => (ih ok').perm (by simp)

theorem newProps_size (k : Nat) : Triple [] (newProps k) propsF (fun ps => ps.length = k ∧ (propsF ps).length = 2 * k) := by
  induction k with
  | zero => exact .pure (.refl _) ⟨rfl, rfl⟩
  | succ k ih =>
    have t : Triple [] propNew propF (fun p => (propF p).length = 2) :=
      malloc_triple.bind (K := []) (by simp) fun a _ =>
        strNew_triple.bind (K := [a]) (by simp) fun s hs =>
          .pure (by simp only [propF, ptr] <;> perm) (by simp [propF, strF, ptr, hs])
    exact t.bind (K := []) (by simp) fun p hp => ih.bind (K := propF p) (by simp) fun ps hps =>
      .pure (by rw [propsF_cons]; perm) ⟨by simp [hps.1], by rw [propsF_cons, List.length_append, hp, hps.2]; omega⟩

/-- `uecho_message_setopc` forgets the array it replaces. -/
theorem msgSetOpc_forgets (m : HMsg) (hm : MsgOk m) (c : Byte) (hc : c ≠ 0) :
    Triple ([m.self] ++ ptr m.bytes ++ ptr m.fromA ++ ptr m.toA ++ secF m.set ++ secF m.get) (msgSetOpc m c) msgF
      (fun r => MsgOk r ∧ (secF r.plain).length = 1 + 2 * c.toNat) := by
  refine (use_triple m.self).bind (K := ptr m.bytes ++ ptr m.fromA ++ ptr m.toA ++ secF m.set ++ secF m.get) (by perm) fun _ _ => ?_
  have t : Triple [] (secSetOpc m.plain c) secF (fun r => SecOk r ∧ (secF r).length = 1 + 2 * c.toNat) := by
    unfold secSetOpc
    rw [if_neg hc]
    refine malloc_triple.bind (K := []) (by simp) fun a _ => ?_
    refine (newProps_size c.toNat).bind (K := [a]) (by simp) fun ps hps => ?_
    exact .pure (by simp only [secF, ptr, slotsOf] <;> perm) ⟨by simp [SecOk, slotsOf, hps.1], by simp [secF, ptr, slotsOf, hps.2]; omega⟩
  refine t.bind (K := [m.self] ++ ptr m.bytes ++ ptr m.fromA ++ ptr m.toA ++ secF m.set ++ secF m.get) (by simp) fun s hs => ?_
  exact .pure (by simp only [msgF] <;> perm) ⟨⟨hs.1, hm.2⟩, hs.2⟩

end Uecho.Lemmas.Blocks
