import Verif.Lemmas.Oom
/-! # Ownership of blocks when requests are refused: messages -/
namespace Uecho.Lemmas.Short
open Uecho.Spec hiding propF secF msgF Call call calls Held onProp onMsg propsF
open Uecho Uecho.Spec.Short Uecho.Oom
open Uecho.Lemmas.Blocks (parseBody parse_eq)

variable {g : Bool}

/-- The properties in the slots are right. -/
def SlotsOk (l : List (Option OProp)) : Prop := ∀ p, some p ∈ l → POk p

/-- An array is right. -/
def SOk (s : OSec) : Prop := (slotsOf s.arr).length = s.cnt.toNat ∧ SlotsOk (slotsOf s.arr)

/-- A message is right. -/
def MOk (m : OMsg) : Prop := SOk m.plain ∧ SOk m.set ∧ SOk m.get

theorem slotsF_nil : slotsF [] = [] := rfl
theorem slotsF_cons (o : Option OProp) (l : List (Option OProp)) : slotsF (o :: l) = slotF o ++ slotsF l := by simp [slotsF]
theorem slotsF_append (l k : List (Option OProp)) : slotsF (l ++ k) = slotsF l ++ slotsF k := by simp [slotsF]

theorem SlotsOk.cons {o : Option OProp} {l : List (Option OProp)} (h1 : ∀ p, o = some p → POk p) (h2 : SlotsOk l) : SlotsOk (o :: l) := by
  intro p hp
  rcases List.mem_cons.1 hp with e | hp
  · exact h1 p e.symm
  · exact h2 p hp

theorem SlotsOk.tail {o : Option OProp} {l : List (Option OProp)} (h : SlotsOk (o :: l)) : SlotsOk l := fun p hp => h p (by simp [hp])

theorem sOk_empty : SOk ⟨0, none⟩ := ⟨rfl, fun _ h => by cases h⟩

theorem deleteAll_triple : ∀ l : List (Option OProp), OTriple g (slotsF l) (deleteAll l) (fun _ => []) (fun _ => True)
  | [] => .pure (.refl _) trivial
  | none :: l => by
    rw [slotsF_cons]
    exact deleteAll_triple l
  | some p :: l =>
    (propDelete_triple p).bind (K := slotsF l) (by rw [slotsF_cons]; exact .refl _) fun _ _ => (deleteAll_triple l).perm (by simp)

theorem secClear_triple (s : OSec) (hs : SOk s) : OTriple g (secF s) (secClear s) (fun _ => []) (fun r => r = ⟨0, none⟩) := by
  unfold secClear
  rw [if_pos (by rw [hs.1]; exact Nat.le_refl _), List.take_of_length_le (by rw [hs.1]; exact Nat.le_refl _)]
  refine (useOpt_triple s.arr).bind (K := slotsF (slotsOf s.arr)) (.refl _) fun _ _ => ?_
  refine (deleteAll_triple _).bind (K := ptr s.arr) (by perm) fun _ _ => ?_
  exact (freeOpt_triple s.arr).bind (K := []) (by simp) fun _ _ => .pure (by simp) rfl

/-- A message without blocks but its own. -/
def cleared (m : OMsg) : OMsg :=
  { m with bytes := none, fromA := none, toA := none, plain := ⟨0, none⟩, set := ⟨0, none⟩, get := ⟨0, none⟩ }

theorem cleared_F (m : OMsg) : msgF (cleared m) = [m.self] := by simp [msgF, cleared, ptr, secF, slotsOf, slotsF]

theorem cleared_ok (m : OMsg) : MOk (cleared m) := ⟨sOk_empty, sOk_empty, sOk_empty⟩

theorem msgClear_triple (m : OMsg) (hm : MOk m) : OTriple g (msgF m) (Oom.msgClear m) (fun r => [r.self]) (fun r => r = cleared m) := by
  refine (use_triple m.self).bind (K := ptr m.bytes ++ ptr m.fromA ++ ptr m.toA ++ secF m.plain ++ secF m.set ++ secF m.get)
    (by simp only [msgF] <;> perm) fun _ _ => ?_
  refine (freeOpt_triple m.bytes).bind (K := [m.self] ++ ptr m.fromA ++ ptr m.toA ++ secF m.plain ++ secF m.set ++ secF m.get) (by perm) fun _ _ => ?_
  refine (freeOpt_triple m.fromA).bind (K := [m.self] ++ ptr m.toA ++ secF m.plain ++ secF m.set ++ secF m.get) (by perm) fun _ _ => ?_
  refine (freeOpt_triple m.toA).bind (K := [m.self] ++ secF m.plain ++ secF m.set ++ secF m.get) (by perm) fun _ _ => ?_
  refine (secClear_triple m.plain hm.1).bind (K := [m.self] ++ secF m.set ++ secF m.get) (by perm) fun p hp => ?_
  refine (secClear_triple m.set hm.2.1).bind (K := [m.self] ++ secF m.get) (by perm) fun s hs => ?_
  refine (secClear_triple m.get hm.2.2).bind (K := [m.self]) (by perm) fun g hg => ?_
  subst hp hs hg
  exact .pure (by simp) rfl

theorem msgDelete_triple (m : OMsg) (hm : MOk m) : OTriple g (msgF m) (Oom.msgDelete m) (fun _ => []) (fun _ => True) :=
  (msgClear_triple m hm).bind (K := []) (by simp) fun r _ => by simpa using free_triple r.self

theorem msgNew_triple : OTriple g [] Oom.msgNew (opt msgF) (fun r => (g = true → r.isSome = true) ∧
    ∀ m, r = some m → MOk m ∧ m.plain = ⟨0, none⟩ ∧ m.set = ⟨0, none⟩ ∧ m.get = ⟨0, none⟩) := by
  refine malloc_triple.bind (K := []) (by simp) fun a ha => ?_
  cases a with
  | none => exact .pure (by simp [got, opt]) ⟨fun h => (by cases ha h), fun _ h => by cases h⟩
  | some a =>
    refine .pure (by simp [got, opt, msgF, ptr, secF, slotsOf, slotsF]) ⟨fun _ => rfl, fun _ h => ?_⟩
    cases h
    exact ⟨⟨sOk_empty, sOk_empty, sOk_empty⟩, rfl, rfl, rfl⟩

/-- Slots as `uecho_message_setopcep` fills them. -/
def NewSlots (g : Bool) (l : List (Option OProp)) : Prop := ∀ o ∈ l, (g = true → o.isSome = true) ∧ ∀ p, o = some p → Fresh p

theorem newSlots_triple : ∀ k, OTriple g [] (newSlots k) slotsF (fun l => l.length = k ∧ NewSlots g l)
  | 0 => .pure (.refl _) ⟨rfl, fun _ h => by cases h⟩
  | k + 1 => by
    refine propNew_triple.bind (K := []) (by simp) fun p hp => ?_
    refine (newSlots_triple k).bind (K := opt propF p) (by simp) fun ps hps => ?_
    refine .pure ?_ ⟨by simp [hps.1], fun o ho => ?_⟩
    · rw [slotsF_cons]
      cases p <;> simp only [opt, slotF] <;> perm
    · rcases List.mem_cons.1 ho with rfl | ho
      · exact hp
      · exact hps.2 o ho

theorem secSetOpc_triple (s : OSec) (hs : s.arr = none) (count : Byte) :
    OTriple g [] (secSetOpc s count) secF (fun r => SOk r ∧ r.cnt = count ∧ (slotsOf r.arr).length = count.toNat ∧ NewSlots g (slotsOf r.arr)) := by
  unfold secSetOpc
  split
  next h =>
    subst h
    refine .pure (by simp [secF, hs, ptr, slotsOf, slotsF]) ⟨⟨by simp [hs, slotsOf], fun p hp => ?_⟩, rfl, by simp [hs, slotsOf], fun o ho => ?_⟩
    · rw [hs] at hp; cases hp
    · rw [hs] at ho; cases ho
  next h =>
    refine mallocArray_triple.bind (K := []) (by simp) fun a ha => ?_
    cases a with
    | none => cases ha
    | some a =>
      refine (newSlots_triple count.toNat).bind (K := [a]) (by simp [got]) fun ps hps => ?_
      refine .pure (by simp only [secF, ptr, slotsOf] <;> perm) ⟨⟨hps.1, fun p hp => ?_⟩, rfl, hps.1, hps.2⟩
      exact ((hps.2 _ hp).2 p rfl).ok

theorem secAdd_triple (s : OSec) (hs : SOk s) (hc : s.cnt.toNat < 255) (p : OProp) (hp : POk p) :
    OTriple g (secF s ++ propF p) (secAdd s p) secF (fun r => SOk r ∧ slotsOf r.arr = slotsOf s.arr ++ [some p] ∧ r.arr.isSome = true) := by
  unfold secAdd
  have h1 : (s.cnt + 1).toNat = s.cnt.toNat + 1 := by rw [BitVec.toNat_add]; simp; omega
  rw [if_neg (fun e => by rw [e] at h1; simp at h1), if_pos (by rw [hs.1]; exact Nat.le_refl _),
    List.take_of_length_le (by rw [hs.1]; exact Nat.le_refl _)]
  refine mallocArray_triple.bind (K := secF s ++ propF p) (by simp) fun a ha => ?_
  cases a with
  | none => cases ha
  | some a =>
    refine (freeOpt_triple s.arr).bind (K := [a] ++ slotsF (slotsOf s.arr) ++ propF p) (by simp only [got, secF] <;> perm) fun _ _ => ?_
    refine .pure ?_ ⟨⟨?_, ?_⟩, rfl, rfl⟩
    · simp only [secF, ptr, slotsOf, slotsF_append, slotsF_cons, slotsF_nil, slotF]
      perm
    · show (slotsOf s.arr ++ [some _]).length = _
      rw [List.length_append, hs.1, h1]; rfl
    · intro q hq
      simp only [slotsOf, List.mem_append, List.mem_singleton] at hq
      rcases hq with hq | hq
      · exact hs.2 q hq
      · cases hq; exact hp

/-- The code and data of a slot. -/
def entry (o : Option OProp) : Option Prop8 := o.map fun p => (p.code, Heap.bytesOf p.data)

/-- The data of the first slot with the code. -/
def firstOf (code : Byte) (l : List (Option OProp)) : Option (List Byte) :=
  ((l.map entry).find? fun o => o.any fun e => e.1 == code).bind fun o => o.map (·.2)

theorem firstData_eq (code : Byte) (s : OSec) : firstData code s = firstOf code (slotsOf s.arr) := rfl

theorem setFirst_triple (code : Byte) (d : List Byte) : ∀ (l : List (Option OProp)), SlotsOk l →
    OTriple g (slotsF l) (setFirst code d l) (fun r => slotsF r.2)
      (fun r => SlotsOk r.2 ∧ r.2.length = l.length ∧ (g = true → r.1 = true) ∧
        (l.any (hasCode code) = true → r.1 = true → firstOf code r.2 = some d))
  | [], _ => .pure (.refl _) ⟨fun _ h => (by cases h), rfl, fun _ => rfl, fun h => (by cases h)⟩
  | none :: l, hl => by
    refine (setFirst_triple code d l hl.tail).bind (K := []) (by simp [slotsF_cons, slotF]) fun r hr => ?_
    refine .pure (by simp [slotsF_cons, slotF]) ⟨.cons (fun _ h => by cases h) hr.1, by simp [hr.2.1], hr.2.2.1, fun h h' => ?_⟩
    exact hr.2.2.2 (by simpa [hasCode] using h) h'
  | some p :: l, hl => by
    unfold setFirst
    split
    next hc =>
      refine (propSetData_triple p d).bind (K := slotsF l) (by simp [slotsF_cons, slotF]) fun r hr => ?_
      refine .pure (by simp [slotsF_cons, slotF]) ⟨.cons (fun _ h => by cases h; exact hr.1) hl.tail, rfl, hr.2.2.2.1, fun _ h' => ?_⟩
      have : r.2.code == code := by rw [hr.2.2.2.2]; exact hc
      simp [firstOf, entry, this, hr.2.1 h']
    next hc =>
      refine (setFirst_triple code d l hl.tail).bind (K := propF p) (by simp only [slotsF_cons, slotF] <;> perm) fun r hr => ?_
      refine .pure (by simp only [slotsF_cons, slotF] <;> perm) ⟨.cons (fun q h => by cases h; exact hl _ (by simp)) hr.1, by simp [hr.2.1], hr.2.2.1, fun h h' => ?_⟩
      have := hr.2.2.2 (by simpa [hasCode, hc] using h) h'
      simpa [firstOf, entry, hc] using this

theorem secSetProp_triple (s : OSec) (hs : SOk s) (hc : s.cnt.toNat < 255) (code : Byte) (d : List Byte) :
    OTriple g (secF s) (secSetProp s code d) (fun r => secF r.2)
      (fun r => SOk r.2 ∧ (g = true → r.1 = true) ∧ (r.1 = true → firstData code r.2 = some d)) := by
  unfold secSetProp
  rw [if_pos (by rw [hs.1]; exact Nat.le_refl _), List.take_of_length_le (by rw [hs.1]; exact Nat.le_refl _)]
  refine (useOpt_triple s.arr).bind (K := slotsF (slotsOf s.arr)) (.refl _) fun _ _ => ?_
  split
  next ha =>
    rcases e : s.arr with _ | ⟨a, ps⟩
    · rw [e] at ha; cases ha
    · have hs1 := hs.1
      have hs2 := hs.2
      rw [e] at ha hs1 hs2
      refine (setFirst_triple code d ps hs2).bind (K := [a]) (by simp only [ptr, slotsOf] <;> perm) fun r hr => ?_
      refine .pure (by simp only [secF, ptr, slotsOf] <;> perm) ⟨⟨?_, hr.1⟩, hr.2.2.1, hr.2.2.2 ha⟩
      simp only [slotsOf] at hs1 ⊢
      rw [hr.2.1, hs1]
  next ha =>
    refine propNew_triple.bind (K := secF s) (by simp [secF]) fun p hp => ?_
    cases p with
    | none => exact .pure (by simp [opt]) ⟨hs, fun h => absurd (hp.1 h) (by simp), fun h => by cases h⟩
    | some p =>
      refine (secAdd_triple s hs hc { p with code := code } (hp.2 p rfl).ok).bind (K := []) (by simp only [opt, propF] <;> perm) fun r hr => ?_
      obtain ⟨h1, h2, h3⟩ := hr
      rcases e : r.arr with _ | ⟨a, ps⟩
      · rw [e] at h3; cases h3
      · have hs1 := h1.1
        have hs2 := h1.2
        rw [e] at h2 hs1 hs2
        refine (setFirst_triple code d ps hs2).bind (K := [a]) (by simp only [secF, e, ptr, slotsOf] <;> perm) fun q hq => ?_
        refine .pure (by simp only [secF, ptr, slotsOf] <;> perm) ⟨⟨?_, hq.1⟩, hq.2.2.1, hq.2.2.2 ?_⟩
        · simp only [slotsOf] at hs1 ⊢
          rw [hq.2.1, hs1]
        · simp only [slotsOf] at h2
          simp [h2, hasCode]

/-! ### Parsing -/

/-- The contents of a slot; a slot that is NULL counts as a new property. -/
def vv : Option OProp → Property
  | none => Property.new
  | some p => { Property.new with code := p.code, data := Heap.bytesOf p.data }

theorem setNew (c : Byte) (b d : List Byte) :
    ((({ Property.new with code := c, data := b } : Property).setData d).1 : Property) = { Property.new with code := c, data := d } := by
  unfold Property.setData Property.setCount Property.clearData
  by_cases h : d.length = 0
  · have : d = [] := List.eq_nil_of_length_eq_zero h
    subst this
    simp
  · simp [h]

theorem secParse_triple (data : List Byte) (len : Nat) (ps : List (Option OProp)) : ∀ (off : Nat) {v : Bool × List Property × Nat},
    Message.propertyParse data len (ps.map vv) off = .ok v → SlotsOk ps → (g = true → ∀ o ∈ ps, o.isSome = true) →
    OTriple g (slotsF ps) (secParse data len ps off) (fun r => slotsF r.2.1)
      (fun r => SlotsOk r.2.1 ∧ r.2.1.length = ps.length ∧ (g = true → r.1 = v.1) ∧
        (r.1 = true → v = (true, r.2.1.map vv, r.2.2) ∧ ∀ o ∈ r.2.1, o.isSome = true)) := by
  induction ps with
  | nil =>
    intro off v h hok hg
    cases h
    exact .pure (.refl _) ⟨hok, rfl, fun _ => rfl, fun _ => ⟨rfl, fun _ h => by cases h⟩⟩
  | cons o ps ih =>
    intro off v h hok hg
    cases o with
    | none => exact .pure (.refl _) ⟨hok, rfl, fun h => absurd (hg h none (by simp)) (by simp), fun h => by cases h⟩
    | some p =>
      simp only [List.map_cons, Message.propertyParse] at h
      unfold secParse
      have cok : ∀ c : Byte, SlotsOk (some { p with code := c } :: ps) := fun c =>
        .cons (fun q h => by cases h; exact (hok p (by simp) : POk p)) hok.tail
      split
      next h0 =>
        rw [if_pos h0] at h
        cases h
        exact .pure (.refl _) ⟨hok, rfl, fun _ => rfl, fun h => by cases h⟩
      next h0 =>
        rw [if_neg h0, Res.bind_eq_ok] at h
        obtain ⟨c, hc, h⟩ := h
        refine (lift_triple hc).bind (K := slotsF (some p :: ps)) (by simp) fun c' e => ?_
        subst e
        refine (use_triple p.self).bind (K := strF p.name ++ ptr p.data ++ slotsF ps) (by rw [slotsF_cons]; simp only [slotF, propF] <;> perm) fun _ _ => ?_
        split
        next h1 =>
          rw [if_pos h1] at h
          cases h
          exact .pure (by rw [slotsF_cons]; simp only [slotF, propF] <;> perm) ⟨cok _, rfl, fun _ => rfl, fun h => by cases h⟩
        next h1 =>
          rw [if_neg h1, Res.bind_eq_ok] at h
          obtain ⟨cnt, hcnt, h⟩ := h
          refine (lift_triple hcnt).bind (K := slotsF (some p :: ps)) (by rw [slotsF_cons]; simp only [slotF, propF] <;> perm) fun cnt' e => ?_
          subst e
          split
          next h2 =>
            rw [if_pos h2] at h
            cases h
            exact .pure (by rw [slotsF_cons, slotsF_cons]; simp only [slotF, propF] <;> perm) ⟨cok _, rfl, fun _ => rfl, fun h => by cases h⟩
          next h2 =>
            rw [if_neg h2, Res.bind_eq_ok] at h
            obtain ⟨d, hd, h⟩ := h
            refine (lift_triple hd).bind (K := slotsF (some p :: ps)) (by simp) fun d' e => ?_
            subst e
            rw [Res.bind_eq_ok] at h
            obtain ⟨⟨ok, ps', off'⟩, hps, h⟩ := h
            cases h
            refine (propSetData_triple { p with code := c' } d').bind (K := slotsF ps)
              (by rw [slotsF_cons]; simp only [slotF, propF] <;> perm) fun q hq => ?_
            obtain ⟨q1, q2, q3, q4, q5⟩ := hq
            split
            next hq1 =>
              refine (ih _ hps hok.tail (fun h o ho => hg h o (by simp [ho]))).bind (K := propF q.2) (by perm) fun r hr => ?_
              obtain ⟨r1, r2, r3, r4⟩ := hr
              refine .pure (by rw [slotsF_cons]; simp only [slotF] <;> perm) ⟨.cons (fun _ h => by cases h; exact q1) r1, by simp [r2], r3, fun h => ?_⟩
              obtain ⟨e, r5⟩ := r4 h
              cases e
              refine ⟨?_, fun o ho => ?_⟩
              · simp only [List.map_cons, vv, q2 hq1, q5]
                exact congrArg (fun x => (true, x :: _, _)) (setNew c' _ d')
              · rcases List.mem_cons.1 ho with rfl | ho
                · rfl
                · exact r5 o ho
            next hq1 =>
              exact .pure (by rw [slotsF_cons]; simp only [slotF] <;> perm) ⟨.cons (fun _ h => by cases h; exact q1) hok.tail, rfl,
                fun h => absurd (q4 h) hq1, fun h => by cases h⟩

end Uecho.Lemmas.Short
