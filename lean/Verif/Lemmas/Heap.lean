import Verif.Spec.Heap
/-! # Ownership of blocks: triples, and one for each function of property.c and message.c -/
namespace Uecho.Lemmas.Blocks
open Uecho Uecho.Spec Uecho.Heap

/-- The heap consists of the blocks `own` and the blocks `rest` of others, all different. -/
def Owns (own rest : List Nat) (m : Mem) : Prop :=
  m.live.Perm (own ++ rest) ∧ m.live.Nodup ∧ ∀ a ∈ m.live, a < m.next

/-- Run with the blocks `P`, the code is defined, its result satisfies `Q`, and it leaves the blocks `F`; the blocks of others stay. -/
def Triple {α : Type} (P : List Nat) (x : H α) (F : α → List Nat) (Q : α → Prop) : Prop :=
  ∀ (rest : List Nat) (m : Mem), Owns P rest m → ∃ a m', x m = .ok (a, m') ∧ Owns (F a) rest m' ∧ Q a

/-- Permutations of concatenations, by counting. -/
macro "perm" : tactic =>
  `(tactic| (refine List.perm_iff_count.2 fun _ => ?_; simp only [List.count_append, List.count_nil] <;> omega))

theorem Owns.perm {P P' rest : List Nat} {m : Mem} (h : Owns P rest m) (e : P.Perm P') : Owns P' rest m :=
  ⟨h.1.trans (e.append_right _), h.2⟩

theorem Triple.pure {α : Type} {P : List Nat} {a : α} {F : α → List Nat} {Q : α → Prop} (e : P.Perm (F a)) (q : Q a) :
    Triple P (Pure.pure a) F Q :=
  fun _ m h => ⟨a, m, rfl, h.perm e, q⟩

theorem Triple.bind {α β : Type} {P0 P K : List Nat} {x : H α} {g : α → H β} {F : α → List Nat} {Q : α → Prop} {G : β → List Nat}
    {R : β → Prop} (t : Triple P x F Q) (e : P0.Perm (P ++ K)) (k : ∀ a, Q a → Triple (F a ++ K) (g a) G R) :
    Triple P0 (x >>= g) G R := by
  intro rest m h
  have h := h.perm e
  obtain ⟨a, m1, e1, o1, q1⟩ := t (K ++ rest) m ⟨by simpa using h.1, h.2⟩
  obtain ⟨b, m2, e2, o2, q2⟩ := k a q1 rest m1 ⟨by simpa using o1.1, o1.2⟩
  refine ⟨b, m2, ?_, o2, q2⟩
  show (x m >>= fun r => g r.1 r.2) = _
  rw [e1]
  exact e2

theorem Triple.conseq {α : Type} {P0 P K : List Nat} {x : H α} {F G : α → List Nat} {Q R : α → Prop} (t : Triple P x F Q)
    (e : P0.Perm (P ++ K)) (k : ∀ a, Q a → (F a ++ K).Perm (G a) ∧ R a) : Triple P0 x G R := by
  intro rest m h
  have h := h.perm e
  obtain ⟨a, m1, e1, o1, q1⟩ := t (K ++ rest) m ⟨by simpa using h.1, h.2⟩
  refine ⟨a, m1, e1, ?_, (k a q1).2⟩
  have : Owns (F a ++ K) rest m1 := ⟨by simpa using o1.1, o1.2⟩
  exact this.perm (k a q1).1

/-- A step that leaves what it owns. -/
theorem Triple.seq {α β : Type} {P0 P K : List Nat} {x : H α} {g : α → H β} {F : α → List Nat} {Q : α → Prop} {G : β → List Nat}
    {R : β → Prop} (t : Triple P x F Q) (e : P0.Perm (P ++ K)) (k : ∀ a, Q a → Triple (F a ++ K) (g a) G R) :
    Triple P0 (x >>= g) G R := t.bind e k

theorem malloc_triple : Triple [] malloc (fun a => [a]) (fun _ => True) := by
  intro rest m h
  refine ⟨m.next, _, rfl, ⟨?_, ?_, ?_⟩, trivial⟩
  · simpa using h.1
  · exact List.nodup_cons.2 ⟨fun c => absurd (h.2.2 _ c) (Nat.lt_irrefl _), h.2.1⟩
  · intro a ha
    rcases List.mem_cons.1 ha with rfl | ha
    · exact Nat.lt_succ_self _
    · exact Nat.lt_succ_of_lt (h.2.2 a ha)

theorem free_triple (a : Nat) : Triple [a] (free a) (fun _ => []) (fun _ => True) := by
  intro rest m h
  have hm : a ∈ m.live := h.1.mem_iff.2 (by simp)
  refine ⟨(), { m with live := m.live.erase a }, by simp [free, hm], ⟨?_, h.2.1.erase _, fun b hb => h.2.2 b (List.mem_of_mem_erase hb)⟩, trivial⟩
  simpa using h.1.erase a

theorem use_triple (a : Nat) : Triple [a] (use a) (fun _ => [a]) (fun _ => True) := by
  intro rest m h
  have hm : a ∈ m.live := h.1.mem_iff.2 (by simp)
  exact ⟨(), m, by simp [use, hm], h, trivial⟩

theorem lift_triple {α : Type} {x : Res α} {a : α} (h : x = .ok a) : Triple [] (lift x) (fun _ => []) (fun b => b = a) := by
  intro rest m o
  exact ⟨a, m, by simp [lift, h], o, rfl⟩

theorem freeOpt_triple {α : Type} (p : Option (Nat × α)) : Triple (ptr p) (freeOpt p) (fun _ => []) (fun _ => True) := by
  cases p with
  | none => exact .pure (.refl _) trivial
  | some p => exact free_triple p.1

theorem useOpt_triple {α : Type} (p : Option (Nat × α)) : Triple (ptr p) (useOpt p) (fun _ => ptr p) (fun _ => True) := by
  cases p with
  | none => exact .pure (.refl _) trivial
  | some p => exact use_triple p.1

theorem realloc_triple {α : Type} (p : Option (Nat × α)) : Triple (ptr p) (realloc p) (fun a => [a]) (fun _ => True) :=
  (freeOpt_triple p).bind (K := []) (by simp) fun _ _ => malloc_triple

/-! ### Strings -/

theorem strNew_triple : Triple [] strNew strF (fun s => s.val = none) :=
  malloc_triple.bind (K := []) (by simp) fun _ _ => .pure (by simp [strF, ptr]) rfl

theorem strClear_triple (s : HStr) : Triple (strF s) (strClear s) (fun s' => [s'.self]) (fun s' => s' = { s with val := none }) :=
  (use_triple s.self).bind (K := ptr s.val) (.refl _) fun _ _ =>
    (freeOpt_triple s.val).bind (K := [s.self]) (by perm) fun _ _ => .pure (by simp) rfl

theorem strDelete_triple (s : HStr) : Triple (strF s) (strDelete s) (fun _ => []) (fun _ => True) :=
  (strClear_triple s).bind (K := []) (by simp) fun s' _ => by simpa using free_triple s'.self

theorem strSetValue_triple (s : HStr) (v : Option String) :
    Triple (strF s) (strSetValue s v) strF (fun s' => s'.val.map (·.2) = match v with | none => s.val.map (·.2) | some t => some t) := by
  cases v with
  | none => exact .pure (.refl _) rfl
  | some t =>
    refine (strClear_triple s).bind (K := []) (by simp) fun s' _ => ?_
    exact malloc_triple.bind (K := [s'.self]) (by simp) fun a _ => .pure (by simp only [strF, ptr] <;> perm) rfl

theorem strRead_triple (s : HStr) : Triple (strF s) (strRead s) (fun _ => strF s) (fun v => v = s.val.map (·.2)) :=
  (use_triple s.self).bind (K := ptr s.val) (.refl _) fun _ _ =>
    (useOpt_triple s.val).bind (K := [s.self]) (by perm) fun _ _ => .pure (by simp only [strF] <;> perm) rfl

/-! ### Properties -/

theorem propNew_triple : Triple [] propNew propF (fun p => p.val = Property.new) :=
  malloc_triple.bind (K := []) (by simp) fun a _ =>
    strNew_triple.bind (K := [a]) (by simp) fun s hs =>
      .pure (by simp only [propF, ptr] <;> perm) (by simp [HProp.val, Property.new, bytesOf, hs])

theorem propClearData_triple (p : HProp) :
    Triple ([p.self] ++ ptr p.data) (propClearData p) (fun q => [q.self]) (fun q => q = { p with data := none }) :=
  (use_triple p.self).bind (K := ptr p.data) (.refl _) fun _ _ =>
    (freeOpt_triple p.data).bind (K := [p.self]) (by perm) fun _ _ => .pure (by simp) rfl

theorem propDelete_triple (p : HProp) : Triple (propF p) (propDelete p) (fun _ => []) (fun _ => True) :=
  (use_triple p.self).bind (K := strF p.name ++ ptr p.data) (by simp only [propF] <;> perm) fun _ _ =>
    (strDelete_triple p.name).bind (K := [p.self] ++ ptr p.data) (by perm) fun _ _ =>
      (propClearData_triple p).bind (K := []) (by simp) fun q _ => by simpa using free_triple q.self

theorem propSetCount_triple (p : HProp) (n : Nat) :
    Triple ([p.self] ++ ptr p.data) (propSetCount p n) (fun q => [q.self] ++ ptr q.data)
      (fun q => (n = 0 ∧ q = { p with data := none }) ∨ (n ≠ 0 ∧ ∃ a, q = { p with data := some (a, List.replicate n 0) })) := by
  refine (propClearData_triple p).bind (K := []) (by simp) fun q hq => ?_
  subst hq
  split
  next h => exact .pure (by simp [ptr]) (Or.inl ⟨h, rfl⟩)
  next h =>
    exact malloc_triple.bind (K := [p.self]) (by simp) fun a _ => .pure (by simp only [ptr] <;> perm) (Or.inr ⟨h, a, rfl⟩)

theorem propSetData_triple (p : HProp) (d : List Byte) :
    Triple (propF p) (propSetData p d) propF (fun q => q.val = (p.val.setData d).1 ∧ q.code = p.code) := by
  refine (propSetCount_triple p d.length).bind (K := strF p.name) (by simp only [propF] <;> perm) fun q hq => ?_
  rcases hq with ⟨h0, rfl⟩ | ⟨h0, a, rfl⟩
  · refine .pure (by simp only [propF, ptr] <;> perm) ⟨?_, rfl⟩
    have : d = [] := List.eq_nil_of_length_eq_zero h0
    subst this
    simp [HProp.val, Property.setData, Property.setCount, Property.clearData, bytesOf]
  · refine (use_triple a).bind (K := [p.self] ++ strF p.name) (by simp only [ptr] <;> perm) fun _ _ => ?_
    refine .pure (by simp only [propF, ptr] <;> perm) ⟨?_, rfl⟩
    simp [HProp.val, Property.setData, Property.setCount, Property.clearData, bytesOf, h0]

theorem propAddData_triple (p : HProp) (d : List Byte) :
    Triple (propF p) (propAddData p d) propF (fun q => q.val = (p.val.addData d).1) := by
  unfold propAddData
  split
  next h => exact .pure (.refl _) (by simp [Property.addData, h])
  next h =>
    refine (use_triple p.self).bind (K := strF p.name ++ ptr p.data) (by simp only [propF] <;> perm) fun _ _ => ?_
    refine (realloc_triple p.data).bind (K := [p.self] ++ strF p.name) (by perm) fun a _ => ?_
    exact .pure (by simp only [propF, ptr] <;> perm) (by simp [Property.addData, h, HProp.val, bytesOf])

theorem propSetInteger_triple (p : HProp) (v : CInt) (size : Nat) {b : List Byte} (hb : integer2byte v size = .ok b) :
    Triple (propF p) (propSetInteger p v size) propF (fun q => q.val = (p.val.setData b).1) := by
  refine malloc_triple.bind (K := propF p) (by simp) fun t _ => ?_
  refine (lift_triple hb).bind (K := [t] ++ propF p) (by simp) fun b' hb' => ?_
  subst hb'
  refine (use_triple t).bind (K := propF p) (by perm) fun _ _ => ?_
  refine (propSetData_triple p b').bind (K := [t]) (by perm) fun q hq => ?_
  exact (free_triple t).bind (K := propF q) (by perm) fun _ _ => .pure (by simp) hq.1

theorem propSetName_triple (p : HProp) (v : Option String) :
    Triple (propF p) (propSetName p v) propF
      (fun q => q.val = (match v with | none => p.val | some t => p.val.setName (some t))) := by
  refine (use_triple p.self).bind (K := strF p.name ++ ptr p.data) (by simp only [propF] <;> perm) fun _ _ => ?_
  refine (strSetValue_triple p.name v).bind (K := [p.self] ++ ptr p.data) (by perm) fun s hs => ?_
  refine .pure (by simp only [propF] <;> perm) ?_
  cases v <;> simp [HProp.val, hs, Property.setName]

theorem propRead_triple (p : HProp) : Triple (propF p) (propRead p) (fun _ => propF p) (fun d => d = bytesOf p.data) :=
  (use_triple p.self).bind (K := strF p.name ++ ptr p.data) (by simp only [propF] <;> perm) fun _ _ =>
    (useOpt_triple p.data).bind (K := [p.self] ++ strF p.name) (by perm) fun _ _ => .pure (by simp only [propF] <;> perm) rfl

theorem propCopy_triple (p : HProp) :
    Triple (propF p) (propCopy p) (fun q => propF q ++ propF p) (fun q => q.val = p.val.copy ∧ q.code = p.code) := by
  refine propNew_triple.bind (K := propF p) (by simp) fun q hq => ?_
  refine (use_triple p.self).bind (K := strF p.name ++ ptr p.data ++ propF q) (by simp only [propF] <;> perm) fun _ _ => ?_
  refine (strRead_triple p.name).bind (K := [p.self] ++ ptr p.data ++ propF q) (by perm) fun n hn => ?_
  refine (propSetName_triple { q with code := p.code } n).bind (K := propF p) (by simp only [propF] <;> perm) fun r hr => ?_
  refine (propRead_triple p).bind (K := propF r) (by perm) fun d hd => ?_
  refine (propSetData_triple { r with attr := p.attr } d).conseq (K := propF p) (by simp only [propF] <;> perm) fun s hs => ⟨.refl _, ?_⟩
  subst hn hd
  have e : ({ r with attr := p.attr } : HProp).val = { r.val with attr := p.attr } := rfl
  have e2 : ({ q with code := p.code } : HProp).val = { q.val with code := p.code } := rfl
  refine ⟨?_, ?_⟩
  · rw [hs.1, e, hr, e2, hq]
    have hn : p.val.name = p.name.val.map (·.2) := rfl
    have hd : p.val.data = bytesOf p.data := rfl
    have hc : p.val.code = p.code := rfl
    have ha : p.val.attr = p.attr := rfl
    rw [Property.copy, hn, hd, hc, ha]
    cases p.name.val <;> rfl
  · rw [hs.2]
    show r.code = p.code
    have : r.val.code = p.code := by
      rw [hr, e2]
      cases p.name.val <;> rfl
    exact this

/-! ### Property arrays -/

/-- The array has as many slots as the count says. -/
def SecOk (s : HSec) : Prop := (slotsOf s.arr).length = s.cnt.toNat

theorem propsF_cons (p : HProp) (ps : List HProp) : propsF (p :: ps) = propF p ++ propsF ps := by simp [propsF]
theorem propsF_append (l l' : List HProp) : propsF (l ++ l') = propsF l ++ propsF l' := by simp [propsF]
theorem propsF_nil : propsF [] = [] := rfl

theorem deleteAll_triple (ps : List HProp) : Triple (propsF ps) (deleteAll ps) (fun _ => []) (fun _ => True) := by
  induction ps with
  | nil => exact .pure (.refl _) trivial
  | cons p ps ih => exact (propDelete_triple p).bind (K := propsF ps) (by rw [propsF_cons]) fun _ _ => by simpa using ih

theorem secClear_triple (s : HSec) (hs : SecOk s) : Triple (secF s) (secClear s) (fun _ => []) (fun r => r = ⟨0, none⟩) := by
  unfold secClear
  rw [if_pos (by rw [hs]; exact Nat.le_refl _), List.take_of_length_le (by rw [hs]; exact Nat.le_refl _)]
  exact (useOpt_triple s.arr).bind (K := propsF (slotsOf s.arr)) (.refl _) fun _ _ =>
    (deleteAll_triple _).bind (K := ptr s.arr) (by perm) fun _ _ =>
      (freeOpt_triple s.arr).bind (K := []) (by simp) fun _ _ => .pure (by simp) rfl

theorem newProps_triple (k : Nat) : Triple [] (newProps k) propsF (fun ps => ps.map HProp.val = List.replicate k Property.new) := by
  induction k with
  | zero => exact .pure (.refl _) rfl
  | succ k ih =>
    exact propNew_triple.bind (K := []) (by simp) fun p hp =>
      ih.bind (K := propF p) (by simp) fun ps hps => .pure (by rw [propsF_cons]; perm) (by simp [hp, hps, List.replicate_succ])

theorem secSetOpc_triple (s : HSec) (hs : s.arr = none) (count : Byte) :
    Triple [] (secSetOpc s count) secF (fun r => SecOk r ∧ r.cnt = count ∧
      (slotsOf r.arr).map HProp.val = (Message.setOpcEp [] count).2 ∧ (r.arr = none → count = 0)) := by
  unfold secSetOpc
  split
  next h =>
    subst h
    exact .pure (by simp [secF, hs, ptr, slotsOf, propsF]) ⟨by simp [SecOk, hs, slotsOf], rfl, by simp [hs, slotsOf, Message.setOpcEp], fun _ => rfl⟩
  next h =>
    refine malloc_triple.bind (K := []) (by simp) fun a _ => ?_
    refine (newProps_triple count.toNat).bind (K := [a]) (by simp) fun ps hps => ?_
    refine .pure (by simp only [secF, ptr, slotsOf] <;> perm) ⟨?_, rfl, ?_, fun c => by cases c⟩
    · have := congrArg List.length hps
      simpa [SecOk, slotsOf] using this
    · rw [show (Message.setOpcEp [] count).2 = List.replicate count.toNat Property.new by simp only [Message.setOpcEp, if_neg h]]; exact hps

theorem secAdd_triple (s : HSec) (hs : SecOk s) (hc : s.cnt.toNat < 255) (p : HProp) :
    Triple (secF s ++ propF p) (secAdd s p) secF (fun r => SecOk r ∧ r.cnt = s.cnt + 1 ∧ slotsOf r.arr = slotsOf s.arr ++ [p]) := by
  unfold secAdd
  have e : (s.cnt + 1).toNat = s.cnt.toNat + 1 := by
    rw [BitVec.toNat_add]; simp; omega
  rw [if_neg (fun h => by rw [h] at e; simp at e), if_pos (by rw [hs]; exact Nat.le_refl _),
    List.take_of_length_le (by rw [hs]; exact Nat.le_refl _)]
  refine (realloc_triple s.arr).bind (K := propsF (slotsOf s.arr) ++ propF p) (by simp only [secF] <;> perm) fun a _ => ?_
  refine .pure ?_ ⟨?_, rfl, rfl⟩
  · simp only [secF, ptr, slotsOf, propsF_append, propsF_cons, propsF_nil] <;> perm
  · show (slotsOf s.arr ++ [p]).length = (s.cnt + 1).toNat
    rw [List.length_append, e, hs, List.length_singleton]

theorem modFirst_triple (code : Byte) (d : List Byte) (ps : List HProp) :
    Triple (propsF ps) (modFirst code (fun p => propSetData p d) ps) propsF
      (fun qs => qs.map HProp.val = Message.modifyFirst code (fun p => (p.setData d).1) (ps.map HProp.val)) := by
  induction ps with
  | nil => exact .pure (.refl _) rfl
  | cons p ps ih =>
    unfold modFirst
    split
    next h =>
      exact (propSetData_triple p d).bind (K := propsF ps) (by rw [propsF_cons]) fun q hq =>
        .pure (by rw [propsF_cons]) (by simp [Message.modifyFirst, show p.val.code = p.code from rfl, h, hq.1])
    next h =>
      exact ih.bind (K := propF p) (by rw [propsF_cons]; perm) fun qs hqs =>
        .pure (by rw [propsF_cons]; perm) (by simp [Message.modifyFirst, show p.val.code = p.code from rfl, h, hqs])

theorem secSetProp_triple (s : HSec) (hs : SecOk s) (hc : s.cnt.toNat < 255) (code : Byte) (d : List Byte) :
    Triple (secF s) (secSetProp s code d) secF (fun r => SecOk r ∧
      Message.propSet s.cnt ((slotsOf s.arr).map HProp.val) code d = .ok (r.cnt, (slotsOf r.arr).map HProp.val)) := by
  have e : s.cnt + 1 ≠ 0 := by
    intro h
    have e : (s.cnt + 1).toNat = s.cnt.toNat + 1 := by rw [BitVec.toNat_add]; simp; omega
    rw [h] at e; simp at e
  have val : ∀ l : List Property, l.length = s.cnt.toNat → Message.propSet s.cnt l code d =
      if l.any (fun p => p.code == code) then .ok (s.cnt, Message.modifyFirst code (fun p => (p.setData d).1) l)
      else .ok (s.cnt + 1, l ++ [((Property.new.setCode code).setData d).1]) := by
    intro l hl
    simp only [Message.propSet, Message.propGetByCode, Message.slots, hl, Nat.le_refl, if_true, Res.bind_ok, Res.pure_eq]
    rw [List.take_of_length_le (by omega)]
    cases hf : l.find? (fun p => p.code == code) with
    | none =>
      have : l.any (fun p => p.code == code) = false := by
        rw [List.any_eq_false]; intro x hx; exact List.find?_eq_none.1 hf x hx
      simp only [this, Message.propAdd, if_neg e, hl, if_true, Res.bind_ok, Bool.false_eq_true, if_false]
      simp
    | some x =>
      have : l.any (fun p => p.code == code) = true :=
        List.any_eq_true.2 ⟨x, List.mem_of_find?_eq_some hf, List.find?_some (p := fun p : Property => p.code == code) hf⟩
      simp [this]
  have add : ∀ {K : List Nat}, K.Perm (secF s) → ((slotsOf s.arr).any (fun p => p.code == code)) = false →
      Triple K (do
        let p ← propNew
        let p ← propSetData { p with code := code } d
        secAdd s p) secF (fun r => SecOk r ∧
      Message.propSet s.cnt ((slotsOf s.arr).map HProp.val) code d = .ok (r.cnt, (slotsOf r.arr).map HProp.val)) := by
    intro K hK hany
    refine propNew_triple.bind (K := secF s) (by simpa using hK) fun p hp => ?_
    refine (propSetData_triple { p with code := code } d).bind (K := secF s) (by simp only [propF] <;> perm) fun q hq => ?_
    refine (secAdd_triple s hs hc q).conseq (K := []) (by perm) fun r hr => ⟨by simp, hr.1, ?_⟩
    have : ((slotsOf s.arr).map HProp.val).any (fun p => p.code == code) = false := by
      rw [List.any_map]; exact hany
    rw [val _ (by rw [List.length_map]; exact hs), this, hr.2.1, hr.2.2]
    have e2 : ({ p with code := code } : HProp).val = Property.new.setCode code := by
      have : ({ p with code := code } : HProp).val = { p.val with code := code } := rfl
      rw [this, hp]; rfl
    simp [hq.1, e2]
  unfold secSetProp
  rw [if_pos (by rw [hs]; exact Nat.le_refl _)]
  cases ha : s.arr with
  | none => 
    simp only
    exact ha ▸ add (K := secF s) (.refl _) (by simp [ha, slotsOf])
  | some x =>
    obtain ⟨a, ps⟩ := x
    have hl : ps.length = s.cnt.toNat := by have := hs; rw [SecOk, ha] at this; exact this
    simp only
    rw [List.take_of_length_le (by omega)]
    split
    next hany =>
      refine (use_triple a).bind (K := propsF ps) (by simp only [secF, ha, ptr, slotsOf] <;> perm) fun _ _ => ?_
      refine (modFirst_triple code d ps).bind (K := [a]) (by perm) fun qs hqs => ?_
      refine .pure (by simp only [secF, ptr, slotsOf] <;> perm) ⟨?_, ?_⟩
      · have h1 := congrArg List.length hqs
        have h2 : ∀ (l : List Property), (Message.modifyFirst code (fun p => (p.setData d).1) l).length = l.length := by
          intro l
          induction l with
          | nil => rfl
          | cons x l ih => simp only [Message.modifyFirst]; split <;> simp [ih]
        simp only [List.length_map, h2] at h1
        simp only [SecOk, slotsOf, h1, hl]
      · simp only [slotsOf]
        have : (ps.map HProp.val).any (fun p => p.code == code) = true := by rw [List.any_map]; exact hany
        rw [val _ (by rw [List.length_map]; exact hl), this, hqs]
        rfl
    next hany =>
      refine (use_triple a).bind (K := propsF ps) (by simp only [secF, ha, ptr, slotsOf] <;> perm) fun _ _ => ?_
      have := add (K := [a] ++ propsF ps) (by simp only [secF, ha, ptr, slotsOf] <;> perm) (by simpa [ha, slotsOf] using hany)
      simpa only [ha] using this

end Uecho.Lemmas.Blocks
