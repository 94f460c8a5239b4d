import Verif.Lemmas.Alias
/-! # C147: values that the library gave out, given back to it -/
namespace Uecho.Props
open Uecho Uecho.Spec Uecho.Lemmas.Blocks Uecho.Heap

/-- **C147.** A text from anywhere but the block that is replaced (memory of the application, another string, property, message …) can be given to a
setter: it is taken, and what it was read from is still there. -/
theorem C147_texts_partial (v : Src String) (m : Mem) :
    (∀ s : HStr, HoldsBlocks m (strF s ++ Src.blocks v) → Succeeds (strSetFrom s v m) (Src.blocks v) strF fun r => r.val.map (·.2) = some v.val) ∧
    (∀ p : HProp, HoldsBlocks m (propF p ++ Src.blocks v) →
      Succeeds (propSetNameFrom p v m) (Src.blocks v) propF fun r => r.val = { p.val with name := some v.val }) ∧
    (∀ g : HMsg, HoldsBlocks m (msgF g ++ Src.blocks v) →
      Succeeds (msgSetSourceFrom g v m) (Src.blocks v) msgF (fun r => r.val = { g.val with fromAddr := some v.val }) ∧
      Succeeds (msgSetDestFrom g v m) (Src.blocks v) msgF fun r => r.val = { g.val with toAddr := some v.val }) :=
  ⟨fun s h => (strSetFrom_triple s v).succeeds h, fun p h => (propSetNameFrom_triple p v).succeeds h,
    fun g h => ⟨(msgSetSourceFrom_triple g v).succeeds h, (msgSetDestFrom_triple g v).succeeds h⟩⟩

/-- **C147.** So can data. -/
theorem C147_data_partial (v : Src (List Byte)) (m : Mem) (p : HProp) (h : HoldsBlocks m (propF p ++ Src.blocks v)) :
    Succeeds (propSetDataFrom p v m) (Src.blocks v) propF (fun r => r.val = { p.val with data := v.val }) ∧
    Succeeds (propAddDataFrom p v m) (Src.blocks v) propF fun r => r.val = { p.val with data := p.val.data ++ v.val } :=
  ⟨(propSetDataFrom_triple p v).succeeds h, (propAddDataFrom_triple p v).succeeds h⟩

/-- One property gets the data of another one. -/
example : HoldsBlocks ⟨[4, 3, 2, 1, 0], 5⟩ (propF ⟨0, ⟨1, none⟩, 0x80, 0, 0, none, false⟩ ++ Src.blocks ⟨some 4, [0x30#8]⟩) ∧
    propF ⟨2, ⟨3, none⟩, 0x81, 0, 0, some (4, [0x30#8]), false⟩ = [2, 3, 4] := by
  refine ⟨⟨⟨by decide, by decide⟩, by decide, by decide⟩, by decide⟩

/-- **C147 fails for a value of its own.** A string, property or message that is given back the text it has given out reads freed memory, unless the
text is empty; an address even then. -/
theorem C147_own_text_violated (a : Nat) (t u : String) (m : Mem) :
    (∀ s : HStr, HoldsBlocks m (strF s) → s.val = some (a, t) → u.length ≠ 0 → strSetFrom s ⟨some a, u⟩ m = .ub) ∧
    (∀ p : HProp, HoldsBlocks m (propF p) → p.name.val = some (a, t) → u.length ≠ 0 → propSetNameFrom p ⟨some a, u⟩ m = .ub) ∧
    (∀ g : HMsg, HoldsBlocks m (msgF g) → g.fromA = some (a, t) → msgSetSourceFrom g ⟨some a, u⟩ m = .ub) ∧
    (∀ g : HMsg, HoldsBlocks m (msgF g) → g.toA = some (a, t) → msgSetDestFrom g ⟨some a, u⟩ m = .ub) := by
  have bh : ∀ {α β : Type} (x : H α) (k : α → H β) (s : Mem), (x >>= k) s = x s >>= fun r => k r.1 r.2 := fun _ _ _ => rfl
  have ph : ∀ {α : Type} (a : α) (s : Mem), (pure a : H α) s = .ok (a, s) := fun _ _ => rfl
  have ub : ∀ {α β : Type} (k : α → Res β), ((Res.ub : Res α) >>= k) = .ub := fun _ => rfl
  have str : ∀ s : HStr, Sound m → s.self ∈ m.live → a ∈ m.live → s.val = some (a, t) → u.length ≠ 0 → strSetFrom s ⟨some a, u⟩ m = .ub := by
    intro s hs h1 h2 h3 h4
    have := gone hs h2
    simp only [strSetFrom, bh, Src.read, use, h2, if_true, Res.bind_ok, ph, strClear, h1, h3, freeOpt, free, malloc, h4, if_false, this, ub]
  have loc : ∀ s : Option (Nat × String), Sound m → a ∈ m.live → s = some (a, t) → strlocFrom ⟨some a, u⟩ s m = .ub := by
    intro s hs h2 h3
    have : a ∉ m.live.erase a := fun c => ((hs.1.mem_erase_iff).1 c).1 rfl
    simp only [strlocFrom, bh, Src.read, use, h2, if_true, Res.bind_ok, h3, freeOpt, free, if_false, this, ub]
  refine ⟨fun s h e hu => str s h.1 (h.2.2 _ (by simp [strF])) (h.2.2 _ (by simp [strF, e, ptr])) e hu, fun p h e hu => ?_, fun g h e => ?_, fun g h e => ?_⟩
  · have h1 := h.2.2 p.self (by simp [propF])
    simp only [propSetNameFrom, bh, use, h1, if_true, Res.bind_ok,
      str p.name h.1 (h.2.2 _ (by simp [propF, strF])) (h.2.2 _ (by simp [propF, strF, e, ptr])) e hu, ub]
  · have h1 := h.2.2 g.self (by simp [msgF])
    simp only [msgSetSourceFrom, bh, use, h1, if_true, Res.bind_ok, loc g.fromA h.1 (h.2.2 _ (by simp [msgF, e, ptr])) e, ub]
  · have h1 := h.2.2 g.self (by simp [msgF])
    simp only [msgSetDestFrom, bh, use, h1, if_true, Res.bind_ok, loc g.toA h.1 (h.2.2 _ (by simp [msgF, e, ptr])) e, ub]

/-- **C147 fails for a value of its own.** A property that is given back all or some of its data reads freed memory. -/
theorem C147_own_data_violated (a : Nat) (d x : List Byte) (hx : x ≠ []) (m : Mem) (p : HProp) (h : HoldsBlocks m (propF p)) (hd : p.data = some (a, d)) :
    propSetDataFrom p ⟨some a, x⟩ m = .ub ∧ propAddDataFrom p ⟨some a, x⟩ m = .ub := by
  have bh : ∀ {α β : Type} (x : H α) (k : α → H β) (s : Mem), (x >>= k) s = x s >>= fun r => k r.1 r.2 := fun _ _ _ => rfl
  have ph : ∀ {α : Type} (a : α) (s : Mem), (pure a : H α) s = .ok (a, s) := fun _ _ => rfl
  have ub : ∀ {α β : Type} (k : α → Res β), ((Res.ub : Res α) >>= k) = .ub := fun _ => rfl
  have h1 := h.2.2 p.self (by simp [propF])
  have h2 := h.2.2 a (by simp [propF, hd, ptr])
  have hg := gone h.1 h2
  have hx : x.length ≠ 0 := fun e => hx (List.eq_nil_of_length_eq_zero e)
  constructor
  · simp only [propSetDataFrom, propSetCount, propClearData, bh, ph, use, h1, h2, hd, if_true, Res.bind_ok, freeOpt, free, hx, if_false, malloc, Src.read,
      hg, ub]
  · simp only [propAddDataFrom, bh, ph, use, h1, h2, hd, if_true, Res.bind_ok, freeOpt, free, hx, if_false, malloc, Src.read, realloc, hg, ub]

example : HoldsBlocks ⟨[2, 1, 0], 3⟩ (propF ⟨0, ⟨1, none⟩, 0x80, 0, 0, some (2, [0x30#8, 0x31#8]), false⟩) :=
  ⟨⟨by decide, by decide⟩, by decide, by decide⟩

/-- **C147 fails for a message and itself.** Set to itself, a message keeps its header and loses its properties and addresses. -/
theorem C147_set_self_violated (g : HMsg) (hg : WholeMsg g) (m : Mem) (h : HoldsBlocks m (msgF g)) :
    Succeeds (msgSetSelf g m) [] msgF fun r =>
      r.val = { g.val with opc := 0, ep := [], opcSet := 0, epSet := [], opcGet := 0, epGet := [], fromAddr := none, toAddr := none } := by
  have t := msgSetSelf_triple g hg
  refine Triple.succeeds (P := msgF g) (keep := []) (t.conseq (K := []) (by simp) fun r hr => ⟨by simp, ?_⟩) (by simpa using h)
  subst hr
  rfl

/-- **C147 fails for a message and itself.** Comparing a message with itself reads freed memory. -/
theorem C147_equals_self_violated (g : HMsg) (hg : WholeMsg g) (m : Mem) (h : HoldsBlocks m (msgF g)) : msgEqualsSelf g m = .ub := by
  have bh : ∀ {α β : Type} (x : H α) (k : α → H β) (s : Mem), (x >>= k) s = x s >>= fun r => k r.1 r.2 := fun _ _ _ => rfl
  have ph : ∀ {α : Type} (a : α) (s : Mem), (pure a : H α) s = .ok (a, s) := fun _ _ => rfl
  have ub : ∀ {α β : Type} (k : α → Res β), ((Res.ub : Res α) >>= k) = .ub := fun _ => rfl
  obtain ⟨rest, o⟩ := holds_owns h
  obtain ⟨g1, m1, e1, o1, ⟨a, rfl⟩⟩ := msgGetBytes_triple g hg rest m o
  have hl := o1.holds
  have h1 : g.self ∈ m1.live := hl.2.2 _ (by simp [msgF])
  have h2 : a ∈ m1.live := hl.2.2 _ (by simp [msgF, ptr])
  have hgone := gone hl.1 h2
  -- the second call frees the block and reads the properties
  have o2 : Owns (secF g.plain ++ secF g.set ++ secF g.get) (m1.next :: g.self :: (ptr g.fromA ++ ptr g.toA ++ rest)) ⟨m1.next :: m1.live.erase a, m1.next + 1⟩ := by
    refine ⟨?_, ?_, ?_⟩
    · have p1 : (m1.live.erase a).Perm (g.self :: (ptr g.fromA ++ ptr g.toA ++ secF g.plain ++ secF g.set ++ secF g.get ++ rest)) := by
        have := o1.1.erase a
        have hne : ¬ g.self = a := by
          have := hl.2.1
          simp only [msgF, ptr, List.cons_append, List.nil_append, List.nodup_cons, List.mem_cons, not_or] at this
          exact this.1.1
        simpa [msgF, ptr, List.erase_cons, hne] using this
      refine (p1.cons m1.next).trans ?_
      refine List.perm_iff_count.2 fun _ => ?_
      simp only [List.count_append, List.count_cons] <;> omega
    · exact List.nodup_cons.2 ⟨fun c => Nat.lt_irrefl _ (hl.1.2 _ (List.mem_of_mem_erase c)), hl.1.1.erase _⟩
    · intro b hb
      rcases List.mem_cons.1 hb with rfl | hb
      · exact Nat.lt_succ_self _
      · exact Nat.lt_succ_of_lt (hl.1.2 b (List.mem_of_mem_erase hb))
  obtain ⟨_, m3, e3, o3, _⟩ := msgReadSecs_triple { g with bytes := some (a, ()) } hg _ _ o2
  have h3 : ∀ b, b ∈ m3.live ↔ b ∈ m1.next :: m1.live.erase a := fun b => (o3.1.trans o2.1.symm).mem_iff
  have h4 : a ∉ m3.live := fun c => hgone ((h3 a).1 c)
  have h5 : m1.next ∈ m3.live := (h3 _).2 List.mem_cons_self
  simp only [msgEqualsSelf, bh, e1, Res.bind_ok]
  simp only [msgGetBytes, bh, use, h1, if_true, Res.bind_ok, freeOpt, free, h2, malloc, e3, h5, ph, useOpt, h4, if_false, ub]

/-- A message with one property and an address. -/
example : let g : HMsg := ⟨0, Message.new, ⟨1, some (1, [⟨2, ⟨3, none⟩, 0x80, 0, 0, none, false⟩])⟩, ⟨0, none⟩, ⟨0, none⟩, none, some (4, "192.0.2.1"), none⟩
    WholeMsg g ∧ HoldsBlocks ⟨[4, 3, 2, 1, 0], 5⟩ (msgF g) :=
  ⟨⟨rfl, rfl, rfl⟩, ⟨by decide, by decide⟩, by decide, by decide⟩

end Uecho.Props
