import Verif.Spec.Alias
import Verif.Lemmas.HeapMsg
/-! # Lemmas for C147 -/
namespace Uecho.Lemmas.Blocks
open Uecho Uecho.Spec Uecho.Heap

theorem split_of_subset : ∀ (own live : List Nat), own.Nodup → live.Nodup → (∀ a ∈ own, a ∈ live) → ∃ rest, live.Perm (own ++ rest)
  | [], live, _, _, _ => ⟨live, .refl _⟩
  | a :: own, live, h1, h2, h3 => by
      obtain ⟨ha, h1⟩ := List.nodup_cons.1 h1
      obtain ⟨rest, hr⟩ := split_of_subset own (live.erase a) h1 (h2.erase _) fun b hb =>
        (h2.mem_erase_iff).2 ⟨fun e => ha (e ▸ hb), h3 b (List.mem_cons_of_mem _ hb)⟩
      exact ⟨rest, (List.perm_cons_erase (h3 a (List.mem_cons_self))).trans (hr.cons a)⟩

theorem holds_owns {m : Mem} {own : List Nat} (h : HoldsBlocks m own) : ∃ rest, Owns own rest m := by
  obtain ⟨rest, hr⟩ := split_of_subset own m.live h.2.1 h.1.1 h.2.2
  exact ⟨rest, hr, h.1⟩

theorem Owns.holds {m : Mem} {own rest : List Nat} (h : Owns own rest m) : HoldsBlocks m own := by
  refine ⟨h.2, ?_, fun a ha => h.1.mem_iff.2 (List.mem_append_left _ ha)⟩
  exact (List.nodup_append.1 (h.1.nodup_iff.1 h.2.1)).1

theorem Triple.succeeds {α : Type} {P keep : List Nat} {x : H α} {F : α → List Nat} {Q : α → Prop} (t : Triple (P ++ keep) x (fun a => F a ++ keep) Q)
    {m : Mem} (h : HoldsBlocks m (P ++ keep)) : Succeeds (x m) keep F Q := by
  obtain ⟨rest, o⟩ := holds_owns h
  obtain ⟨a, m', e, o', q⟩ := t rest m o
  exact ⟨a, m', e, q, o'.holds⟩

theorem read_triple {α : Type} (v : Src α) : Triple (Src.blocks v) v.read (fun _ => Src.blocks v) (fun x => x = v.val) := by
  obtain ⟨blk, val⟩ := v
  cases blk with
  | none => exact .pure (.refl _) rfl
  | some a => exact (use_triple a).bind (K := []) (.refl _) fun _ _ => .pure (.refl _) rfl

theorem strSetFrom_triple (s : HStr) (v : Src String) :
    Triple (strF s ++ Src.blocks v) (strSetFrom s v) (fun r => strF r ++ Src.blocks v) (fun r => r.val.map (·.2) = some v.val) := by
  refine (read_triple v).bind (K := strF s) (by perm) fun t ht => ?_
  subst ht
  refine (strClear_triple s).bind (K := Src.blocks v) (by perm) fun s' _ => ?_
  refine malloc_triple.bind (K := [s'.self] ++ Src.blocks v) (by simp) fun a _ => ?_
  have rd : Triple (Src.blocks v) (if v.val.length = 0 then pure v.val else v.read) (fun _ => Src.blocks v) (fun x => x = v.val) := by
    split
    · exact .pure (.refl _) rfl
    · exact read_triple v
  refine rd.bind (K := [a] ++ [s'.self]) (by perm) fun u hu => ?_
  subst hu
  exact .pure (by simp only [strF, ptr] <;> perm) rfl

theorem propSetNameFrom_triple (p : HProp) (v : Src String) :
    Triple (propF p ++ Src.blocks v) (propSetNameFrom p v) (fun r => propF r ++ Src.blocks v) (fun r => r.val = p.val.setName (some v.val)) := by
  refine (use_triple p.self).bind (K := strF p.name ++ ptr p.data ++ Src.blocks v) (by simp only [propF] <;> perm) fun _ _ => ?_
  refine (strSetFrom_triple p.name v).bind (K := [p.self] ++ ptr p.data) (by perm) fun s hs => ?_
  refine .pure (by simp only [propF] <;> perm) ?_
  simp [HProp.val, hs, Property.setName]

theorem propSetDataFrom_triple (p : HProp) (v : Src (List Byte)) :
    Triple (propF p ++ Src.blocks v) (propSetDataFrom p v) (fun r => propF r ++ Src.blocks v) (fun r => r.val = { p.val with data := v.val }) := by
  refine (propSetCount_triple p v.val.length).bind (K := strF p.name ++ Src.blocks v) (by simp only [propF] <;> perm) fun q hq => ?_
  rcases hq with ⟨h0, rfl⟩ | ⟨h0, a, rfl⟩
  · refine .pure (by simp only [propF, ptr] <;> perm) ?_
    have : v.val = [] := List.eq_nil_of_length_eq_zero h0
    simp [HProp.val, bytesOf, this]
  · refine (read_triple v).bind (K := [p.self] ++ ptr (some (a, List.replicate v.val.length (0 : Byte))) ++ strF p.name) (by perm) fun d hd => ?_
    subst hd
    refine (use_triple a).bind (K := [p.self] ++ strF p.name ++ Src.blocks v) (by simp only [ptr] <;> perm) fun _ _ => ?_
    exact .pure (by simp only [propF, ptr] <;> perm) (by simp [HProp.val, bytesOf])

theorem propAddDataFrom_triple (p : HProp) (v : Src (List Byte)) :
    Triple (propF p ++ Src.blocks v) (propAddDataFrom p v) (fun r => propF r ++ Src.blocks v)
      (fun r => r.val = { p.val with data := p.val.data ++ v.val }) := by
  unfold propAddDataFrom
  split
  next h => exact .pure (.refl _) (by simp [List.eq_nil_of_length_eq_zero h])
  next h =>
    refine (use_triple p.self).bind (K := strF p.name ++ ptr p.data ++ Src.blocks v) (by simp only [propF] <;> perm) fun _ _ => ?_
    refine (realloc_triple p.data).bind (K := [p.self] ++ strF p.name ++ Src.blocks v) (by perm) fun a _ => ?_
    refine (read_triple v).bind (K := [a] ++ [p.self] ++ strF p.name) (by perm) fun d hd => ?_
    subst hd
    exact .pure (by simp only [propF, ptr] <;> perm) (by simp [HProp.val, bytesOf])

theorem strlocFrom_triple (v : Src String) (p : Option (Nat × String)) :
    Triple (ptr p ++ Src.blocks v) (strlocFrom v p) (fun r => ptr r ++ Src.blocks v) (fun r => r.map (·.2) = some v.val) := by
  refine (freeOpt_triple p).bind (K := Src.blocks v) (by perm) fun _ _ => ?_
  refine (read_triple v).bind (K := []) (by simp) fun t ht => ?_
  subst ht
  exact malloc_triple.bind (K := Src.blocks v) (by simp) fun a _ => .pure (by simp only [ptr] <;> perm) rfl

theorem msgSetSourceFrom_triple (m : HMsg) (v : Src String) :
    Triple (msgF m ++ Src.blocks v) (msgSetSourceFrom m v) (fun r => msgF r ++ Src.blocks v) (fun r => r.val = { m.val with fromAddr := some v.val }) := by
  refine (use_triple m.self).bind (K := ptr m.bytes ++ ptr m.fromA ++ ptr m.toA ++ secF m.plain ++ secF m.set ++ secF m.get ++ Src.blocks v)
    (by simp only [msgF] <;> perm) fun _ _ => ?_
  refine (strlocFrom_triple v m.fromA).bind (K := [m.self] ++ ptr m.bytes ++ ptr m.toA ++ secF m.plain ++ secF m.set ++ secF m.get)
    (by perm) fun q hq => ?_
  exact .pure (by simp only [msgF] <;> perm) (by simp [HMsg.val, hq])

theorem msgSetDestFrom_triple (m : HMsg) (v : Src String) :
    Triple (msgF m ++ Src.blocks v) (msgSetDestFrom m v) (fun r => msgF r ++ Src.blocks v) (fun r => r.val = { m.val with toAddr := some v.val }) := by
  refine (use_triple m.self).bind (K := ptr m.bytes ++ ptr m.fromA ++ ptr m.toA ++ secF m.plain ++ secF m.set ++ secF m.get ++ Src.blocks v)
    (by simp only [msgF] <;> perm) fun _ _ => ?_
  refine (strlocFrom_triple v m.toA).bind (K := [m.self] ++ ptr m.bytes ++ ptr m.fromA ++ secF m.plain ++ secF m.set ++ secF m.get)
    (by perm) fun q hq => ?_
  exact .pure (by simp only [msgF] <;> perm) (by simp [HMsg.val, hq])

theorem msgSetSelf_triple (m : HMsg) (hm : MsgOk m) : Triple (msgF m) (msgSetSelf m) msgF (fun r => r = cleared m) := by
  refine (msgClear_triple m hm).bind (K := []) (by simp) fun r hr => ?_
  subst hr
  refine (use_triple m.self).bind (K := []) (by simp [cleared]) fun _ _ => ?_
  refine Triple.bind (P := []) (K := [m.self]) (F := fun _ => []) (Q := fun f => f = none) (.pure (.refl _) rfl) (by simp) fun f hf => ?_
  subst hf
  refine (Triple.bind (P := [m.self]) (K := []) (F := fun _ => [m.self]) (Q := fun r => r = cleared m)
    ((use_triple m.self).bind (K := []) (by simp) fun _ _ =>
      show Triple [m.self] (pure (cleared m)) _ _ from .pure (.refl [m.self]) rfl) (by simp) fun r hr => ?_)
  subst hr
  refine Triple.bind (P := []) (K := [m.self]) (F := fun _ => []) (Q := fun f => f = none) (.pure (.refl _) rfl) (by simp) fun f hf => ?_
  subst hf
  refine (Triple.bind (P := [m.self]) (K := []) (F := fun _ => [m.self]) (Q := fun r => r = cleared m)
    ((use_triple m.self).bind (K := []) (by simp) fun _ _ =>
      show Triple [m.self] (pure (cleared m)) _ _ from .pure (.refl [m.self]) rfl) (by simp) fun r hr => ?_)
  subst hr
  show Triple [m.self] (pure (cleared m)) msgF _
  exact .pure (by rw [cleared_F]) rfl

/-- Reading a block that was freed. -/
theorem gone {m : Mem} {a : Nat} (h : Sound m) (ha : a ∈ m.live) : a ∉ m.next :: m.live.erase a := by
  rw [List.mem_cons, not_or]
  exact ⟨Nat.ne_of_lt (h.2 a ha), fun c => ((h.1.mem_erase_iff).1 c).1 rfl⟩

end Uecho.Lemmas.Blocks
