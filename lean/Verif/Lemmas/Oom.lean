import Verif.Spec.Oom
import Verif.Lemmas.HeapMsg
/-! # Ownership of blocks when requests are refused -/
namespace Uecho.Lemmas.Short
open Uecho.Spec hiding propF secF msgF Call call calls Held onProp onMsg propsF
open Uecho Uecho.Spec.Short Uecho.Oom Uecho.Lemmas.Blocks

/-- The heap consists of the blocks `own` and `rest`; requests for arrays are granted, and if `g`, all requests. -/
def OOwns (g : Bool) (own rest : List Nat) (s : St) : Prop :=
  Owns own rest s.mem ∧ s.array = [] ∧ (g = true → s.small = [])

/-- Compare `Blocks.Triple`. -/
def OTriple {α : Type} (g : Bool) (P : List Nat) (x : O α) (F : α → List Nat) (Q : α → Prop) : Prop :=
  ∀ (rest : List Nat) (s : St), OOwns g P rest s → ∃ a s', x s = .ok (a, s') ∧ OOwns g (F a) rest s' ∧ Q a

variable {g : Bool}

theorem OOwns.perm {P P' rest : List Nat} {s : St} (h : OOwns g P rest s) (e : P.Perm P') : OOwns g P' rest s :=
  ⟨h.1.perm e, h.2⟩

theorem OTriple.pure {α : Type} {P : List Nat} {a : α} {F : α → List Nat} {Q : α → Prop} (e : P.Perm (F a)) (q : Q a) :
    OTriple g P (Pure.pure a) F Q :=
  fun _ s h => ⟨a, s, rfl, h.perm e, q⟩

theorem OTriple.bind {α β : Type} {P0 P K : List Nat} {x : O α} {k : α → O β} {F : α → List Nat} {Q : α → Prop} {G : β → List Nat}
    {R : β → Prop} (t : OTriple g P x F Q) (e : P0.Perm (P ++ K)) (c : ∀ a, Q a → OTriple g (F a ++ K) (k a) G R) :
    OTriple g P0 (x >>= k) G R := by
  intro rest s h
  have h := h.perm e
  obtain ⟨a, s1, e1, o1, q1⟩ := t (K ++ rest) s ⟨⟨by simpa using h.1.1, h.1.2⟩, h.2⟩
  obtain ⟨b, s2, e2, o2, q2⟩ := c a q1 rest s1 ⟨⟨by simpa using o1.1.1, o1.1.2⟩, o1.2⟩
  refine ⟨b, s2, ?_, o2, q2⟩
  show (x s >>= fun r => k r.1 r.2) = _
  rw [e1]
  exact e2

theorem OTriple.conseq {α : Type} {P0 P K : List Nat} {x : O α} {F G : α → List Nat} {Q R : α → Prop} (t : OTriple g P x F Q)
    (e : P0.Perm (P ++ K)) (k : ∀ a, Q a → (F a ++ K).Perm (G a) ∧ R a) : OTriple g P0 x G R := by
  intro rest s h
  have h := h.perm e
  obtain ⟨a, s1, e1, o1, q1⟩ := t (K ++ rest) s ⟨⟨by simpa using h.1.1, h.1.2⟩, h.2⟩
  refine ⟨a, s1, e1, ?_, (k a q1).2⟩
  have : OOwns g (F a ++ K) rest s1 := ⟨⟨by simpa using o1.1.1, o1.1.2⟩, o1.2⟩
  exact this.perm (k a q1).1

theorem OTriple.weak {α : Type} {P : List Nat} {x : O α} {F : α → List Nat} {Q R : α → Prop} (t : OTriple g P x F Q) (h : ∀ a, Q a → R a) :
    OTriple g P x F R := t.conseq (K := []) (by simp) fun a q => ⟨by simp, h a q⟩

theorem OTriple.perm {α : Type} {P P' : List Nat} {x : O α} {F : α → List Nat} {Q : α → Prop} (t : OTriple g P x F Q) (e : P'.Perm P) :
    OTriple g P' x F Q := fun rest s h => t rest s (h.perm e)

theorem onMem_triple {α : Type} {P : List Nat} {x : Heap.H α} {F : α → List Nat} {Q : α → Prop} (t : Triple P x F Q) :
    OTriple g P (onMem x) F Q := by
  intro rest s h
  obtain ⟨a, m, e, o, q⟩ := t rest s.mem h.1
  exact ⟨a, { s with mem := m }, by simp [onMem, e], ⟨o, h.2⟩, q⟩

/-- The block behind a checked request. -/
def got : Option Nat → List Nat
  | none => []
  | some a => [a]

theorem malloc_triple : OTriple g [] Oom.malloc got (fun a => g = true → a.isSome = true) := by
  intro rest s h
  unfold Oom.malloc
  split
  next hf => exact ⟨none, _, rfl, ⟨h.1, h.2.1, fun hg => by simp [h.2.2 hg]⟩, fun hg => by simp [h.2.2 hg] at hf⟩
  next =>
    obtain ⟨a, m, e, o, -⟩ := Blocks.malloc_triple rest s.mem h.1
    exact ⟨some a, { s with mem := m, small := s.small.tail }, by rw [e]; rfl, ⟨o, h.2.1, fun hg => by simp [h.2.2 hg]⟩, fun _ => rfl⟩

theorem mallocArray_triple : OTriple g [] mallocArray got (fun a => a.isSome = true) := by
  intro rest s h
  unfold mallocArray
  rw [if_neg (by simp [h.2.1])]
  obtain ⟨a, m, e, o, -⟩ := Blocks.malloc_triple rest s.mem h.1
  exact ⟨some a, { s with mem := m, array := s.array.tail }, by rw [e]; rfl, ⟨o, by simp [h.2.1], h.2.2⟩, rfl⟩

theorem free_triple (a : Nat) : OTriple g [a] (Oom.free a) (fun _ => []) (fun _ => True) := onMem_triple (Blocks.free_triple a)
theorem use_triple (a : Nat) : OTriple g [a] (Oom.use a) (fun _ => [a]) (fun _ => True) := onMem_triple (Blocks.use_triple a)
theorem freeOpt_triple {α : Type} (p : Option (Nat × α)) : OTriple g (ptr p) (Oom.freeOpt p) (fun _ => []) (fun _ => True) :=
  onMem_triple (Blocks.freeOpt_triple p)
theorem useOpt_triple {α : Type} (p : Option (Nat × α)) : OTriple g (ptr p) (Oom.useOpt p) (fun _ => ptr p) (fun _ => True) :=
  onMem_triple (Blocks.useOpt_triple p)
theorem lift_triple {α : Type} {x : Res α} {a : α} (h : x = .ok a) : OTriple g [] (Oom.lift x) (fun _ => []) (fun b => b = a) :=
  onMem_triple (Blocks.lift_triple h)

/-- The blocks of a result that may be NULL. -/
def opt {α : Type} (F : α → List Nat) : Option α → List Nat
  | none => []
  | some a => F a

/-! ### Strings and properties -/

theorem strNew_triple : OTriple g [] Oom.strNew (opt strF) (fun r => (g = true → r.isSome = true) ∧ ∀ s, r = some s → s.val = none) := by
  refine malloc_triple.bind (K := []) (by simp) fun a ha => ?_
  cases a with
  | none => exact .pure (by simp [got, opt]) ⟨fun h => (by cases ha h), fun _ h => by cases h⟩
  | some a => exact .pure (by simp [got, opt, strF, ptr]) ⟨fun _ => rfl, fun _ h => by cases h; rfl⟩

theorem strSetValue_triple (s : Heap.HStr) (v : Option String) : OTriple g (strF s) (Oom.strSetValue s v) strF (fun _ => True) := by
  cases v with
  | none => exact .pure (.refl _) trivial
  | some t =>
    refine (onMem_triple (Blocks.strClear_triple s)).bind (K := []) (by simp) fun s' hs => ?_
    refine malloc_triple.bind (K := [s'.self]) (by simp) fun a ha => ?_
    cases a with
    | none => exact .pure (by subst hs; simp [got, strF, ptr]) trivial
    | some a => exact .pure (by simp only [got, strF, ptr] <;> perm) trivial

/-- The count of the bytes is right. -/
def POk (p : OProp) : Prop := p.size = (Heap.bytesOf p.data).length

/-- The property is as `uecho_property_new` made it. -/
def Fresh (p : OProp) : Prop := p.code = 0 ∧ p.data = none ∧ p.size = 0

theorem Fresh.ok {p : OProp} (h : Fresh p) : POk p := by unfold POk; rw [h.2.1, h.2.2]; rfl

theorem propNew_triple : OTriple g [] Oom.propNew (opt propF) (fun r => (g = true → r.isSome = true) ∧ ∀ p, r = some p → Fresh p) := by
  refine malloc_triple.bind (K := []) (by simp) fun a ha => ?_
  cases a with
  | none => exact .pure (by simp [got, opt]) ⟨fun h => (by cases ha h), fun _ h => by cases h⟩
  | some a =>
    refine strNew_triple.bind (K := [a]) (by simp [got]) fun s hs => ?_
    cases s with
    | none =>
      refine (free_triple a).bind (K := []) (by simp [opt]) fun _ _ => .pure (by simp [opt]) ⟨fun h => ?_, fun _ h => by cases h⟩
      exact absurd (hs.1 h) (by simp)
    | some s =>
      exact .pure (by simp only [opt, propF, ptr] <;> perm) ⟨fun _ => rfl, fun _ h => by cases h; exact ⟨rfl, rfl, rfl⟩⟩

theorem propClearData_triple (p : OProp) :
    OTriple g ([p.self] ++ ptr p.data) (Oom.propClearData p) (fun q => [q.self]) (fun q => q = { p with data := none, size := 0 }) :=
  (use_triple p.self).bind (K := ptr p.data) (.refl _) fun _ _ =>
    (freeOpt_triple p.data).bind (K := [p.self]) (by perm) fun _ _ => .pure (by simp) rfl

theorem propDelete_triple (p : OProp) : OTriple g (propF p) (Oom.propDelete p) (fun _ => []) (fun _ => True) :=
  (use_triple p.self).bind (K := strF p.name ++ ptr p.data) (by simp only [propF] <;> perm) fun _ _ =>
    (onMem_triple (Blocks.strDelete_triple p.name)).bind (K := [p.self] ++ ptr p.data) (by perm) fun _ _ =>
      (propClearData_triple p).bind (K := []) (by simp) fun q _ => by simpa using free_triple q.self

theorem propSetData_triple (p : OProp) (d : List Byte) :
    OTriple g (propF p) (Oom.propSetData p d) (fun r => propF r.2)
      (fun r => POk r.2 ∧ (r.1 = true → Heap.bytesOf r.2.data = d) ∧ (r.1 = false → Heap.bytesOf r.2.data = []) ∧ (g = true → r.1 = true) ∧
        r.2.code = p.code) := by
  have t : OTriple g ([p.self] ++ ptr p.data) (Oom.propSetCount p d.length) (fun r => [r.2.self] ++ ptr r.2.data)
      (fun r => r.2.name = p.name ∧ r.2.code = p.code ∧ (g = true → r.1 = true) ∧
        ((r.1 = true ∧ d.length = 0 ∧ r.2.data = none ∧ r.2.size = 0) ∨ (r.1 = false ∧ r.2.data = none ∧ r.2.size = 0) ∨
         (r.1 = true ∧ d.length ≠ 0 ∧ r.2.size = d.length ∧ ∃ a, r.2.data = some (a, List.replicate d.length 0)))) := by
    refine (propClearData_triple p).bind (K := []) (by simp) fun q hq => ?_
    subst hq
    split
    next h => exact .pure (by simp [ptr]) ⟨rfl, rfl, fun _ => rfl, Or.inl ⟨rfl, h, rfl, rfl⟩⟩
    next h =>
      refine malloc_triple.bind (K := [p.self]) (by simp) fun a ha => ?_
      cases a with
      | none => exact .pure (by simp [got, ptr]) ⟨rfl, rfl, fun h => (by cases ha h), Or.inr (Or.inl ⟨rfl, rfl, rfl⟩)⟩
      | some a => exact .pure (by simp only [got, ptr] <;> perm) ⟨rfl, rfl, fun _ => rfl, Or.inr (Or.inr ⟨rfl, h, rfl, a, rfl⟩)⟩
  refine t.bind (K := strF p.name) (by simp only [propF] <;> perm) fun r hr => ?_
  obtain ⟨hn, hc, hg, h⟩ := hr
  rcases h with ⟨h1, h2, h3, h4⟩ | ⟨h1, h3, h4⟩ | ⟨h1, h2, h4, a, h3⟩
  · have hd : d = [] := List.eq_nil_of_length_eq_zero h2
    rw [if_pos h1]
    simp only [h3, h2, if_true]
    refine .pure (by simp only [propF, ptr, hn, h3] <;> perm) ⟨by simp [POk, h3, h4, Heap.bytesOf], fun _ => by simp [h3, hd, Heap.bytesOf], fun h => (by cases h), fun _ => rfl, hc⟩
  · rw [if_neg (by simp [h1])]
    exact .pure (by simp only [propF, ptr, hn, h3] <;> perm) ⟨by simp [POk, h3, h4, Heap.bytesOf], fun h => (by cases h), fun _ => by simp [h3, Heap.bytesOf],
      fun h => absurd (hg h) (by simp [h1]), hc⟩
  · rw [if_pos h1]
    simp only [h3]
    refine (use_triple a).bind (K := [r.2.self] ++ strF p.name) (by simp only [ptr] <;> perm) fun _ _ => ?_
    exact .pure (by simp only [propF, ptr, hn] <;> perm) ⟨by simp [POk, h4, Heap.bytesOf], fun _ => rfl, fun h => (by cases h), fun _ => rfl, hc⟩

theorem propSetInteger_triple (p : OProp) (hp : POk p) (v : CInt) (size : Nat) {b : List Byte} (hb : integer2byte v size = .ok b) :
    OTriple g (propF p) (Oom.propSetInteger p v size) (fun r => propF r.2) (fun r => POk r.2 ∧ (g = true → r.1 = true)) := by
  refine malloc_triple.bind (K := propF p) (by simp) fun t ht => ?_
  cases t with
  | none => exact .pure (by simp [got]) ⟨hp, fun _ => rfl⟩
  | some t =>
    refine (lift_triple hb).bind (K := [t] ++ propF p) (by simp [got]) fun b' hb' => ?_
    subst hb'
    refine (use_triple t).bind (K := propF p) (by simp) fun _ _ => ?_
    refine (propSetData_triple p b').bind (K := [t]) (by perm) fun r hr => ?_
    refine (free_triple t).bind (K := propF r.2) (by perm) fun _ _ => ?_
    exact .pure (by simp) ⟨hr.1, hr.2.2.2.1⟩

theorem propSetName_triple (p : OProp) (v : Option String) :
    OTriple g (propF p) (Oom.propSetName p v) propF (fun q => q.data = p.data ∧ q.size = p.size ∧ q.code = p.code) := by
  refine (use_triple p.self).bind (K := strF p.name ++ ptr p.data) (by simp only [propF] <;> perm) fun _ _ => ?_
  refine (strSetValue_triple p.name v).bind (K := [p.self] ++ ptr p.data) (by perm) fun s _ => ?_
  exact .pure (by simp only [propF] <;> perm) ⟨rfl, rfl, rfl⟩

theorem propRead_triple (p : OProp) (hp : POk p) :
    OTriple g (propF p) (Oom.propRead p) (fun _ => propF p) (fun d => d = Heap.bytesOf p.data) := by
  refine (use_triple p.self).bind (K := strF p.name ++ ptr p.data) (by simp only [propF] <;> perm) fun _ _ => ?_
  rcases e : p.data with _ | ⟨a, d⟩
  · simp only
    rw [if_pos (by rw [hp, e]; rfl)]
    exact .pure (by simp only [propF, e, ptr] <;> perm) rfl
  · simp only
    refine (use_triple a).bind (K := [p.self] ++ strF p.name) (by simp only [ptr] <;> perm) fun _ _ => ?_
    rw [if_pos (by rw [hp, e]; rfl)]
    exact .pure (by simp only [propF, e, ptr] <;> perm) rfl

/-- The blocks of a pair of things. -/
theorem propCopy_triple (p : OProp) (hp : POk p) :
    OTriple g (propF p) (Oom.propCopy p) (fun r => opt propF r ++ propF p) (fun r => (g = true → r.isSome = true) ∧ ∀ q, r = some q → POk q) := by
  refine propNew_triple.bind (K := propF p) (by simp) fun r hr => ?_
  cases r with
  | none => exact .pure (by simp) ⟨fun h => absurd (hr.1 h) (by simp), fun _ h => by cases h⟩
  | some q =>
    refine (use_triple p.self).bind (K := strF p.name ++ ptr p.data ++ propF q) (by simp only [propF, opt] <;> perm) fun _ _ => ?_
    refine (onMem_triple (Blocks.strRead_triple p.name)).bind (K := [p.self] ++ ptr p.data ++ propF q) (by perm) fun n _ => ?_
    refine (propSetName_triple { q with code := p.code } n).bind (K := propF p) (by simp only [propF] <;> perm) fun q' _ => ?_
    refine (propRead_triple p hp).bind (K := propF q') (by perm) fun d _ => ?_
    refine (propSetData_triple { q' with attr := p.attr } d).bind (K := propF p) (by simp only [propF] <;> perm) fun r hr => ?_
    exact .pure (by simp [opt]) ⟨fun _ => rfl, fun _ h => by cases h; exact hr.1⟩

end Uecho.Lemmas.Short
