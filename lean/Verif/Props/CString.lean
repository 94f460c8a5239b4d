import Verif.Lemmas.CString
/-!
# C57: strings
-/
namespace Uecho.Props
open Uecho Uecho.Spec Uecho.Lemmas Uecho.CString

/-- The library call of an operation. -/
def textOp (s : Str) : TextOp → Res Str
  | .clear => .ok (clear s)
  | .set v => set s v
  | .setN v len => setN s v len
  | .add v => add s v
  | .addN v len => addN s v len
  | .addRep v n => addRep s v n
  | .addRepN v len n => addRepN s v len n
  | .setPointer v rest => .ok (setPointer s (some (v.map some ++ some 0#8 :: rest)) v.length)

def textOps : Str → List TextOp → Res Str
  | s, [] => .ok s
  | s, op :: ops => do
      let s ← textOp s op
      textOps s ops

theorem textOp_holds {s : Str} {t : Option (List Byte)} (h : Holds s t) (op : TextOp) (hop : op.Ok) :
    ∃ s', textOp s op = .ok s' ∧ Holds s' (op.apply t) := by
  cases op with
  | clear => exact ⟨_, rfl, holds_clear h⟩
  | set v =>
    cases v with
    | none => exact ⟨_, rfl, h⟩
    | some v =>
      obtain ⟨s', e, h'⟩ := holds_setN h (some v) v.length (by simp [TextOp.Ok])
      exact ⟨s', e, by simpa [TextOp.apply] using h'⟩
  | setN v len => exact holds_setN h v len hop
  | add v =>
    cases v with
    | none => exact ⟨_, rfl, h⟩
    | some v =>
      obtain ⟨s', e, h'⟩ := holds_addN h (some v) v.length (by simp [TextOp.Ok])
      exact ⟨s', e, by simpa [TextOp.apply] using h'⟩
  | addN v len => exact holds_addN h v len hop
  | addRep v n =>
    cases v with
    | none => exact ⟨_, addRepN_none s _ n, h⟩
    | some v =>
      obtain ⟨s', e, h'⟩ := holds_addRepN v v.length (by simp) n h
      exact ⟨s', e, by simpa [TextOp.apply] using h'⟩
  | addRepN v len n =>
    cases v with
    | none => exact ⟨_, addRepN_none s _ n, h⟩
    | some v => exact holds_addRepN v len hop n h
  | setPointer v rest =>
    refine ⟨_, rfl, ?_⟩
    simp only [setPointer, TextOp.apply, Holds]
    exact ⟨trivial, by omega, by simp, rest, rfl⟩

theorem textOps_holds {s : Str} {t : Option (List Byte)} (h : Holds s t) (ops : List TextOp) (hop : ∀ op ∈ ops, op.Ok) :
    ∃ s', textOps s ops = .ok s' ∧ Holds s' (ops.foldl TextOp.apply t) := by
  induction ops generalizing s t with
  | nil => exact ⟨s, rfl, h⟩
  | cons op ops ih =>
    obtain ⟨s1, e1, h1⟩ := textOp_holds h op (hop op (by simp))
    obtain ⟨s2, e2, h2⟩ := ih h1 (fun o ho => hop o (by simp [ho]))
    exact ⟨s2, by unfold textOps; rw [e1]; exact e2, h2⟩

/-- C57 (partial: other pointers than NULL are taken over, and a string is not assigned from its own characters): after
any calls on a new string no call has touched memory outside its block, the block holds exactly the characters put
together by the calls followed by a zero byte inside the memory that the string claims, the length is their number, and
a reader gets them up to the first zero among them. -/
theorem C57_terminated_partial (ops : List TextOp) (hop : ∀ op ∈ ops, op.Ok) :
    ∃ s, textOps new ops = .ok s ∧
      match ops.foldl TextOp.apply none with
      | none => s.value = none ∧ CString.length s = 0 ∧ getValue s = .ok none
      | some v => (∃ m rest, s.value = some m ∧ m = v.map some ++ some 0#8 :: rest ∧ v.length < s.memSize ∧
            s.memSize ≤ m.length) ∧
          CString.length s = v.length ∧ getValue s = .ok (some (v.takeWhile (· ≠ 0#8))) := by
  obtain ⟨s, e, h⟩ := textOps_holds (s := new) (t := none) ⟨rfl, rfl⟩ ops hop
  refine ⟨s, e, ?_⟩
  revert h
  generalize ops.foldl TextOp.apply none = t
  intro h
  unfold Holds at h
  cases hv : s.value with
  | none =>
    rw [hv] at h
    cases t with
    | none => exact ⟨rfl, by simp [CString.length, hv], by simp [getValue, hv]⟩
    | some v => exact absurd h (by simp)
  | some m =>
    rw [hv] at h
    cases t with
    | none => exact absurd h (by simp)
    | some v =>
      simp only at h
      obtain ⟨h1, h2, h3, rest, rfl⟩ := h
      refine ⟨⟨_, rest, rfl, rfl, h2, h3⟩, by simp [CString.length, hv, h1], ?_⟩
      simp [getValue, hv, readZ_holds]

example : (∀ op ∈ [TextOp.set (some [65#8, 66#8]), .add none, .addN (some [67#8, 0#8, 68#8]) 3, .addRep (some [69#8]) 2], op.Ok) ∧
    [TextOp.set (some [65#8, 66#8]), .add none, .addN (some [67#8, 0#8, 68#8]) 3, .addRep (some [69#8]) 2].foldl
      TextOp.apply none = some [65#8, 66#8, 67#8, 0#8, 68#8, 69#8, 69#8] := by
  constructor
  · intro op h
    simp only [List.mem_cons, List.not_mem_nil, or_false] at h
    rcases h with rfl | rfl | rfl | rfl <;> simp [TextOp.Ok]
  · rfl

/-- C57 violated: after taking over NULL with a length, the next addition leaves a value that begins with uninitialised
memory. -/
theorem C57_null_pointer_violated (s : Str) (len : Nat) (hlen : 0 < len) (v : List Byte) (hv : v ≠ []) :
    ∃ s', add (setPointer s none len) (some v) = .ok s' ∧ getValue s' = .ub := by
  obtain ⟨len, rfl⟩ : ∃ n, len = n + 1 := ⟨len - 1, by omega⟩
  have hne : v.length ≠ 0 := by simpa using hv
  unfold add addN
  simp only [Option.getD_some, if_neg hne, setPointer, Option.isNone_none, or_true, if_true, rdN_zero (Nat.le_refl _),
    Res.bind_ok, List.take_length]
  have e : realloc none (len + 1 + v.length + 1 + 16) =
      none :: List.replicate len none ++ (List.replicate v.length none ++ List.replicate 17 none) := by
    simp only [realloc, Option.getD_none, List.take_nil, List.nil_append, List.length_nil, Nat.sub_zero,
      List.replicate_append_replicate, ← List.replicate_succ]
    congr 1
  have w1 := wrN_prefix (v.map some) e (by simp)
  simp only [List.length_cons, List.length_replicate] at w1
  rw [w1]
  have w2 : wr (none :: List.replicate len none ++ v.map some ++ List.replicate 17 none) (len + 1 + v.length) (some 0#8) =
      .ok (none :: List.replicate len none ++ v.map some ++ some 0#8 :: List.replicate 16 none) := by
    have := @wr_mid (Option Byte) (none :: List.replicate len none ++ v.map some) (List.replicate 16 none) none (some 0#8)
    rw [show (none :: List.replicate len none ++ v.map some : Block).length = len + 1 + v.length by simp; omega] at this
    exact this
  simp only [Res.bind_ok, w2, Res.pure_eq]
  exact ⟨_, rfl, by simp [getValue, readZ]⟩

/-- C57 violated: assigning a string that has a value from its own characters reads memory that has been freed. -/
theorem C57_self_violated (s : Str) (h : s.value ≠ none) : setOwn s = .ub := by
  unfold setOwn
  cases hv : s.value with
  | none => exact absurd hv h
  | some m => rfl

example : (⟨some [some 65#8, some 0#8], 2, 1⟩ : Str).value ≠ none := by simp

end Uecho.Props
