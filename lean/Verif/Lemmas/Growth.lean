import Verif.Lemmas.CtrlRecv
/-! # Lemmas for C111: how fast a controller grows -/
namespace Uecho.Lemmas
open Uecho Uecho.Spec

theorem triples_length : ∀ l : List Byte, 3 * (triples l).length ≤ l.length
  | [] => by simp [triples]
  | [_] => by simp [triples]
  | [_, _] => by simp [triples]
  | a :: b :: c :: l => by
    have := triples_length l
    simp only [triples, List.length_cons]
    omega

theorem firsts_length {α : Type} [DecidableEq α] : ∀ l : List α, (firsts l).length ≤ l.length
  | [] => Nat.le_refl _
  | x :: l => by
    have h1 := List.length_filter_le (· ≠ x) (firsts l)
    have h2 := firsts_length l
    simp only [firsts, List.length_cons]
    omega

theorem newCodes_length (k l : List (Byte × Byte × Byte)) : (newCodes k l).length ≤ l.length := by
  unfold newCodes
  exact Nat.le_trans (List.length_filter_le _ _) (firsts_length _)

theorem eojs_length (n : Node) : (eojs n).length = n.objs.length := by unfold eojs; simp

theorem search_data {f : Frame} {d : List Byte} (hf : f.WF) (hs : SearchAnswer f d) : d.length ≤ 255 := by
  have hb := hs.2
  unfold Frame.WF at hf
  rw [hb] at hf
  exact hf.2.2 (214#8, d) List.mem_cons_self

theorem listed_length {f : Frame} {d : List Byte} (hf : f.WF) (hs : SearchAnswer f d) (k : List (Byte × Byte × Byte)) :
    (newCodes k (listedCodes d)).length ≤ 84 := by
  have h1 := newCodes_length k (listedCodes d)
  have h2 := triples_length (d.drop 1)
  have h3 := search_data hf hs
  unfold listedCodes at *
  rw [List.length_drop] at h2
  omega

theorem sum_set (f : Node → Nat) : ∀ (l : List Node) (i : Nat) (n n' : Node) (k : Nat), l[i]? = some n → f n' ≤ f n + k →
    ((l.set i n').map f).sum ≤ (l.map f).sum + k := by
  intro l
  induction l with
  | nil => intro i n n' k h; simp at h
  | cons x l ih =>
    intro i n n' k h hk
    cases i with
    | zero =>
      simp only [List.getElem?_cons_zero, Option.some.injEq] at h
      subst h
      simp only [List.set_cons_zero, List.map_cons, List.sum_cons]; omega
    | succ i =>
      simp only [List.getElem?_cons_succ] at h
      have := ih i n n' k h hk
      simp only [List.set_cons_succ, List.map_cons, List.sum_cons]; omega

end Uecho.Lemmas
