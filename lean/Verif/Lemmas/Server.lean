import Verif.Model.Server
/-! # Lemmas for the server layer -/
set_option linter.unusedSimpArgs false
namespace Uecho.Lemmas
open Uecho Uecho.Server

theorem perform_append (a b : List Observer) : perform (a ++ b) = perform a ++ perform b := by
  induction a with
  | nil => rfl
  | cons o a ih =>
    obtain ⟨obj, h⟩ := o
    cases h <;> cases obj <;> simp [perform, ih]

theorem register_eq (l : List Sub) (os : List Observer) :
    register l os = l.map fun s => { s with observers := s.observers ++ os.filter fun o => o.handler.isSome && o.obj.isSome } := by
  induction os generalizing l with
  | nil => simp [register]
  | cons o os ih =>
    obtain ⟨obj, h⟩ := o
    cases h <;> cases obj <;> simp [register, ih, addObserver, List.map_map]

theorem perform_filter (os : List Observer) : perform (os.filter fun o => o.handler.isSome && o.obj.isSome) = perform os := by
  induction os with
  | nil => rfl
  | cons o os ih =>
    obtain ⟨obj, h⟩ := o
    cases h <;> cases obj <;> simp [perform, ih]

theorem openLoop_ok (os : Os) (k : Kind) (as : List String) :
    (openLoop os k as).2 = as.all (os.openOk k) ∧
    ((openLoop os k as).2 = true → (openLoop os k as).1 = as.map fun a => ⟨some a, false, []⟩) := by
  induction as with
  | nil => simp [openLoop]
  | cons a as ih =>
    unfold openLoop
    by_cases h : os.openOk k a
    · simp only [h, if_true, List.all_cons, Bool.true_and, ih.1, true_and, List.map_cons, List.cons.injEq]
      intro h2
      exact ih.2 (by rw [ih.1]; exact h2)
    · simp [h]

theorem openList_nil (os : Os) (k : Kind) :
    (openList os k []).2 = (!os.ifaces.isEmpty && os.ifaces.all (os.openOk k)) ∧
    ((openList os k []).2 = true → (openList os k []).1 = os.ifaces.map fun a => ⟨some a, false, []⟩) := by
  unfold openList
  have h := openLoop_ok os k os.ifaces
  by_cases he : os.ifaces = []
  · simp [he]
  · have he' : os.ifaces.isEmpty = false := by simp [he]
    simp only [he, if_false, List.map_nil, List.nil_append, he', Bool.not_false, Bool.true_and]
    cases hb : (openLoop os k os.ifaces).2 with
    | true => simp only [if_true]; exact ⟨by rw [← h.1, hb], fun _ => h.2 hb⟩
    | false => simp only [Bool.false_eq_true, if_false]; exact ⟨by rw [← h.1, hb], fun h => by simp at h⟩

theorem startList_opened (os : Os) (k : Kind) (obs : List Observer) (as : List String) :
    (startList os k (as.map fun a => ⟨some a, false, obs⟩)).2 = as.all (os.threadOk k) ∧
    ((startList os k (as.map fun a => ⟨some a, false, obs⟩)).2 = true →
      (startList os k (as.map fun a => ⟨some a, false, obs⟩)).1 = as.map fun a => ⟨some a, true, obs⟩) := by
  induction as with
  | nil => simp [startList, stopList]
  | cons a as ih =>
    simp only [startList, stopList] at ih
    by_cases h : os.threadOk k a
    · simp only [startList, stopList, List.map_cons, List.all_cons, stopSub, startSub, h, Bool.false_eq_true, if_false, if_true,
        Bool.true_and, List.cons.injEq, true_and] at ih ⊢
      exact ih
    · simp [startList, stopList, stopSub, startSub, h]

theorem sendOne_true {net : SendTo} {i : Nat} {o : Out} :
    (sendOne net i o).1 = true ↔ net i = some o.msg.length := by
  unfold sendOne; split <;> simp_all

theorem sendOne_out (net : SendTo) (i : Nat) (o : Out) :
    (sendOne net i o).2 = if (sendOne net i o).1 then [o] else [] := by
  unfold sendOne; split <;> simp

theorem ite_snd_true {α : Type} {c : Prop} [Decidable c] {a b : α}
    (h : (if c then (a, true) else (b, false)).2 = true) : c := by
  by_cases hc : c
  · exact hc
  · rw [if_neg hc] at h; simp at h

theorem ite_snd_false {α : Type} {c : Prop} [Decidable c] {a b : α}
    (h : (if c then (a, true) else (b, false)).2 = false) : (if c then (a, true) else (b, false)).1 = b := by
  by_cases hc : c
  · rw [if_pos hc] at h; simp at h
  · rw [if_neg hc]

end Uecho.Lemmas
