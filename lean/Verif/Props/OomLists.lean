import Verif.Model.OomLists
import Verif.Lemmas.Node
/-!
# C146: the lists of the node profile without memory
-/
namespace Uecho.Props
open Uecho Uecho.Lemmas Uecho.OomLists

theorem oom_writes : ∀ (vs : List Byte) (l : List (Option Byte)),
    writes (some (l ++ List.replicate vs.length none)) l.length vs = .ok (some (l ++ vs.map some))
  | [], l => by simp [writes]
  | v :: vs, l => by
      have hlt : l.length < (l ++ List.replicate (v :: vs).length none).length := by simp
      have hset : (l ++ List.replicate (v :: vs).length none).set l.length (some v) = (l ++ [some v]) ++ List.replicate vs.length none := by
        simp [List.replicate_succ, List.set_append_right]
      unfold writes
      rw [if_pos hlt, hset]
      have := oom_writes vs (l ++ [some v])
      rw [List.length_append, List.length_singleton] at this
      rw [this]
      simp

theorem oom_grow {w cnt : Nat} {done : List Byte} (hd : done.length = w * cnt) :
    grow true (some (none :: done.map some)) (w * (cnt + 1) + 1) = some ((none :: done.map some) ++ List.replicate w none) := by
  have h : w * (cnt + 1) = w * cnt + w := Nat.mul_succ w cnt
  unfold grow
  rw [if_pos rfl]
  simp only [Option.getD_some]
  rw [List.take_of_length_le (by simp; omega)]
  congr 3
  simp; omega

theorem oom_fill {w : Nat} (hw : 0 < w) (r : Nat → Bool) : ∀ (xs : List (List Byte)) (cnt : Nat) (done : List Byte), (∀ x ∈ xs, x.length = w) →
    done.length = w * cnt →
    fillList w r xs cnt (some (none :: done.map some)) =
      if ∀ k, k < xs.length → r (cnt + 1 + k) = true then .ok (some (none :: (done ++ xs.flatten).map some)) else .ub
  | [], cnt, done, _, _ => by simp [fillList]
  | x :: xs, cnt, done, hx, hd => by
      have hxl : x.length = w := hx x (List.mem_cons_self ..)
      unfold fillList
      simp only
      cases hr : r (cnt + 1) with
      | false =>
        rw [if_neg (by intro h; have := h 0 (by simp); rw [Nat.add_zero, hr] at this; cases this)]
        unfold grow
        cases x with
        | nil => simp at hxl; omega
        | cons v vs => rfl
      | true =>
        rw [oom_grow hd]
        have hlen : (none :: done.map some : List (Option Byte)).length = w * (cnt + 1 - 1) + 1 := by simp [hd]
        have hwr := oom_writes x (none :: done.map some)
        rw [hxl, hlen] at hwr
        rw [hwr, Res.bind_ok]
        have hcons : (none :: done.map some ++ x.map some : List (Option Byte)) = none :: (done ++ x).map some := by simp
        rw [hcons, oom_fill hw r xs (cnt + 1) (done ++ x) (fun y hy => hx y (List.mem_cons_of_mem _ hy)) (by
          rw [List.length_append, hd, hxl, Nat.mul_succ])]
        have hiff : (∀ k, k < xs.length → r (cnt + 1 + 1 + k) = true) ↔ ∀ k, k < (x :: xs).length → r (cnt + 1 + k) = true := by
          constructor
          · intro h k hk
            cases k with
            | zero => exact hr
            | succ k =>
              have := h k (by simpa using hk)
              rwa [show cnt + 1 + 1 + k = cnt + 1 + (k + 1) by omega] at this
          · intro h k hk
            have := h (k + 1) (by simpa using hk)
            rwa [show cnt + 1 + (k + 1) = cnt + 1 + 1 + k by omega] at this
        simp only [hiff, List.flatten_cons, List.append_assoc]

theorem oom_flatten_length {w : Nat} : ∀ xs : List (List Byte), (∀ x ∈ xs, x.length = w) → xs.flatten.length = xs.length * w
  | [], _ => by simp
  | x :: xs, h => by
      rw [List.flatten_cons, List.length_append, oom_flatten_length xs (fun y hy => h y (List.mem_cons_of_mem _ hy)), h x (List.mem_cons_self ..),
        List.length_cons, Nat.succ_mul, Nat.add_comm]

theorem oom_finish {w : Nat} {xs : List (List Byte)} (hx : ∀ x ∈ xs, x.length = w) {cnt : Nat} (hc : cnt ≤ xs.length) (c : Byte) :
    (wr (none :: xs.flatten.map some) 0 (some c) >>= fun buf => rdN buf 0 (cnt * w + 1) >>= fun d => PropertyMap.initialised d) =
      .ok (c :: xs.flatten.take (cnt * w)) := by
  have := listData_eq c xs.flatten (cnt * w) (by rw [oom_flatten_length xs hx]; exact Nat.mul_le_mul_right _ hc)
  exact this

/-- **C146.** The list of the classes (`w = 2`) or of the instances (`w = 3`) of a node is built if the request of every entry is granted,
and, if there are no entries, the first one: then it is the number of entries, at most 255, and the entries. In all other cases, which the code
does not check, it writes through NULL. -/
theorem C146_lists_violated {w : Nat} (hw : 0 < w) (xs : List (List Byte)) (hx : ∀ x ∈ xs, x.length = w) (r : Nat → Bool) :
    ((∀ k, k < xs.length → r (k + 1) = true) ∧ (xs = [] → r 0 = true) →
      build w xs r = .ok (BitVec.ofNat 8 (min xs.length 255) :: xs.flatten.take (min xs.length 255 * w))) ∧
    (¬ ((∀ k, k < xs.length → r (k + 1) = true) ∧ (xs = [] → r 0 = true)) → build w xs r = .ub) := by
  have hmin : (if 255 < xs.length then 255 else xs.length) = min xs.length 255 := by
    by_cases h : 255 < xs.length
    · rw [if_pos h]; omega
    · rw [if_neg h]; omega
  have hstart : ∀ b : Block, (b = some [none] ∨ (b = none ∧ xs ≠ [])) → fillList w r xs 0 b = fillList w r xs 0 (some [none]) := by
    rintro b (rfl | ⟨rfl, h⟩)
    · rfl
    · cases xs with
      | nil => exact absurd rfl h
      | cons x xs =>
        unfold fillList
        simp only
        have : grow (r (0 + 1)) none (w * (0 + 1) + 1) = grow (r (0 + 1)) (some [none]) (w * (0 + 1) + 1) := by
          unfold grow
          cases r (0 + 1)
          · rfl
          · simp [List.replicate_succ]
        rw [this]
  have hgrow : grow (r 0) none 1 = if r 0 then some [none] else none := by
    unfold grow; cases r 0 <;> rfl
  have hf := oom_fill hw r xs 0 [] hx (by simp)
  simp only [List.map_nil, List.nil_append, Nat.zero_add, Nat.add_comm 1] at hf
  unfold build
  rw [hmin, hgrow]
  by_cases he : xs = []
  · subst he
    cases hr : r 0 with
    | false => exact ⟨fun h => by simp at h, fun _ => rfl⟩
    | true =>
      refine ⟨fun _ => ?_, fun h => absurd ⟨by simp, fun _ => rfl⟩ h⟩
      exact oom_finish (xs := []) hx (Nat.le_refl 0) 0#8
  · have hb : fillList w r xs 0 (if r 0 then some [none] else none) = fillList w r xs 0 (some [none]) := by
      apply hstart
      cases r 0
      · exact .inr ⟨rfl, he⟩
      · exact .inl rfl
    rw [hb, hf]
    refine ⟨fun h => ?_, fun h => ?_⟩
    · rw [if_pos h.1, Res.bind_ok]
      exact oom_finish hx (by omega) _
    · rw [if_neg (fun h' => h ⟨h', fun h'' => absurd h'' he⟩)]
      rfl

/-- the list of a node with a light, with memory and without -/
example : build 3 [[0x02#8, 0x91#8, 0x01#8]] (fun _ => true) = .ok [0x01#8, 0x02#8, 0x91#8, 0x01#8] ∧
    build 3 [[0x02#8, 0x91#8, 0x01#8]] (fun k => k ≠ 0) = .ok [0x01#8, 0x02#8, 0x91#8, 0x01#8] ∧
    build 3 [[0x02#8, 0x91#8, 0x01#8]] (fun k => k ≠ 1) = .ub := by decide +kernel

end Uecho.Props
