import Verif.Spec.Wait
/-! # C115: waiting for a property or an object -/
namespace Uecho.Lemmas
open Uecho Uecho.Spec Uecho.Wait

theorem pollLoop_spec {α : Type} (known : Nat → Option α) (late : Nat → Nat) (s : Nat) (hs : s * 1000 < 2 ^ 32) : ∀ k now, ∃ r t, pollLoop known late s k now = .ok (r, t) ∧
    (0 < k → r = known t) ∧ (r = none → now + k * (1000 * s) ≤ t) ∧
    (Stays known → ∀ T p, known T = some p → 0 < k → T ≤ now + k * (1000 * s) → r = some p) ∧
    (∀ d, (∀ x, late x ≤ d) → Stays known → ∀ T p, now ≤ T → known T = some p → r = some p → t ≤ T + 1000 * s + d) ∧
    (∀ d, (∀ x, late x ≤ d) → t ≤ now + k * (1000 * s) + k * d) ∧ now ≤ t := by
  have hu : sleepTime s = .ok (1000 * s) := by
    rw [sleepTime, if_pos (by omega)]
    congr 1
    omega
  intro k
  induction k with
  | zero =>
    intro now
    exact ⟨none, now, rfl, by simp, by simp, by simp, fun _ _ _ _ _ h _ _ => by omega, by simp, Nat.le_refl _⟩
  | succ k ih =>
    intro now
    simp only [pollLoop, hu, Res.bind_ok]
    obtain ⟨n', hn'⟩ : ∃ n', n' = now + 1000 * s + late now := ⟨_, rfl⟩
    rw [← hn']
    have hm : (k + 1) * (1000 * s) = k * (1000 * s) + 1000 * s := by rw [Nat.add_mul, Nat.one_mul]
    have hd : ∀ d, (k + 1) * d = k * d + d := fun d => by rw [Nat.add_mul, Nat.one_mul]
    rcases h : known n' with _ | p
    · obtain ⟨r, t, e, h1, h2, h3, h4, h5, h6⟩ := ih n'
      refine ⟨r, t, e, fun _ => ?_, fun hr => ?_, fun hst T q hq _ hT => ?_, fun d hl hst T q hT hq hr => ?_, fun d hl => ?_, by omega⟩
      · rcases k with _ | k
        · simp only [pollLoop, Res.ok.injEq, Prod.mk.injEq] at e
          rw [← e.1, ← e.2, h]
        · exact h1 (by omega)
      · have := h2 hr; rw [hm]; omega
      · have hlt : n' < T := by
          refine Nat.lt_of_not_le fun hle => ?_
          have := hst T n' q hle hq
          rw [h] at this
          cases this
        have hk : 0 < k := by
          rcases k with _ | k
          · rw [hm] at hT; omega
          · omega
        exact h3 hst T q hq hk (by rw [hm] at hT; omega)
      · have hlt : n' < T := by
          refine Nat.lt_of_not_le fun hle => ?_
          have := hst T n' q hle hq
          rw [h] at this
          cases this
        exact h4 d hl hst T q (by omega) hq hr
      · have h5 := h5 d hl
        have := hl now
        rw [hm, hd]
        omega
    · refine ⟨some p, n', rfl, fun _ => h.symm, (by intro h; cases h), fun hst T q hq _ _ => ?_, fun d hl hst T q hT hq hr => ?_, fun d hl => ?_, by omega⟩
      · rcases Nat.le_total T n' with hle | hle
        · rw [← hst T n' q hle hq, h]
        · rw [← hst n' T p hle h, hq]
      · have := hl now; omega
      · have := hl now
        rw [hm, hd]
        omega

theorem waited {α : Type} (known : Nat → Option α) (late : Nat → Nat) (w : Nat) (hw : w / 20 * 1000 < 2 ^ 32) :
    ∃ r t, pollLoop known late (w / 20) 20 0 = .ok (r, t) ∧ Waited known late w r t := by
  obtain ⟨r, t, e, h1, h2, h3, h4, h5, h6⟩ := pollLoop_spec known late (w / 20) hw 20 0
  refine ⟨r, t, e, h1 (by omega), fun h => ?_, fun hs T p hp hT => ?_, fun d hl hs T p hp hr => ?_, fun d hl => ?_⟩
  · have := h2 h; omega
  · exact h3 hs T p hp (by omega) (by omega)
  · have := h4 d hl hs T p (by omega) hp hr; omega
  · have := h5 d hl; omega

end Uecho.Lemmas

namespace Uecho.Props
open Uecho Uecho.Spec Uecho.Lemmas Uecho.Wait

/-- **C115**, for waiting times below 85899360 milliseconds (23 hours): waiting for a property is waiting as it should be, except that up to 19 milliseconds are
missing. Missing: longer times, see `C115_overflow_violated`, and these milliseconds, see `C115_short_violated`. -/
theorem C115_property_partial (o : Nat → Obj) (late : Nat → Nat) (code : Byte) (w : Nat) (hw : w < 85899360) : ∃ r t, getPropertyWait o late code w = .ok (r, t) ∧
    Waited (fun t => (o t).getProperty code) late w r t :=
  waited _ late w (by omega)

/-- **C115.** The same for waiting for an object of another node. -/
theorem C115_object_partial (c : Nat → Ctrl) (late : Nat → Nat) (code : CInt) (w : Nat) (hw : w < 85899360) : ∃ r t, getObjectWait c late code w = .ok (r, t) ∧
    Waited (fun t => (c t).getObject code) late w r t :=
  waited _ late w (by omega)

/-- An object that gets the property 0x80 half a second after the call. -/
def lateObject (t : Nat) : Obj := if t < 500000 then .new else Obj.new.addProperty { Property.new with code := 0x80 }

/-- It is found after 500 of 1000 milliseconds, and not within 400. -/
example : (∃ p, getPropertyWait lateObject (fun _ => 0) 0x80 1000 = .ok (some p, 500000)) ∧ getPropertyWait lateObject (fun _ => 0) 0x80 400 = .ok (none, 400000) ∧
    Stays (fun t => (lateObject t).getProperty 0x80) := by
  refine ⟨⟨_, rfl⟩, rfl, ?_⟩
  intro t t' p hle h
  by_cases ht : t < 500000
  · simp only [lateObject, if_pos ht] at h; cases h
  · simp only [lateObject, if_neg ht] at h
    simp only [lateObject, if_neg (show ¬t' < 500000 by omega), h]

theorem pollLoop_fixed {α : Type} (known : Nat → Option α) (s us : Nat) (h : sleepTime s = .ok us) : ∀ k now,
    (us = 0 → pollLoop known (fun _ => 0) s (k + 1) now = .ok (known now, now)) ∧
    ((∀ t, known t = none) → pollLoop known (fun _ => 0) s k now = .ok (none, now + k * us)) := by
  intro k
  induction k with
  | zero =>
    intro now
    refine ⟨fun hu => ?_, fun _ => by simp [pollLoop]⟩
    simp only [pollLoop, h, Res.bind_ok, hu, Nat.add_zero]
    rcases known now <;> rfl
  | succ k ih =>
    intro now
    refine ⟨fun hu => ?_, fun hk => ?_⟩
    · rw [pollLoop, h, Res.bind_ok, hu]
      simp only [Nat.add_zero]
      rcases hn : known now with _ | p
      · simp only
        rw [(ih now).1 hu, hn]
      · rfl
    · rw [pollLoop, h, Res.bind_ok]
      simp only [Nat.add_zero, hk]
      rw [(ih _).2 hk, Nat.add_mul]
      congr 2
      omega

/-- **C115 is violated** for waiting times below 20 milliseconds: there is no wait at all. On a system without delays, the call returns at once with what is known already. -/
theorem C115_short_violated (o : Nat → Obj) (c : Nat → Ctrl) (pc : Byte) (oc : CInt) (w : Nat) (hw : w < 20) :
    getPropertyWait o (fun _ => 0) pc w = .ok ((o 0).getProperty pc, 0) ∧ getObjectWait c (fun _ => 0) oc w = .ok ((c 0).getObject oc, 0) := by
  have h0 : w / 20 = 0 := by omega
  unfold getPropertyWait getObjectWait
  rw [h0]
  exact ⟨(pollLoop_fixed _ 0 0 rfl 19 0).1 rfl, (pollLoop_fixed _ 0 0 rfl 19 0).1 rfl⟩

/-- **C115 is violated** for long waiting times: the number of microseconds is cut to 32 bits. On a system without delays, a wait of 85899360 milliseconds or more for what
does not become known ends at least 23 hours too early. -/
theorem C115_overflow_violated (o : Nat → Obj) (c : Nat → Ctrl) (pc : Byte) (oc : CInt) (w : Nat) (hw : 85899360 ≤ w) (hm : w * 1000 < 2 ^ 63)
    (ho : ∀ t, (o t).getProperty pc = none) (hc : ∀ t, (c t).getObject oc = none) : ∃ t, getPropertyWait o (fun _ => 0) pc w = .ok (none, t) ∧
    getObjectWait c (fun _ => 0) oc w = .ok (none, t) ∧ t + 20 * 2 ^ 32 ≤ 1000 * w := by
  have h : sleepTime (w / 20) = .ok (w / 20 * 1000 % 2 ^ 32) := if_pos (Nat.lt_of_le_of_lt (Nat.mul_le_mul_right _ (Nat.div_le_self _ _)) hm)
  exact ⟨_, (pollLoop_fixed _ _ _ h 20 0).2 ho, (pollLoop_fixed _ _ _ h 20 0).2 hc, by omega⟩

/-- A wait of 24 hours lasts for 8 minutes. -/
example : getPropertyWait (fun _ => .new) (fun _ => 0) 0x80 86400000 = .ok (none, 500654080) := by
  have h : sleepTime 4320000 = .ok 25032704 := by decide +kernel
  rw [getPropertyWait, show 86400000 / 20 = 4320000 from rfl, (pollLoop_fixed (fun _ => Obj.new.getProperty 0x80) _ _ h 20 0).2 (fun _ => rfl)]

end Uecho.Props
