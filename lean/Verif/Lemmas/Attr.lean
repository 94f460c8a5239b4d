import Verif.Spec.ObjectApi
/-!
# Lemmas about property attributes
-/
set_option linter.unusedSimpArgs false
namespace Uecho.Lemmas
open Uecho Uecho.Spec

theorem mask_ne_zero (a : BitVec 32) (i j : Nat) (hi : i < 32) (hj : j < 32) (m : BitVec 32)
    (hm : ∀ k, m.getLsbD k = (decide (k = i) || decide (k = j))) :
    (a &&& m != 0) = (a.getLsbD i || a.getLsbD j) := by
  rw [Bool.eq_iff_iff, bne_iff_ne, Bool.or_eq_true, ne_eq, ← Decidable.not_iff_not, Decidable.not_not]
  constructor
  · intro h hc
    rcases hc with hc | hc
    · have := congrArg (fun x => x.getLsbD i) h; simp [hm, hc] at this
    · have := congrArg (fun x => x.getLsbD j) h; simp [hm, hc] at this
  · intro h
    apply BitVec.eq_of_getLsbD_eq
    intro k hk
    rw [BitVec.getLsbD_and, hm]
    simp only [not_or] at h
    by_cases h1 : k = i
    · subst h1; simp [h.1]
    · by_cases h2 : k = j
      · subst h2; simp [h.2]
      · simp [h1, h2]

theorem mask_bits (i j : Fin 32) (m : BitVec 32)
    (h : ∀ k : Fin 32, m.getLsbD k = (decide (k = i) || decide (k = j))) :
    ∀ k, m.getLsbD k = (decide (k = i.val) || decide (k = j.val)) := by
  intro k
  by_cases hk : k < 32
  · have := h ⟨k, hk⟩; simp only [Fin.ext_iff] at this; exact this
  · have h1 : k ≠ i.val := by have := i.isLt; omega
    have h2 : k ≠ j.val := by have := j.isLt; omega
    simp [BitVec.getLsbD_of_ge _ _ (Nat.le_of_not_lt hk), h1, h2]

theorem announceable_iff (p : Property) : p.isAnnounceable = true ↔ CanAnnounce p := by
  unfold Property.isAnnounceable CanAnnounce
  rw [mask_ne_zero p.attr 2 6 (by decide) (by decide) _ (mask_bits 2 6 _ (by decide)), Bool.or_eq_true]
theorem readable_iff (p : Property) : p.isReadable = true ↔ CanRead p := by
  unfold Property.isReadable CanRead
  rw [mask_ne_zero p.attr 0 4 (by decide) (by decide) _ (mask_bits 0 4 _ (by decide)), Bool.or_eq_true]
theorem writable_iff (p : Property) : p.isWritable = true ↔ CanWrite p := by
  unfold Property.isWritable CanWrite
  rw [mask_ne_zero p.attr 1 5 (by decide) (by decide) _ (mask_bits 1 5 _ (by decide)), Bool.or_eq_true]

end Uecho.Lemmas
