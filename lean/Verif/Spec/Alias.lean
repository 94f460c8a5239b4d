import Verif.Model.Alias
import Verif.Spec.Heap
/-! # Values that are given back to the library -/
namespace Uecho.Spec
open Uecho Uecho.Heap

/-- The block a pointer points into. -/
def Src.blocks {α : Type} (v : Src α) : List Nat := v.blk.toList

/-- The blocks are allocated, and different. -/
def HoldsBlocks (m : Mem) (own : List Nat) : Prop := Sound m ∧ own.Nodup ∧ ∀ a ∈ own, a ∈ m.live

/-- The call succeeds, its result is as said, and the blocks `keep` are still allocated, next to the blocks of the result. -/
def Succeeds {α : Type} (x : Res (α × Mem)) (keep : List Nat) (blocks : α → List Nat) (q : α → Prop) : Prop :=
  ∃ r m, x = .ok (r, m) ∧ q r ∧ HoldsBlocks m (blocks r ++ keep)

/-- Each count of the message is that of its array. -/
def WholeMsg (m : HMsg) : Prop :=
  (slotsOf m.plain.arr).length = m.plain.cnt.toNat ∧ (slotsOf m.set.arr).length = m.set.cnt.toNat ∧ (slotsOf m.get.arr).length = m.get.cnt.toNat

end Uecho.Spec
