import Verif.Model.Basic
/-!
# Specification vocabulary for comparing texts and writing numbers
-/
namespace Uecho.Spec
open Uecho

/-- The characters as numbers, to be compared as in a dictionary. -/
def ords (s : List Byte) : List Nat := s.map BitVec.toNat

/-- The same letter, upper or lower case, or the same character. -/
def SameLetter (c d : Byte) : Prop :=
  c = d ∨ (0x41 ≤ c.toNat ∧ c.toNat ≤ 0x5A ∧ d.toNat = c.toNat + 0x20) ∨ (0x41 ≤ d.toNat ∧ d.toNat ≤ 0x5A ∧ c.toNat = d.toNat + 0x20)

/-- The small letter for a capital; other characters are as they are. -/
def smallLetter (c : Byte) : Byte := if 0x41 ≤ c.toNat ∧ c.toNat ≤ 0x5A then BitVec.ofNat 8 (c.toNat + 0x20) else c

/-- The texts differ in upper and lower case only. -/
def SameButCase (a b : List Byte) : Prop :=
  a.length = b.length ∧ ∀ i (ha : i < a.length) (hb : i < b.length), SameLetter a[i] b[i]

/-- `needle` stands in `hay` at position `i`. -/
def OccursAt (needle hay : List Byte) (i : Nat) : Prop := ∃ a b, hay = a ++ needle ++ b ∧ a.length = i

/-- The number that a row of decimal digits stands for. -/
def numeral (t : List Byte) : Nat := t.foldl (fun a c => 10 * a + (c.toNat - 0x30)) 0

/-- `t` is the usual decimal notation of `n`: digits only, no leading zero. -/
def IsNumeral (t : List Byte) (n : Nat) : Prop :=
  t ≠ [] ∧ (∀ c ∈ t, 0x30 ≤ c.toNat ∧ c.toNat ≤ 0x39) ∧ (t.head? = some 0x30#8 → t.length = 1) ∧ numeral t = n

/-- `t` is the usual decimal notation of `v`, with a minus sign if it is negative. -/
def IsDecimal (t : List Byte) (v : Int) : Prop :=
  (0 ≤ v ∧ IsNumeral t v.toNat) ∨ (v < 0 ∧ ∃ u, t = 0x2D#8 :: u ∧ IsNumeral u (-v).toNat)

end Uecho.Spec
