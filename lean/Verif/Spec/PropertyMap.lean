import Verif.Model.Basic
/-!
# Specification: ECHONET property map data

Independent of the code. The first byte is the number of codes. Up to 15 codes follow as they are
(format 1). From 16 codes on, 16 bitmap bytes follow (format 2): bit `j` of
bitmap byte `i` stands for code `0x80 + 0x10 * j + i`.
-/
namespace Uecho.Spec

/-- The code that bit `j` of bitmap byte `i` stands for. -/
def mapCode (i j : Nat) : Byte := BitVec.ofNat 8 (0x80 + 0x10 * j + i)

/-- Map data `data` lists code `c`. -/
def MapLists (data : List Byte) (c : Byte) : Prop :=
  ∃ n rest, data = n :: rest ∧
    ((n.toNat ≤ 15 ∧ c ∈ rest.take n.toNat) ∨
     (15 < n.toNat ∧ ∃ i j b, i < 16 ∧ j < 8 ∧ rest[i]? = some b ∧ b.getLsbD j = true ∧
        c = mapCode i j))

/-- Number of codes the data announces. -/
def MapCount (data : List Byte) (n : Nat) : Prop :=
  ∃ b rest, data = b :: rest ∧ b.toNat = n

/-- The (row, column) pairs of the lower half of the bitmap in reading order. -/
def lowCells : List (Nat × Nat) :=
  (List.range 16).flatMap fun i => (List.range 4).map fun j => (i, j)

end Uecho.Spec
