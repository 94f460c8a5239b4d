import Verif.Model.Strings
/-!
# Specification vocabulary for the string functions
-/
namespace Uecho.Spec
open Uecho

/-- No zero among the characters. -/
def NoZero (s : List Byte) : Prop := ∀ c ∈ s, c ≠ 0#8

/-- The block holds the string `s`. -/
def HoldsText (m s : List Byte) : Prop := NoZero s ∧ ∃ rest, m = s ++ 0#8 :: rest

/-- `t` is `s` without the characters of `set` at both ends. -/
def Trimmed (set s t : List Byte) : Prop :=
  ∃ a b, s = a ++ t ++ b ∧ (∀ c ∈ a, c ∈ set) ∧ (∀ c ∈ b, c ∈ set) ∧ (∀ c, t.head? = some c → c ∉ set) ∧ (∀ c, t.getLast? = some c → c ∉ set)

/-- `ts` are the tokens of `s`: the longest pieces without characters of `set`. -/
inductive Tokens (set : List Byte) : List Byte → List (List Byte) → Prop
  | none {d} : (∀ c ∈ d, c ∈ set) → Tokens set d []
  | some {d t rest ts} : (∀ c ∈ d, c ∈ set) → t ≠ [] → (∀ c ∈ t, c ∉ set) → (∀ c, rest.head? = some c → c ∈ set) → Tokens set rest ts →
      Tokens set (d ++ t ++ rest) (t :: ts)

/-- `out` is `text` with the patterns replaced from left to right, the first matching pattern of the list at each place. -/
inductive Replaced (ps : List (List Byte × List Byte)) : List Byte → List Byte → Prop
  | nil : Replaced ps [] []
  | hit {before f to after rest out} : ps = before ++ (f, to) :: after → (∀ p ∈ before, ¬ p.1 <+: f ++ rest) →
      Replaced ps rest out → Replaced ps (f ++ rest) (to ++ out)
  | miss {c rest out} : (∀ p ∈ ps, ¬ p.1 <+: c :: rest) → Replaced ps rest out → Replaced ps (c :: rest) (c :: out)

/-- The white characters: space, tabulator, line feed, vertical tabulator, form feed, carriage return. -/
def White (c : Byte) : Prop := c ∈ [0x20#8, 0x09#8, 0x0A#8, 0x0B#8, 0x0C#8, 0x0D#8]

/-- No pattern is empty or the beginning of another one. -/
def PrefixFree (ps : List (List Byte × List Byte)) : Prop :=
  (∀ p ∈ ps, p.1 ≠ []) ∧ ps.Pairwise fun p q => ¬ p.1 <+: q.1 ∧ ¬ q.1 <+: p.1

end Uecho.Spec
