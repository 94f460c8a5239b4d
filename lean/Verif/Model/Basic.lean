/-!
# Basic vocabulary of the model

`Byte`, the outcome type `Res` with undefined behaviour as a distinct value,
bounds-checked array access, `size_t` subtraction.
-/
namespace Uecho

/-- C `byte` = `unsigned char` (include/uecho/typedef.h:58). -/
abbrev Byte := BitVec 8

/-- C `int` (32 bit two's complement). -/
abbrev CInt := BitVec 32

/-- Outcome of running a piece of C code: a value, or undefined behaviour. -/
inductive Res (α : Type) where
  | ok (a : α)
  | ub
deriving DecidableEq, Repr

namespace Res

/-- Sequencing: undefined behaviour is absorbing. -/
def bind {α β : Type} (x : Res α) (f : α → Res β) : Res β :=
  match x with
  | ok a => f a
  | ub => ub

instance : Monad Res where
  pure := Res.ok
  bind := Res.bind

variable {α β γ : Type}

@[simp] theorem pure_eq (a : α) : (pure a : Res α) = ok a := rfl
@[simp] theorem bind_ok (a : α) (f : α → Res β) : (ok a >>= f) = f a := rfl
@[simp] theorem bind_ub (f : α → Res β) : ((ub : Res α) >>= f) = ub := rfl
@[simp] theorem map_ok (a : α) (f : α → β) : (f <$> (ok a : Res α)) = ok (f a) := rfl
@[simp] theorem map_ub (f : α → β) : (f <$> (ub : Res α)) = ub := rfl

theorem bind_assoc (x : Res α) (f : α → Res β) (g : β → Res γ) :
    (x >>= f) >>= g = x >>= fun a => f a >>= g := by
  cases x <;> rfl

theorem bind_eq_ok {x : Res α} {f : α → Res β} {b : β} :
    (x >>= f) = ok b ↔ ∃ a, x = ok a ∧ f a = ok b := by
  cases x <;> simp

/-- The outcome is defined. -/
def Defined (x : Res α) : Prop := ∃ a, x = ok a

@[simp] theorem defined_ok (a : α) : (ok a).Defined := ⟨a, rfl⟩

theorem defined_iff_ne_ub {x : Res α} : x.Defined ↔ x ≠ ub := by
  cases x <;> simp [Defined]

end Res

/-- Read `a[i]` of a C array whose allocated block is `a`; out of bounds is UB. -/
def rd {α : Type} (a : List α) (i : Nat) : Res α :=
  match a[i]? with
  | some x => .ok x
  | none => .ub

/-- Write `a[i] = x`; out of bounds is UB. -/
def wr {α : Type} (a : List α) (i : Nat) (x : α) : Res (List α) :=
  if i < a.length then .ok (a.set i x) else .ub

/-- Read `n` consecutive cells from offset `off` (source side of `memcpy`). -/
def rdN {α : Type} (a : List α) (off n : Nat) : Res (List α) :=
  if off + n ≤ a.length then .ok ((a.drop off).take n) else .ub

/-- Write the cells `xs` from offset `off` (destination side of `memcpy`). -/
def wrN {α : Type} (a : List α) (off : Nat) (xs : List α) : Res (List α) :=
  if off + xs.length ≤ a.length then
    .ok (a.take off ++ xs ++ a.drop (off + xs.length))
  else .ub

/-- `size_t` subtraction (wraps modulo 2^64). -/
def szSub (a b : Nat) : Nat := if b ≤ a then a - b else 2 ^ 64 + a - b

end Uecho
