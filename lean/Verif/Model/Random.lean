import Verif.Model.Wait
/-!
# src/uecho/util/timer.c: random numbers and waiting times

Floating-point arithmetic: an operation gives `rnd` of the exact result. `rand` gives a number from 0 to `RAND_MAX`.
-/
namespace Uecho.Wait
open Uecho

/-- `RAND_MAX` of the C library. -/
def randMax : Nat := 2 ^ 31 - 1

/-- `uecho_random` — src/uecho/util/timer.c:64-74, for the answer `r` of `rand`; without the seed. -/
def random (rnd : Rat → Rat) (r : Nat) : Rat := rnd (rnd (r : Rat) / rnd (randMax : Rat))

/-- `uecho_waitrandom` — src/uecho/util/timer.c:40-48, for the answer `r` of `rand`: the time passed to `uecho_wait`. The conversion to `long` drops the fraction. -/
def waitRandom (rnd : Rat → Rat) (r mtime : Nat) : Nat :=
  let factor := rnd (rnd (r : Rat) / rnd (randMax : Rat))
  (rnd (rnd (mtime : Rat) * factor)).floor.toNat

end Uecho.Wait
