import Verif.Model.SearchCmd
/-!
# examples/controller/uechobench: the command that asks the found nodes again and again

`uechobench -v -n count`, after the search. Simplified as in `Model/SearchCmd.lean`: datagrams are handled while the command waits for a response,
one at a time, and not between; every send succeeds. The walk over the objects of a node is that of `uechosearch`, line by line
(examples/controller/uechobench/uechobench.c:85-115 and examples/controller/uechosearch/uechosearch.c:111-143), so that its model is used. Without
`-v` nothing is sent; that is left out, and so are the start of the controller and the layout of what is printed.
-/
namespace Uecho.BenchCmd
open Uecho Uecho.SearchCmd

/-- The command: as `uechosearch`, and the addresses that were printed. -/
structure BSt where
  s : St
  heads : List (Option String)

/-- `benchmark_founddevices` — examples/controller/uechobench/uechobench.c:52-120, verbose, at node `i`. `none`: it has not ended after `fuel`
rounds. -/
def benchNodes (e : Endian) (db : Db) (w : Nat → List Arrival) (rounds : Nat) : Nat → Nat → BSt → Res (Option BSt)
  | 0, _, _ => .ok none
  | fuel + 1, i, b =>
    match b.s.c.nodes[i]? with
    | none => .ok (some b)
    | some n => do
        match ← askObjs e db w rounds rounds i 0 b.s with
        | none => return none
        | some s => benchNodes e db w rounds fuel (i + 1) ⟨s, b.heads ++ [n.address]⟩

/-- The loop of `main` — examples/controller/uechobench/uechobench.c:182-184, for `n` more times. -/
def passes (e : Endian) (db : Db) (w : Nat → List Arrival) (rounds : Nat) : Nat → BSt → Res (Option BSt)
  | 0, b => .ok (some b)
  | n + 1, b => do
      match ← benchNodes e db w rounds rounds 0 b with
      | none => return none
      | some b => passes e db w rounds n b

/-- `repeatCnt = atoi(optarg)` — examples/controller/uechobench/uechobench.c:129,150: an `int` becomes a `size_t` of 64 bits. -/
def repeats (v : CInt) : Nat := (v.signExtend 64).toNat

/-- `main` after the search — examples/controller/uechobench/uechobench.c:180-185, with the value that `atoi` returned. -/
def run (e : Endian) (db : Db) (w : Nat → List Arrival) (rounds : Nat) (v : CInt) (c : Ctrl) : Res (Option BSt) :=
  if 0 < c.nodes.length then passes e db w rounds (repeats v) ⟨⟨c, 0, [], []⟩, []⟩ else .ok (some ⟨⟨c, 0, [], []⟩, []⟩)

end Uecho.BenchCmd
