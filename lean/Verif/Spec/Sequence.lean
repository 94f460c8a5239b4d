/-!
# Specification: lists as sequences

A world of lists (named by the address of their header) and of elements. An element is in at most one list.
`SeqOp` are the calls of the user, `SeqOp.run` says what each one means, on plain `List`s, and what it returns.
`none`: the call breaks the rules (a list that does not exist, an element that is in a list already, …).
-/
namespace Uecho.Spec

/-- Which lists there are and what they contain; which elements exist outside lists. -/
structure Seqs where
  lists : Nat → Option (List Nat)
  loose : Nat → Bool

/-- The calls. The `Nat`s are addresses. -/
inductive SeqOp where
  /-- allocate and `uecho_list_header_init` -/
  | newList (p : Nat)
  /-- allocate and `uecho_list_node_init` -/
  | newElement (x : Nat)
  | add (p x : Nat)
  /-- `uecho_list_insert`: `x` as the first element of the list `p` -/
  | insertFirst (p x : Nat)
  /-- `uecho_list_insert`: `x` after the element `y` of the list `p` -/
  | insertAfter (p y x : Nat)
  /-- `uecho_list_remove` of the element `x` of the list `p` -/
  | remove (p x : Nat)
  /-- `uecho_list_remove` of an element that is in no list -/
  | removeLoose (x : Nat)
  | clear (p : Nat)
  /-- free an element that is in no list -/
  | freeElement (x : Nat)
  /-- free an empty list -/
  | freeList (p : Nat)
  | size (p : Nat)
  | get (p : Nat) (i : Int)
  | iterate (p : Nat)
  /-- next, previous, and the circular forms, of an element of the list `p` -/
  | next (p x : Nat)
  | prev (p x : Nat)
  | nextCircular (p x : Nat)
  | prevCircular (p x : Nat)

/-- What a call returns. -/
inductive SeqObs where
  | done
  | bool (b : Bool)
  | count (n : Nat)
  | ptr (p : Option Nat)
  | all (l : List Nat)
deriving DecidableEq

/-- The element after (before) `x`. -/
def after (x : Nat) : List Nat → Option Nat
  | [] => none
  | y :: l => if y = x then l.head? else after x l
def before (x : Nat) (l : List Nat) : Option Nat := after x l.reverse

/-- `x` inserted after `y`. -/
def insertAfter (y x : Nat) : List Nat → List Nat
  | [] => []
  | z :: l => if z = y then z :: x :: l else z :: insertAfter y x l

namespace Seqs

/-- The address is used by nothing. -/
def Fresh (w : Seqs) (p : Nat) : Prop :=
  w.loose p = false ∧ w.lists p = none ∧ ∀ q l, w.lists q = some l → p ∉ l

def setList (w : Seqs) (p : Nat) (l : Option (List Nat)) : Seqs :=
  { w with lists := fun q => if q = p then l else w.lists q }
def setLoose (w : Seqs) (x : Nat) (b : Bool) : Seqs :=
  { w with loose := fun y => if y = x then b else w.loose y }

end Seqs

/-- What a call means. -/
inductive SeqOp.Run : Seqs → SeqOp → Seqs → SeqObs → Prop
  | newList {w p} : w.Fresh p → Run w (.newList p) (w.setList p (some [])) .done
  | newElement {w x} : w.Fresh x → Run w (.newElement x) (w.setLoose x true) .done
  | add {w : Seqs} {p x l} : w.lists p = some l → w.loose x = true →
      Run w (.add p x) ((w.setList p (some (l ++ [x]))).setLoose x false) (.bool true)
  | insertFirst {w : Seqs} {p x l} : w.lists p = some l → w.loose x = true →
      Run w (.insertFirst p x) ((w.setList p (some (x :: l))).setLoose x false) (.bool true)
  | insertAfter {w : Seqs} {p y x l} : w.lists p = some l → y ∈ l → w.loose x = true →
      Run w (.insertAfter p y x) ((w.setList p (some (Spec.insertAfter y x l))).setLoose x false) (.bool true)
  | remove {w : Seqs} {p x l} : w.lists p = some l → x ∈ l →
      Run w (.remove p x) ((w.setList p (some (l.erase x))).setLoose x true) (.bool true)
  | removeLoose {w : Seqs} {x} : w.loose x = true → Run w (.removeLoose x) w (.bool true)
  | clear {w : Seqs} {p l} : w.lists p = some l → Run w (.clear p) (w.setList p (some [])) (.bool true)
  | freeElement {w : Seqs} {x} : w.loose x = true → Run w (.freeElement x) (w.setLoose x false) .done
  | freeList {w : Seqs} {p} : w.lists p = some [] → Run w (.freeList p) (w.setList p none) .done
  /-- the number of elements must fit into an `int` -/
  | size {w : Seqs} {p l} : w.lists p = some l → l.length < 2 ^ 31 → Run w (.size p) w (.count l.length)
  | get {w : Seqs} {p l} (i : Int) : w.lists p = some l → Run w (.get p i) w (.ptr l[i.toNat]?)
  | iterate {w : Seqs} {p l} : w.lists p = some l → Run w (.iterate p) w (.all l)
  | next {w : Seqs} {p x l} : w.lists p = some l → x ∈ l → Run w (.next p x) w (.ptr (after x l))
  | prev {w : Seqs} {p x l} : w.lists p = some l → x ∈ l → Run w (.prev p x) w (.ptr (before x l))
  | nextCircular {w : Seqs} {p x l} : w.lists p = some l → x ∈ l →
      Run w (.nextCircular p x) w (.ptr ((after x l).or l.head?))
  | prevCircular {w : Seqs} {p x l} : w.lists p = some l → x ∈ l →
      Run w (.prevCircular p x) w (.ptr ((before x l).or l.getLast?))

/-- A history of calls with what they return, from a world without lists. -/
inductive SeqHistory : List (SeqOp × SeqObs) → Seqs → Prop
  | nil : SeqHistory [] ⟨fun _ => none, fun _ => false⟩
  | snoc {hs w w' op ob} : SeqHistory hs w → SeqOp.Run w op w' ob → SeqHistory (hs ++ [(op, ob)]) w'

end Uecho.Spec
