import Verif.Spec.Sequence
/-!
# Specification: lists of things with a code, as dictionaries

On top of `Spec/Sequence.lean`: every element has a code, and a list holds at most one element per code.
-/
namespace Uecho.Spec

/-- Lists and elements, and the code of every element. -/
structure Dicts where
  seqs : Seqs
  code : Nat → Int

namespace Dicts

def setCode (w : Dicts) (x : Nat) (c : Int) : Dicts := { w with code := fun y => if y = x then c else w.code y }

/-- The element `x` appended to the list `p`, which holds `l`. -/
def append (w : Dicts) (p x : Nat) (l : List Nat) : Dicts :=
  { w with seqs := (w.seqs.setList p (some (l ++ [x]))).setLoose x false }

end Dicts

/-- The calls. -/
inductive DictOp where
  | newList (p : Nat)
  /-- a new element; its code is 0 -/
  | newElement (x : Nat)
  /-- give an element that is in no list a code -/
  | setCode (x : Nat) (c : Int)
  /-- add an element that is in no list -/
  | add (p x : Nat)
  | find (p : Nat) (c : Int)
  /-- make sure that there is an element with the code; `x` is the address for a new one -/
  | set (p : Nat) (c : Int) (x : Nat)
  /-- the element with the code, a new one if there is none -/
  | getOrNew (p : Nat) (c : Int) (x : Nat)
  /-- delete an element, in the list `p` or in no list -/
  | deleteIn (p x : Nat)
  | deleteLoose (x : Nat)
  /-- delete a list with all its elements -/
  | deleteList (p : Nat)

/-- What a call means: adding replaces the element with the same code. -/
inductive DictOp.Run : Dicts → DictOp → Dicts → SeqObs → Prop
  | newList {w p} : w.seqs.Fresh p → Run w (.newList p) { w with seqs := w.seqs.setList p (some []) } .done
  | newElement {w x} : w.seqs.Fresh x → Run w (.newElement x) ({ w with seqs := w.seqs.setLoose x true }.setCode x 0) .done
  | setCode {w : Dicts} {x c} : w.seqs.loose x = true → Run w (.setCode x c) (w.setCode x c) .done
  | add {w : Dicts} {p x l} : w.seqs.lists p = some l → w.seqs.loose x = true →
      Run w (.add p x) (w.append p x (l.filter fun y => w.code y ≠ w.code x)) (.bool true)
  | find {w : Dicts} {p c l} : w.seqs.lists p = some l → Run w (.find p c) w (.ptr (l.find? fun y => w.code y = c))
  | setOld {w : Dicts} {p c x l} : w.seqs.lists p = some l → (∃ y ∈ l, w.code y = c) → Run w (.set p c x) w (.bool true)
  | setNew {w : Dicts} {p c x l} : w.seqs.lists p = some l → (∀ y ∈ l, w.code y ≠ c) → w.seqs.Fresh x →
      Run w (.set p c x) ((w.setCode x c).append p x l) (.bool true)
  | getOld {w : Dicts} {p c x y l} : w.seqs.lists p = some l → y ∈ l → w.code y = c → Run w (.getOrNew p c x) w (.ptr (some y))
  | getNew {w : Dicts} {p c x l} : w.seqs.lists p = some l → (∀ y ∈ l, w.code y ≠ c) → w.seqs.Fresh x →
      Run w (.getOrNew p c x) ((w.setCode x c).append p x l) (.ptr (some x))
  | deleteIn {w : Dicts} {p x l} : w.seqs.lists p = some l → x ∈ l →
      Run w (.deleteIn p x) { w with seqs := w.seqs.setList p (some (l.erase x)) } .done
  | deleteLoose {w : Dicts} {x} : w.seqs.loose x = true → Run w (.deleteLoose x) { w with seqs := w.seqs.setLoose x false } .done
  | deleteList {w : Dicts} {p l} : w.seqs.lists p = some l → Run w (.deleteList p) { w with seqs := w.seqs.setList p none } .done

/-- A history of calls with what they return, from a world without lists. -/
inductive DictHistory : List (DictOp × SeqObs) → Dicts → Prop
  | nil : DictHistory [] ⟨⟨fun _ => none, fun _ => false⟩, fun _ => 0⟩
  | snoc {hs w w' op ob} : DictHistory hs w → DictOp.Run w op w' ob → DictHistory (hs ++ [(op, ob)]) w'

end Uecho.Spec
