import Verif.Spec.SearchCmd
import Verif.Spec.Values
/-!
# Specification for C152 and C155: the values that are printed
-/
namespace Uecho.Spec
open Uecho Uecho.SearchCmd

/-- What arrived is an answer to the Get request with this TID: a frame with the same TID and another ESV. -/
def AnswersGet (t : Byte × Byte) (a : Arrival) (f : Frame) : Prop :=
  f.WF ∧ (∃ rest, a.data = encode f ++ rest) ∧ f.tid = t ∧ f.esv ≠ 0x62

/-- The last answer among what arrives, if there is one. -/
def LastAnswer (t : Byte × Byte) (as : List Arrival) : Option Frame → Prop
  | none => ∀ a ∈ as, ∀ f, ¬ AnswersGet t a f
  | some f => ∃ xs a ys, as = xs ++ a :: ys ∧ AnswersGet t a f ∧ ∀ b ∈ ys, ∀ g, ¬ AnswersGet t b g

/-- The properties of a frame, unless it is one of a SetGet. -/
def plainOf (f : Frame) : List (Byte × List Byte) :=
  match f.body with
  | .plain ps => ps
  | .setGet _ _ => []

/-- The manufacturer in the list that an answer with one property names. -/
def makerNamed (ms : List Std.Manufacture) (r : Option Frame) : Option String :=
  match r.map plainOf with
  | some [(_, v)] => (ms.find? fun m => m.code.toNat = beValue v).map (·.name)
  | _ => none

/-- The line says what the last answer to this request says. -/
def ValueOf (ms : List Std.Manufacture) (as : List Arrival) (y : CEvent) (ln : Line) : Prop :=
  ∃ t r, LastAnswer t as r ∧ (∃ a x k, y = .node (sends a ⟨t, profileEoj, x, 0x62, .plain [(k, [])]⟩)) ∧
    match ln with
    | .property _ _ _ d _ => d = r.map fun f => (plainOf f).map (·.2)
    | .node _ nm => nm = makerNamed ms r
    | .object _ _ _ => False

end Uecho.Spec
