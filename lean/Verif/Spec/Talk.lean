import Verif.Spec.PostCmd
import Verif.Spec.ControllerApi
/-! # Specification for C162: a command and a device talk to each other -/
namespace Uecho.Spec
open Uecho Uecho.PostCmd

/-- uechopost, run with these arguments by a controller `c` that found the node `n` at the address `a`, posts the frame `f` to `a`; and if the
datagram `g` comes from `a` while it waits, whatever happened to the controller since, the post is answered and the command prints `line`.
`req` and `res` are where the two messages are in memory; the listener is not interrupted (C46), and the controller has no null handlers
(C71). -/
def CommandTalks (lenient : Bool) (e : Endian) (db : Db) (v : Vars) (c0 e0 : CInt) (c : Ctrl) (n : Node) (a : String)
    (objT esvT propsT : List Char) (f g : Frame) (line : List Char) : Prop :=
  ∃ m, request lenient v c0 e0 n objT esvT propsT = .ok m ∧ m.isResponseRequired = true ∧
    ∀ (h : Heap) (req res : Nat), req ≠ res → h req = some m →
      ∃ c1 m1, c.postBegin e h (some a) req res true = .ok (c1, h.set req m1, [.node (sends (some a) f)], true) ∧
        ∀ (d : Ctrl) (h2 : Heap) (old : Message), CtrlLater e db .post c1 d → h2 req = some m1 → h2 res = some old → Reachable e old →
          HandlersSet d.node → ∀ (orc : Oracle) (loc : Option String),
            ∃ d' h' ev m', d.receive e db orc h2 loc (some a) (encode g) = .ok (d', h', ev) ∧ CEvent.signal ∈ ev ∧ h' res = some m' ∧
              printResponse m' = .ok line

/-- The texts spell the properties, one each. -/
inductive SpellsEach : List Prop8 → List (List Char) → Prop
  | nil : SpellsEach [] []
  | cons {q t qs ts} : Spells (typed [q]) t → SpellsEach qs ts → SpellsEach (q :: qs) (t :: ts)

/-- The line says who answered, for which object, with which service, and what: the properties are spelled as a user would type them. -/
def Line (a : String) (src : Byte × Byte × Byte) (esv : Byte) (ps : List Prop8) (line : List Char) : Prop :=
  ∃ (o s : List Char) (ts : List (List Char)), Spells [src.1, src.2.1, src.2.2] o ∧ Spells [esv] s ∧ SpellsEach ps ts ∧
    line = a.toList ++ [' '] ++ o ++ [' '] ++ s ++ [' '] ++ ts.flatMap (· ++ [' ']) ++ ['\n']

end Uecho.Spec
