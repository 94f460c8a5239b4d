import Verif.Spec.Frame
import Verif.Model.NodeListener
/-!
# Specification: what a request does to an object

The object is seen as a map from property codes to properties; a request is a list of pairs of
code and data (a section of a frame). Handlers are seen as the list of registrations.
-/
namespace Uecho.Spec
open Uecho

/-- Every handler registered for exactly this service and this property accepts. -/
def accepts (hs : List Observer) (esv c : Byte) (p : Property) (d : List Byte) : Bool :=
  hs.all fun x => !(x.esv == esv && x.code == c) ||
    match x.handler with
    | some h => h p esv d
    | none => true

/-- The map of an object. -/
abbrev PMap := Byte → Option Property

/-- Storing data in an existing property leaves name, attribute, type and parent as they are. -/
def PMap.store (σ : PMap) (c : Byte) (d : List Byte) : PMap :=
  fun k => if k = c then (σ k).map fun p => { p with data := d } else σ k

/-- The property exists and nobody refuses. -/
def granted (hs : List Observer) (esv : Byte) (σ : PMap) (q : Prop8) : Bool :=
  match σ q.1 with
  | some p => accepts hs esv q.1 p q.2
  | none => false

/-- Writing a section, in order. -/
def writeSection (hs : List Observer) (esv : Byte) : PMap → List Prop8 → PMap
  | σ, [] => σ
  | σ, q :: qs => writeSection hs esv (if granted hs esv σ q then σ.store q.1 q.2 else σ) qs

/-- Which of the properties of a write section were granted, each judged in the state its
predecessors left. -/
def writeVerdicts (hs : List Observer) (esv : Byte) : PMap → List Prop8 → List Bool
  | _, [] => []
  | σ, q :: qs =>
      granted hs esv σ q ::
        writeVerdicts hs esv (if granted hs esv σ q then σ.store q.1 q.2 else σ) qs

/-- The answer to a write section: no data for what was accepted, `refused q` for what was not. -/
def writeReply (hs : List Observer) (esv : Byte) (refused : Prop8 → List Byte) :
    PMap → List Prop8 → List Prop8
  | _, [] => []
  | σ, q :: qs =>
      (q.1, if granted hs esv σ q then [] else refused q) ::
        writeReply hs esv refused (if granted hs esv σ q then σ.store q.1 q.2 else σ) qs

/-- The answer to a read section: current data where granted, nothing elsewhere. -/
def readSection (hs : List Observer) (esv : Byte) (σ : PMap) (qs : List Prop8) : List Prop8 :=
  qs.map fun q => (q.1, match σ q.1 with
    | some p => if accepts hs esv q.1 p q.2 then p.data else []
    | none => [])

/-- The codes of a section. -/
def codes (qs : List Prop8) : List Byte := qs.map (·.1)

/-- The codes of a frame body. -/
def Body.codes : Body → List (List Byte)
  | .plain ps => [Spec.codes ps]
  | .setGet s g => [Spec.codes s, Spec.codes g]

/-- The services a node reacts to: SetI, SetC, Get, INF_REQ, SetGet, INFC. -/
def IsRequestEsv (esv : Byte) : Prop :=
  esv = 0x60 ∨ esv = 0x61 ∨ esv = 0x62 ∨ esv = 0x63 ∨ esv = 0x6E ∨ esv = 0x74

instance (e : Byte) : Decidable (IsRequestEsv e) := by unfold IsRequestEsv; infer_instance

/-- Success responses of the protocol (SetI has none). -/
def successEsv (esv : Byte) : Option Byte :=
  if esv = 0x61 then some 0x71 else if esv = 0x62 then some 0x72 else if esv = 0x63 then some 0x73
  else if esv = 0x74 then some 0x7A else if esv = 0x6E then some 0x7E else none

/-- "Response not possible" codes of the protocol (INFC has none). -/
def errorEsv (esv : Byte) : Option Byte :=
  if esv = 0x60 then some 0x50 else if esv = 0x61 then some 0x51 else if esv = 0x62 then some 0x52
  else if esv = 0x63 then some 0x53 else if esv = 0x6E then some 0x5E else none

/-- The object code of three EOJ bytes. -/
def eojNat (x : Byte × Byte × Byte) : Nat := x.1.toNat * 65536 + x.2.1.toNat * 256 + x.2.2.toNat

/-- The EOJ of an object. -/
def objEoj (o : Obj) : Byte × Byte × Byte := (o.grp, o.cls, o.ins)

/-- The first object of the node with this EOJ. -/
def destObj (n : Node) (x : Byte × Byte × Byte) : Option Obj := n.objs.find? fun o => objEoj o == x

/-- A datagram handed to the server layer that is exactly this frame. -/
def sends (to : Option String) (f : Frame) : Effect := .send to ((encode f).map some)

/-- The node profile object 0x0EF001. -/
def profileEoj : Byte × Byte × Byte := (0x0E#8, 0xF0#8, 0x01#8)

/-- No registered handler is a null pointer. -/
def HandlersSet (n : Node) : Prop := ∀ o ∈ n.objs, ∀ x ∈ o.observers, x.handler ≠ none

/-- The services that write. -/
def IsWriteEsv (esv : Byte) : Prop := esv = 0x60 ∨ esv = 0x61 ∨ esv = 0x6E

instance (e : Byte) : Decidable (IsWriteEsv e) := by unfold IsWriteEsv; infer_instance

/-- The properties a request asks to write. -/
def written (f : Frame) : List Prop8 :=
  match f.body with
  | .plain ps => if IsWriteEsv f.esv then ps else []
  | .setGet s _ => s

/-- A status change announcement: a multicast 0x73 frame with one property. -/
def IsAnnouncementOf (q : Prop8) (x : Effect) : Prop :=
  ∃ t seoj deoj, x = sends none ⟨t, seoj, deoj, 0x73, .plain [q]⟩

/-- What a node did with the request frame `f` of address `a`: first calls of message listeners and
status change announcements of written properties, then the response frame, if any, sent to the
requester, or multicast if it is a notification. The decomposition is unique: announcements occur
only for writing services, whose responses are not notifications. -/
def Outcome (f : Frame) (a : String) (eff : List Effect) (resp : Option Frame) : Prop :=
  ∃ pre, eff = pre ++ (match resp with
      | none => []
      | some r => [sends (if r.esv = 0x73 then none else some a) r]) ∧
    ∀ x ∈ pre, x = .nodeListener ∨ (∃ c, x = .objListener c) ∨
      (IsWriteEsv f.esv ∧ ∃ q ∈ written f, IsAnnouncementOf q x)

/-- Every property of the request exists and is accepted. -/
def AllGranted (o : Obj) (f : Frame) : Prop :=
  match f.body with
  | .plain ps =>
      if IsWriteEsv f.esv then ∀ b ∈ writeVerdicts o.observers f.esv o.getProperty ps, b = true
      else ∀ q ∈ ps, granted o.observers f.esv o.getProperty q = true
  | .setGet s g =>
      (∀ b ∈ writeVerdicts o.observers 0x61 o.getProperty s, b = true) ∧
      ∀ q ∈ g, granted o.observers 0x62 (writeSection o.observers 0x61 o.getProperty s) q = true

/-- No section has more than one property. -/
def AtMostOneEach (f : Frame) : Prop :=
  match f.body with
  | .plain ps => ps.length ≤ 1
  | .setGet s g => s.length ≤ 1 ∧ g.length ≤ 1

instance (o f) : Decidable (AllGranted o f) := by unfold AllGranted; cases f.body <;> infer_instance
instance (f) : Decidable (AtMostOneEach f) := by unfold AtMostOneEach; cases f.body <;> infer_instance

/-- Two objects that differ at most in the data of their properties. -/
def OnlyDataDiffers (o o' : Obj) : Prop :=
  o' = { o with props := o'.props } ∧
  o'.props.map (fun p => { p with data := [] }) = o.props.map (fun p => { p with data := [] })

end Uecho.Spec
