import Verif.Model.Message
/-!
# Specification: the ECHONET Lite frame (format 1)

Written from the protocol, not from the code: a frame is a header, a transaction
id, two object codes, a service code (ESV) and one property section, or two
for the SetGet services. Nothing here refers to the model of the parser or the
serialiser, except `Message.toFrame`, which says which frame a message object
stands for (its header fields, and code and data of the properties in its arrays).
-/
namespace Uecho.Spec
open Uecho

/-- One property of a frame: EPC and EDT (PDC is the length of EDT). -/
abbrev Prop8 := Byte × List Byte

/-- EPC, PDC, EDT. -/
def encodeProp (p : Prop8) : List Byte := p.1 :: BitVec.ofNat 8 p.2.length :: p.2

/-- OPC followed by that many properties. -/
def encodeSection (ps : List Prop8) : List Byte :=
  BitVec.ofNat 8 ps.length :: ps.flatMap encodeProp

inductive Body where
  | plain (props : List Prop8)
  | setGet (set get : List Prop8)
deriving DecidableEq, Repr

structure Frame where
  tid : Byte × Byte
  seoj : Byte × Byte × Byte
  deoj : Byte × Byte × Byte
  esv : Byte
  body : Body
deriving DecidableEq, Repr

def encodeBody : Body → List Byte
  | .plain ps => encodeSection ps
  | .setGet s g => encodeSection s ++ encodeSection g

/-- The bytes of a frame. -/
def encode (f : Frame) : List Byte :=
  [0x10, 0x81, f.tid.1, f.tid.2, f.seoj.1, f.seoj.2.1, f.seoj.2.2,
   f.deoj.1, f.deoj.2.1, f.deoj.2.2, f.esv] ++ encodeBody f.body

/-- SetGet services: 0x6E (SetGet), 0x7E (SetGet_Res), 0x5E (SetGet_SNA). -/
def IsSetGet (esv : Byte) : Prop := esv = 0x6E ∨ esv = 0x7E ∨ esv = 0x5E

instance (e : Byte) : Decidable (IsSetGet e) := by unfold IsSetGet; infer_instance

/-- A section is encodable: at most 255 properties of at most 255 bytes. -/
def SectionOK (ps : List Prop8) : Prop :=
  ps.length ≤ 255 ∧ ∀ p ∈ ps, p.2.length ≤ 255

instance (ps : List Prop8) : Decidable (SectionOK ps) := by unfold SectionOK; infer_instance

/-- A well-formed frame: two sections exactly for the SetGet services. -/
def Frame.WF (f : Frame) : Prop :=
  match f.body with
  | .plain ps => ¬ IsSetGet f.esv ∧ SectionOK ps
  | .setGet s g => IsSetGet f.esv ∧ SectionOK s ∧ SectionOK g

instance (f : Frame) : Decidable f.WF := by
  unfold Frame.WF; cases f.body <;> infer_instance

/-- What a property object contributes to a frame. -/
def view (ps : List Property) : List Prop8 := ps.map fun p => (p.code, p.data)

/-- The frame a message object stands for. -/
def toFrame (m : Message) : Frame :=
  { tid := (m.tid0, m.tid1), seoj := m.seoj, deoj := m.deoj, esv := m.esv,
    body := if IsSetGet m.esv then .setGet (view m.epSet) (view m.epGet) else .plain (view m.ep) }

end Uecho.Spec
