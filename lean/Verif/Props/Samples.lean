import Verif.Spec.MessageApi
import Verif.Spec.Frame
/-! Concrete reachable messages, used to show that hypotheses of theorems are met. -/
namespace Uecho.Props
open Uecho Uecho.Spec

def pA : Property := { Property.new with code := 0x80, data := [0x30] }
def pB : Property := { Property.new with code := 0x8A, data := [1, 2, 3] }
def pC : Property := { Property.new with code := 0xE0, data := [] }

/-- A read request (0x62) with three properties. -/
def samplePlain : Message := { Message.new with esv := 0x62, opc := 3, ep := [pA, pB, pC] }

theorem samplePlain_reachable (e : Endian) : Reachable e samplePlain := by
  have h1 : Reachable e { Message.new with esv := 0x62, opc := 1, ep := [pA] } :=
    .addProperty (.setEsv .new 0x62) pA (by rfl)
  have h2 : Reachable e { Message.new with esv := 0x62, opc := 2, ep := [pA, pB] } :=
    .addProperty h1 pB (by rfl)
  exact .addProperty h2 pC (by rfl)

/-- A SetGet request (0x6E) with one set and two get properties. -/
def sampleSetGet : Message :=
  { Message.new with esv := 0x6E, opcSet := 1, epSet := [pA], opcGet := 2, epGet := [pB, pC] }

theorem sampleSetGet_reachable (e : Endian) : Reachable e sampleSetGet := by
  have h1 : Reachable e { Message.new with esv := 0x6E, opcSet := 1, epSet := [pA] } :=
    .addPropertySet (.setEsv .new 0x6E) pA (by rfl)
  have h2 : Reachable e { Message.new with esv := 0x6E, opcSet := 1, epSet := [pA], opcGet := 1, epGet := [pB] } :=
    .addPropertyGet h1 pB (by rfl)
  exact .addPropertyGet h2 pC (by rfl)

/-- One property of 300 bytes. -/
def sampleLong : Message :=
  { Message.new with opc := 1, ep := [{ Property.new with code := 0x80, data := List.replicate 300 7 }] }

theorem sampleLong_reachable (e : Endian) : Reachable e sampleLong :=
  .addProperty .new _ (by rfl)

end Uecho.Props
