import Verif.Model.Light
import Verif.Spec.Remote
/-! # Specification for C148: the light -/
namespace Uecho.Spec
open Uecho

/-- Mono functional lighting, instance 1. -/
def lightEoj : Byte × Byte × Byte := (0x02#8, 0x91#8, 0x01#8)

/-- What happens to the running light: a datagram arrives, or it is restarted (SIGHUP) and bound to addresses. -/
inductive LightEvent where
  | datagram (g : Datagram)
  | restart (bound : List String)

/-- The light goes through events, one after the other. -/
def lightRun (e : Endian) : Node → List LightEvent → Res Node
  | n, [] => .ok n
  | n, .datagram g :: es => do
      let (n, _) ← n.receive e g.loc (some g.sender) g.bytes
      lightRun e n es
  | n, .restart b :: es => do
      let (n, _) ← n.start e b
      lightRun e n es

/-- The power after the properties of a write request were written in order: of those for the power, the last one that is one byte. -/
def obey (b : Byte) : List Prop8 → Byte
  | [] => b
  | (c, d) :: qs =>
      match d with
      | [x] => if c = 0x80 then obey x qs else obey b qs
      | _ => obey b qs

/-- The datagram is a request that writes to the light. -/
def WritesLight (g : Datagram) (f : Frame) : Prop :=
  f.WF ∧ (∃ rest, g.bytes = encode f ++ rest) ∧ f.deoj = lightEoj ∧ IsWriteEsv f.esv

/-- The power is `c` after events, if it was `b` before them. -/
inductive PowerAfter : Byte → List LightEvent → Byte → Prop
  | done {b} : PowerAfter b [] b
  | restart {b c bound es} : PowerAfter b es c → PowerAfter b (.restart bound :: es) c
  | written {b c g f es} : WritesLight g f → PowerAfter (obey b (written f)) es c → PowerAfter b (.datagram g :: es) c
  | other {b c g es} : (¬ ∃ f, WritesLight g f) → PowerAfter b es c → PowerAfter b (.datagram g :: es) c

/-- A request for the power of the light, alone. -/
def powerRequest (tid : Byte × Byte) (src : Byte × Byte × Byte) (esv : Byte) (d : List Byte) : Frame :=
  ⟨tid, src, lightEoj, esv, .plain [(0x80#8, d)]⟩

/-- The light says something about its power. -/
def powerReply (tid : Byte × Byte) (dst : Byte × Byte × Byte) (esv : Byte) (d : List Byte) : Frame :=
  ⟨tid, lightEoj, dst, esv, .plain [(0x80#8, d)]⟩

/-- Everything that is sent, to whomever. -/
def allSent (eff : List Effect) : List Effect := eff.filter fun x => match x with
  | .send _ _ => true
  | _ => false

end Uecho.Spec
