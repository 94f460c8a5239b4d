import Verif.Model.StdDb
/-!
# Specification vocabulary for the life of the standard database
-/
namespace Uecho.Spec
open Uecho Uecho.StdDb

/-- The event is one of thread `t`. -/
def ByThread (t : Nat) : Ev → Prop
  | .call u => u = t
  | .step u _ => u = t
  | .use u => u = t
  | .exit => False

/-- A finished database: both tables were added, once; and it is allocated. -/
def finished : Db := ⟨1, 1, true⟩

/-- The same after it was freed. -/
def gone : Db := ⟨1, 1, false⟩

/-- Thread `t` has a database. -/
def Has (s : Sys) (t a : Nat) : Prop := s.pc t = .got (some a)

end Uecho.Spec
