import Verif.Model.OomRecv
/-!
# C146: the receivers without memory
-/
namespace Uecho.Props
open Uecho Uecho.OomRecv

/-- **C146, partial** (there is memory, and no error). Every datagram is passed on, in the order of arrival, nothing is left behind and the
receiver goes on. -/
theorem C146_receiver_partial : ∀ (ds : List (List Byte)) (s : OomRecv.St),
    OomRecv.loop s (ds.map fun d => ⟨true, some d, true⟩) = ({ s with passed := s.passed ++ ds }, true)
  | [], s => by simp [OomRecv.loop]
  | d :: ds, s => by
      simp only [List.map_cons, OomRecv.loop, reduceCtorEq, if_false, Nat.add_sub_cancel]
      rw [C146_receiver_partial ds]
      simp

theorem oomRecv_turns : ∀ (ts : List (List Byte × Bool)) (s : OomRecv.St) (later : List Turn),
    OomRecv.loop s (ts.map (fun t => ⟨true, some t.1, t.2⟩) ++ later) =
      OomRecv.loop ⟨s.packets + (ts.filter fun t => t.2 = false).length, s.messages, s.passed ++ (ts.filter fun t => t.2 = true).map (·.1)⟩ later
  | [], s, later => by simp
  | (d, m) :: ts, s, later => by
      simp only [List.map_cons, List.cons_append, OomRecv.loop, reduceCtorEq, if_false, Nat.add_sub_cancel]
      cases m with
      | false =>
        rw [if_pos rfl, oomRecv_turns ts]
        simp [Nat.add_assoc, Nat.add_comm 1]
      | true =>
        rw [if_neg (by decide), oomRecv_turns ts]
        simp

/-- **C146, violated part.** A datagram for whose message there is no memory is lost, and its packet is never freed, while the receiver goes on:
every such datagram is one more. The first time there is no memory for a packet the receiver ends, and whatever comes later is not
received, however much memory there is then. -/
theorem C146_receiver_violated (ts : List (List Byte × Bool)) (s : OomRecv.St) :
    (∃ s', OomRecv.loop s (ts.map fun t => ⟨true, some t.1, t.2⟩) = (s', true) ∧
      s'.packets = s.packets + (ts.filter fun t => t.2 = false).length ∧ s'.messages = s.messages ∧
      s'.passed = s.passed ++ (ts.filter fun t => t.2 = true).map (·.1)) ∧
    ∀ (x : Turn) (later : List Turn), x.packet = false →
      ∃ s', OomRecv.loop s (ts.map (fun t => ⟨true, some t.1, t.2⟩) ++ x :: later) = (s', false) ∧
        s'.passed = s.passed ++ (ts.filter fun t => t.2 = true).map (·.1) := by
  refine ⟨⟨⟨s.packets + (ts.filter fun t => t.2 = false).length, s.messages, s.passed ++ (ts.filter fun t => t.2 = true).map (·.1)⟩, ?_, rfl, rfl,
    rfl⟩, ?_⟩
  · have := oomRecv_turns ts s []
    rw [List.append_nil] at this
    rw [this]; rfl
  · intro x later hx
    rw [oomRecv_turns ts s (x :: later)]
    unfold OomRecv.loop
    rw [if_pos hx]
    exact ⟨_, rfl, rfl⟩

/-- two datagrams, the first without memory for its message; then no memory for a packet -/
example : OomRecv.loop ⟨0, 0, []⟩ [⟨true, some [1#8], false⟩, ⟨true, some [2#8], true⟩, ⟨false, none, true⟩, ⟨true, some [3#8], true⟩] =
    (⟨1, 0, [[2#8]]⟩, false) := by decide

end Uecho.Props
