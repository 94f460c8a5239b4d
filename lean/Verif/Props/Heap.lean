import Verif.Lemmas.HeapCalls
/-! # C107: memory of properties and messages -/
namespace Uecho.Props
open Uecho Uecho.Spec Uecho.Lemmas Uecho.Lemmas.Blocks Uecho.Heap

/-- **C107**: whatever calls an application makes on properties and messages, in any order, by the rules of use in `Spec/Heap`:
no freed block is used or freed again, and the blocks allocated are those that were allocated before and
exactly those of the properties and messages that the application still holds. -/
theorem C107_calls_memory_safe (cs : List Call) (m0 : Mem) (h : Sound m0) :
    ∃ s m, calls cs .empty m0 = .ok (s, m) ∧ Sound m ∧ m.live.Perm (s.blocks ++ m0.live) := by
  obtain ⟨s, m, e, o, _⟩ := calls_triple cs (s := .empty) (fun x hx => by cases hx) m0.live m0 ⟨by simp [Held.blocks, Held.empty], h⟩
  exact ⟨s, m, e, o.2, o.1⟩

/-- **C107**: an application that has deleted everything it created leaves the heap as it was. -/
theorem C107_no_leak (cs : List Call) (m0 : Mem) (h : Sound m0) (s : Held) (m : Mem) (e : calls cs .empty m0 = .ok (s, m))
    (hp : s.props = []) (hm : s.msgs = []) : m.live.Perm m0.live := by
  obtain ⟨s', m', e', _, hl⟩ := C107_calls_memory_safe cs m0 h
  rw [e] at e'
  cases e'
  simpa [Held.blocks, hp, hm] using hl

example : Sound ⟨[7, 3], 10⟩ := by unfold Sound; decide

/-- Calls that end holding nothing, after real work: the application builds a request, encodes it, parses it back, copies it, compares. -/
def sampleCalls : List Call :=
  [.propNew 0, .propCode 0 0x80, .propSetData 0 [0x30], .propAddData 0 [0x31], .propSetName 0 (some "power"), .propCopy 0 1,
   .propSetInteger 1 7 4, .msgNew 0, .msgAdd 0 .plain 0, .msgAdd 0 .set 1, .msgSetProp 0 .plain 0x80 [1], .msgSetProp 0 .plain 0x81 [2],
   .msgSource 0 (some "192.168.0.2"), .msgBytes 0, .msgCopy 0 1, .msgEquals 0 1, .msgSearch 2, .msgBytes 2,
   .msgParse 1 [0x10, 0x81, 0, 1, 5, 0xFF, 1, 0x0E, 0xF0, 1, 0x62, 2, 0xD6, 0, 0x80, 1, 0x30] 17,
   .msgParse 2 [0x10, 0x81, 0, 1, 5, 0xFF, 1, 0x0E, 0xF0, 1, 0x62, 2, 0xD6, 0, 0x80, 9, 0x30] 17,
   .msgSet 2 1, .msgSet 0 2, .msgDelete 0, .msgClear 1, .msgDelete 1, .msgDelete 2]

/-- What a run leaves. -/
def left (r : Res (Held × Mem)) : Option (Nat × Nat × List Nat × Nat) :=
  match r with
  | .ok (s, m) => some (s.props.length, s.msgs.length, m.live, m.next)
  | .ub => none

example : (left (calls (sampleCalls.take 21) .empty ⟨[7, 3], 10⟩)).map (fun r => (r.2.1, r.2.2.1.length)) = some (3, 32) := by decide +kernel
example : left (calls sampleCalls .empty ⟨[7, 3], 10⟩) = some (0, 0, [7, 3], 74) := by decide +kernel

/-- What is missing from C107: `uecho_message_setopc` on a message that has properties forgets them. However many they are, they and the
array stay allocated for ever. -/
theorem C107_setopc_leaks (c1 c2 : Byte) (h1 : c1 ≠ 0) (h2 : c2 ≠ 0) (m0 : Mem) (h : Sound m0) :
    ∃ m, (do
      let x ← msgNew
      let x ← msgSetOpc x c1
      let x ← msgSetOpc x c2
      msgDelete x : H Unit) m0 = .ok ((), m) ∧ m.live.length = m0.live.length + 1 + 2 * c1.toNat := by
  obtain ⟨x, m1, e1, o1, k1, v1⟩ := msgNew_triple m0.live m0 ⟨by simp, h⟩
  have hn : secF x.plain = [] := by
    cases e1
    rfl
  obtain ⟨y, m2, e2, o2, k2, l2⟩ := msgSetOpc_forgets x k1 c1 h1 m0.live m1 (o1.perm (by simp only [msgF, hn] <;> perm))
  obtain ⟨z, m3, e3, o3, k3, -⟩ := msgSetOpc_forgets y k2 c2 h2 (secF y.plain ++ m0.live) m2
    ⟨o2.1.trans (by simp only [msgF] <;> perm), o2.2⟩
  obtain ⟨u, m4, e4, o4, -⟩ := msgDelete_triple z k3 (secF y.plain ++ m0.live) m3 o3
  refine ⟨m4, ?_, ?_⟩
  · show (msgNew m0 >>= fun r => msgSetOpc r.1 c1 r.2 >>= fun r => msgSetOpc r.1 c2 r.2 >>= fun r => msgDelete r.1 r.2) = _
    rw [e1, Res.bind_ok, e2, Res.bind_ok, e3, Res.bind_ok, e4]
  · have := o4.1.length_eq
    simp only [List.nil_append, List.length_append, l2] at this
    omega

/-- What is missing from C107: a property added to two messages is freed by both. -/
theorem C107_shared_property_violated :
    (do
      let x ← msgNew
      let y ← msgNew
      let p ← propNew
      let x ← msgAdd x p
      let y ← msgAdd y p
      msgDelete x
      msgDelete y : H Unit) ⟨[], 0⟩ = .ub := by decide +kernel

/-- What is missing from C107: the 256th property of a message is written outside the array, for every message with 255. -/
theorem C107_property_256_violated (m : HMsg) (hm : m.plain.cnt = 255) (p : HProp) (h : Mem) : msgAdd m p h = .ub := by
  show (use m.self h >>= _) = Res.ub
  unfold use
  split
  · show (secAdd m.plain p h >>= _) = Res.ub
    unfold secAdd
    rw [if_pos (by rw [hm]; rfl)]
    rfl
  · rfl

end Uecho.Props
