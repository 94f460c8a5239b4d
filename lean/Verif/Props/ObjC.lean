import Verif.Lemmas.ObjC
/-!
# C158: the memory behind the objects of the Objective-C wrapper

Specification: `Spec.ObjC`.
-/
namespace Uecho.Props
open Uecho Uecho.Spec Uecho.ObjC Uecho.Lemmas

theorem objc_inv {os : List Op} {s : St} (h : run os noObjects = .ok s) : OInv s ∧ Tabled s :=
  orun_inv os oinv_empty (by intro w hw; cases hw) h

/-- **C158** (partial: objects that were not made by `init` can outlive what they show, see `C158_dangling_violated`). After any program, nothing that
an object made by `init` shows is gone while the program holds the object; and the next step is defined unless it uses an object that was got from
another one, and whose memory is gone. In particular, nothing is freed twice, and letting go of an object is always defined. -/
theorem C158_defined_partial {os : List Op} {s : St} (h : run os noObjects = .ok s) :
    (∀ r, Owned s r → Alive s r) ∧
    ∀ op, step s op = .ub → ∃ i ∈ usedBy op, ∃ w, s.wraps[i]? = some w ∧ w.held = true ∧ w.weak = true ∧ ¬ Alive s w.region := by
  obtain ⟨hi, ht⟩ := objc_inv h
  refine ⟨?_, fun op hop => ?_⟩
  · rintro r ⟨i, w, hw, hd, hk, hr⟩
    refine hi.alive hw ?_
    rcases hr with rfl | hr
    · simp [ownOf, hd, hk]
    · simp [ownOf, hd, hk, hr]
  · rcases step_spec hi ht op with ⟨s', h1, _⟩ | ⟨_, h2⟩
    · rw [hop] at h1; cases h1
    · exact h2

/-- **C158** (objects got from others). What an object shows stays there whatever the program does, as long as it does not let go of the object
responsible for it, does not start the controller whose nodes it shows, and the observer to which it was handed does not return. -/
theorem C158_borrowed {os ops : List Op} {s s' : St} (h : run os noObjects = .ok s) {r : Nat} (ha : Alive s r) (hn : NeverEnds r ops s)
    (hr : run ops s = .ok s') : Alive s' r := by
  obtain ⟨hi, ht⟩ := objc_inv h
  clear h
  induction ops generalizing s with
  | nil => cases hr; exact ha
  | cons o ops ih =>
    simp only [run, Res.bind_eq_ok] at hr
    obtain ⟨s1, h1, h2⟩ := hr
    rcases step_spec hi ht o with ⟨s2, g1, g2⟩ | ⟨g, _⟩
    · rw [h1] at g1; cases g1
      refine ih ?_ (hn.2 s1 h1) h2 g2.inv g2.tabled
      obtain ⟨k, ha⟩ := ha
      rcases g2.lives r k ha with hl | ⟨_, rfl⟩ | ⟨i, w, hw, hd, hk, ⟨rfl, hx⟩ | ⟨rfl, hx⟩⟩
      · exact ⟨k, hl⟩
      · exact absurd rfl hn.1
      · refine absurd ⟨w, hw, hk, ?_⟩ hn.1
        simp only [ownOf, hd, hk, Bool.not_false, Bool.and_self, if_true, List.mem_cons, Option.mem_toList] at hx
        rcases hx with rfl | hx
        · exact .inl rfl
        · exact .inr hx
      · exact absurd ⟨w, hw, hx⟩ hn.1
    · rw [h1] at g; cases g

/-- **C158** (partial: not the responses of posts, see `C158_response_violated`). Memory that is still allocated belongs to an object that the program
holds, or is a message handed to an observer that has not returned, or the response of a post: a program that lets go of everything leaves nothing
else. -/
theorem C158_freed_partial {os : List Op} {s : St} (h : run os noObjects = .ok s) {r : Nat} {k : Kind} (hr : s.regions[r]? = some ⟨k, true⟩) :
    Owned s r ∨ k = .arrived ∨ k = .response := by
  obtain ⟨hi, _⟩ := objc_inv h
  by_cases hk : ownable k = true
  · left
    have hm := (hi.live r).2 ⟨k, hr, hk⟩
    obtain ⟨w, hw, hx⟩ := List.mem_flatMap.1 hm
    obtain ⟨i, hw⟩ := List.getElem?_of_mem hw
    unfold ownOf at hx
    split at hx
    · rename_i hb
      simp only [Bool.and_eq_true, Bool.not_eq_true'] at hb
      refine ⟨i, w, hw, hb.1, hb.2, ?_⟩
      simp only [List.mem_cons, Option.mem_toList] at hx
      rcases hx with rfl | hx
      · exact .inl rfl
      · exact .inr hx
    · cases hx
  · right
    cases k <;> simp_all [ownable]

/-- a controller, a node, an object of it, a message; a request with a response; everything is let go of -/
def oPost : List Op := [.newController, .node 0, .part 1, .newMessage, .post 0 1 2 3 true, .call 4, .part 4]

def oLetGo : List Op := [.release 5, .release 4, .release 3, .release 2, .release 1, .release 0]

/-- **C158 violated.** The response of a post is never freed, whatever the program does afterwards; also if it lets go of everything. -/
theorem C158_response_violated :
    (∀ (os ops : List Op) (s s' : St) (r : Nat), run os noObjects = .ok s → s.regions[r]? = some ⟨.response, true⟩ → run ops s = .ok s' →
      s'.regions[r]? = some ⟨.response, true⟩) ∧
    ∃ (s : St) (r : Nat), run (oPost ++ oLetGo) noObjects = .ok s ∧ (∀ w ∈ s.wraps, w.held = false) ∧ s.regions[r]? = some ⟨.response, true⟩ := by
  refine ⟨?_, _, 3, rfl, by decide, rfl⟩
  intro os ops s s' r h ha hr
  obtain ⟨hi, ht⟩ := objc_inv h
  clear h
  induction ops generalizing s with
  | nil => cases hr; exact ha
  | cons o ops ih =>
    simp only [run, Res.bind_eq_ok] at hr
    obtain ⟨s1, h1, h2⟩ := hr
    rcases step_spec hi ht o with ⟨s2, g1, g2⟩ | ⟨g, _⟩
    · rw [h1] at g1; cases g1
      refine ih s1 ?_ h2 g2.inv g2.tabled
      rcases g2.lives r _ ha with hl | ⟨hk, _⟩ | ⟨i, w, hw, hd, hk, hx⟩
      · exact hl
      · cases hk
      · have hm : r ∈ ownOf w := by
          rcases hx with ⟨_, hx⟩ | ⟨_, hx⟩
          · exact hx
          · simp [ownOf, hd, hk, hx]
        obtain ⟨k', h3, h4⟩ := (hi.live r).1 (own_mem hw hm)
        rw [ha] at h3; cases h3; cases h4
    · rw [h1] at g; cases g

/-- **C158 violated.** Objects can outlive what they show: a property of a message that was let go of, a node after the controller was started, a
message that an observer kept. -/
theorem C158_dangling_violated :
    run [.newMessage, .part 0, .release 0, .call 1] noObjects = .ub ∧
    run [.newController, .node 0, .start 0, .call 1] noObjects = .ub ∧
    run [.newController, .arrives 0, .returned 2, .call 2] noObjects = .ub := ⟨rfl, rfl, rfl⟩

/-- non-vacuity: a program with all kinds of objects; the node can be used until the controller is started, the property of the message until the
message is let go of -/
example : ∃ s s', run (oPost ++ [.arrives 0, .newProperty]) noObjects = .ok s ∧ Owned s 1 ∧ Alive s 1 ∧ Alive s 2 ∧
    NeverEnds 1 [.release 3, .call 1, .returned 4, .release 8] s ∧ run [.release 3, .call 1, .returned 4, .release 8] s = .ok s' ∧ ¬ Alive s' 2 := by
  refine ⟨_, _, rfl, ⟨0, _, rfl, rfl, rfl, .inr rfl⟩, ⟨_, rfl⟩, ⟨_, rfl⟩, ?_, rfl, ?_⟩
  · refine ⟨?_, fun s1 h1 => ?_⟩
    · rintro ⟨w, h1, h2, h3⟩; cases h1; rcases h3 with h3 | h3 <;> cases h3
    · cases h1
      refine ⟨id, fun s1 h1 => ?_⟩
      cases h1
      refine ⟨by simp [Ends], fun s1 h1 => ?_⟩
      cases h1
      refine ⟨?_, fun s1 h1 => trivial⟩
      rintro ⟨w, h1, h2, h3⟩; cases h1; rcases h3 with h3 | h3 <;> cases h3
  · rintro ⟨k, hk⟩; cases hk

end Uecho.Props
