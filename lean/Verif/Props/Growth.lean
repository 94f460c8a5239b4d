import Verif.Lemmas.Growth
import Verif.Props.Controller
/-! # C111: how fast a controller grows -/
namespace Uecho.Props
open Uecho Uecho.Spec Uecho.Lemmas

/-- **C111**, what holds: each datagram adds at most one node and at most 85 objects, whatever it is. -/
theorem C111_growth_partial {e : Endian} {db : Db} {c d : Ctrl} (hc : CtrlReach e db c) {k : Nat} (h : Received e db c k d) :
    CtrlReach e db d ∧ d.nodes.length ≤ c.nodes.length + k ∧ objectCount d ≤ objectCount c + 85 * k := by
  induction h with
  | none => exact ⟨hc, by omega, by omega⟩
  | @more k d d' h h' ev orc loc a x _ hr ih =>
    obtain ⟨hd, h1, h2⟩ := ih
    refine ⟨.receive orc loc a x hd hr, ?_⟩
    suffices d'.nodes.length ≤ d.nodes.length + 1 ∧ objectCount d' ≤ objectCount d + 85 by omega
    rcases receive_any e db orc (reach_cinv hd) hr with ⟨_, rfl, _⟩ | ⟨f, r, n1, ns, st, hf, _, _, rfl, hs, _⟩
    · omega
    · unfold objectCount
      cases hs with
      | ignored => simp only; omega
      | @known l i n n' g1 g2 g3 g4 g5 g6 g7 g8 =>
        have l1 := listed_length hf g1 (eojs n)
        have l2 : n'.objs.length ≤ n.objs.length + 84 := by rw [← eojs_length, ← eojs_length n, g8, List.length_append]; omega
        have := sum_set (fun n => n.objs.length) d.nodes i n n' 84 g4 l2
        simp only [List.length_set] at this ⊢; omega
      | @added l n' g1 g2 g3 g4 g5 g6 g7 =>
        have l1 := listed_length hf g1 [profileEoj]
        have l2 : n'.objs.length ≤ 85 := by rw [← eojs_length, g7, List.length_append]; simp; omega
        simp only [List.length_append, List.map_append, List.sum_append, List.map_cons, List.map_nil, List.sum_cons, List.sum_nil,
          List.length_cons, List.length_nil]; omega
      | @report i n n' u g1 g2 g3 g4 g5 g6 g7 g8 =>
        have l2 : n'.objs.length ≤ n.objs.length + 0 := by rw [← eojs_length, ← eojs_length n, g8]; omega
        have := sum_set (fun n => n.objs.length) d.nodes i n n' 0 g4 l2
        simp only [List.length_set] at this ⊢; omega

/-- One datagram: one node with two objects. -/
example : Received .little [] kNew 1 kCtrl ∧ kCtrl.nodes.length = 1 ∧ objectCount kCtrl = 2 :=
  ⟨.more kOrc none "10.0.0.2" (encode kList) .none kCtrl_recv, by with_unfolding_all rfl, by with_unfolding_all rfl⟩

end Uecho.Props
