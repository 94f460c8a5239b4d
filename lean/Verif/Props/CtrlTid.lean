import Verif.Lemmas.CtrlTid
import Verif.Props.Controller
/-! # C144: the transaction ids of what a controller sends -/
namespace Uecho.Props
open Uecho Uecho.Spec Uecho.Lemmas

/-- **C144.** Whatever an application does with a controller (starting it, searching, announcing, posting, changing properties of its node), and
whatever comes in meanwhile: among 65535 messages in a row no two frames of the application carry the same transaction ID, and none carries 0. -/
theorem C144_controller_tids {e : Endian} {db : Db} {c d : Ctrl} (hp : profileEoj ∈ eojs c.node) {k : Nat} {fs : List Frame}
    (h : CtrlSends e db c k fs d) : (k ≤ 65535 → (fs.map (·.tid)).Nodup) ∧ ∀ f ∈ fs, f.tid ≠ (0, 0) := by
  have hs := sends_sublist h hp
  constructor
  · intro hk
    have hn := (tidSeq_nodup k _ hk).sublist hs
    have e1 : fs.map (fun f => tidNat e f.tid) = (fs.map (·.tid)).map (tidNat e) := by rw [List.map_map]; rfl
    rw [e1] at hn
    unfold List.Nodup at hn ⊢
    rw [List.pairwise_map] at hn
    exact hn.imp fun h g => h (by rw [g])
  · intro f hf h0
    have := tidSeq_range _ _ _ (hs.subset (List.mem_map.2 ⟨f, hf, rfl⟩))
    rw [h0] at this
    have h1 : tidNat e (0, 0) = 0 := by cases e <;> rfl
    omega

/-- A search frame of this (little-endian) host. -/
def kSearch (t : Byte) : Frame := ⟨(t, 0), profileEoj, profileEoj, 0x62, .plain [(0xD6, [])]⟩
def kSearched (c : Ctrl) : Ctrl :=
  match c.searchWithEsv .little 0x62 with
  | .ok (c, _) => c
  | .ub => c

/-- Two searches, and an answer to the first in between. -/
example : ∃ d, CtrlSends .little [] kNew 2 [kSearch 1, kSearch 2] d ∧ profileEoj ∈ eojs kNew.node ∧ d.nodes.length = 1 := by
  have h1 : kNew.searchWithEsv .little 0x62 = .ok (kSearched kNew, [kSearch 1].map fun g => .node (sends none g)) := by with_unfolding_all rfl
  have h2 : kRecv (kSearched kNew) "10.0.0.2" kList =
      .ok (kGet (kRecv (kSearched kNew) "10.0.0.2" kList), kHeap, [.status (some "10.0.0.2") .added]) := by with_unfolding_all rfl
  have h3 : (kGet (kRecv (kSearched kNew) "10.0.0.2" kList)).searchWithEsv .little 0x62 =
      .ok (kSearched (kGet (kRecv (kSearched kNew) "10.0.0.2" kList)), [kSearch 2].map fun g => .node (sends none g)) := by with_unfolding_all rfl
  exact ⟨_, .search 0x62 h1 (.receive kOrc none "10.0.0.2" (encode kList) h2 (.search 0x62 h3 .done)), by decide +kernel, by with_unfolding_all rfl⟩

end Uecho.Props
