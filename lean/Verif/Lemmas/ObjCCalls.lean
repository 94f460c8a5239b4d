import Verif.Spec.ObjCCalls
import Verif.Props.Post
/-! # Lemmas for C159 -/
namespace Uecho.Lemmas
open Uecho Uecho.Spec Uecho.Props

theorem listFrom_eq {o : Byte} {l : List Property} (h : l.length = o.toNat) : ∀ (k n : Nat), n + k = l.length →
    ObjC.listFrom (Message.propGet o l) n k = .ok (l.drop n) := by
  intro k
  induction k with
  | zero => intro n hn; simp [ObjC.listFrom, List.drop_eq_nil_of_le (show l.length ≤ n by omega)]
  | succ k ih =>
    intro n hn
    have hlt : n < l.length := by omega
    simp only [ObjC.listFrom, propGet_lt h hlt, ih (n + 1) (by omega), Res.bind_ok, Res.pure_eq]
    rw [List.drop_eq_getElem_cons hlt]

theorem lists_eq {m : Message} (h : MsgWF m) :
    ObjC.properties m = .ok m.ep ∧ ObjC.setproperties m = .ok m.epSet ∧ ObjC.getproperties m = .ok m.epGet := by
  refine ⟨?_, ?_, ?_⟩
  · exact listFrom_eq h.ep _ 0 (by have := h.ep; simp only [Message.getOpc]; omega)
  · exact listFrom_eq h.epSet _ 0 (by have := h.epSet; simp only [Message.getOpcSet]; omega)
  · exact listFrom_eq h.epGet _ 0 (by have := h.epGet; simp only [Message.getOpcGet]; omega)

theorem setDest_eq (m : Message) (o : Option Obj) : m.setDestinationObjectCode (ObjC.codeOf o) = .ok { m with deoj := destOf o } := by
  unfold Message.setDestinationObjectCode
  cases o with
  | some o =>
    simp only [ObjC.codeOf]
    rw [getCode_ofNat, eojOfCode_eq]; rfl
  | none => rfl

/-- What a waiting post is given by a frame that answers its request. -/
theorem post_got {e : Endian} {db : Db} {c c' : Ctrl} {h h' : Heap} {ev : List CEvent} (orc : Oracle)
    (loc : Option String) (a : String) (f : Frame) (hf : f.WF) (rest : List Byte) {r p : Nat}
    {q old : Message} (h1 : c.postReq = some r) (h2 : c.postRes = some p) (h3 : h r = some q) (h4 : h p = some old)
    (h5 : Reachable e old) (hm : f.tid = (q.tid0, q.tid1) ∧ f.esv ≠ q.esv)
    (hr : c.receive e db orc h loc (some a) (encode f ++ rest) = .ok (c', h', ev)) :
    h' p = some { reqMsg f (some a) with
      ep := (reqMsg f (some a)).ep.map Property.copy, opcSet := 0, epSet := [], opcGet := 0, epGet := [] } := by
  obtain ⟨n1, eff, s2, ev3, g1, g2, g3, rfl, g5⟩ := (recv e db orc hf hr).more
  have hans : q.isResponseMessage e (reqMsg f (some a)) = true := by
    rw [isResponse_iff]
    show f.tid.1 = q.tid0 ∧ f.tid.2 = q.tid1 ∧ f.esv ≠ q.esv
    exact ⟨congrArg Prod.fst hm.1, congrArg Prod.snd hm.1, hm.2⟩
  unfold Ctrl.servePost Ctrl.isWaiting Ctrl.handlePost at g3
  simp only [h1, h2, h3, h4, Option.isSome_some, Bool.and_self, if_true] at g3
  have hreq : Inv (reqMsg f (some a)) := by
    have := inv_parsed inv_new hf
    exact ⟨⟨this.ep, this.epSet, this.epGet⟩, this.ehd1, this.ehd2⟩
  rw [if_pos hans, setFrom_eq e (reachable_inv h5).toMsgWF hreq.toMsgWF] at g3
  simp only [Res.bind_ok, Res.pure_eq, Res.ok.injEq, Prod.mk.injEq] at g3
  obtain ⟨rfl, rfl⟩ := g3
  exact if_pos rfl

end Uecho.Lemmas
