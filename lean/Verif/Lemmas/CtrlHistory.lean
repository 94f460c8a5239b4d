import Verif.Lemmas.CtrlRecv
/-! # Lemmas for C143: what a controller keeps while it goes on -/
namespace Uecho.Lemmas
open Uecho Uecho.Spec

theorem later_reach {e : Endian} {db : Db} {k : CtrlKind} {c d : Ctrl} (hc : CtrlReach e db c) (h : CtrlLater e db k c d) : CtrlReach e db d := by
  induction h with
  | same => exact hc
  | setMessageListener b _ _ ih => exact .setMessageListener b ih
  | setNodeListener b _ _ ih => exact .setNodeListener b ih
  | enableOption p _ ih => exact .enableOption p ih
  | disableOption p _ ih => exact .disableOption p ih
  | localNode _ hn ih => exact .localNode ih hn
  | start b _ hs ih => exact .start b ih hs
  | announce m _ hs ih => exact .announce m ih hs
  | search v _ hs ih => exact .search v ih hs
  | searchObject x v _ hs ih => exact .searchObject x v ih hs
  | postBegin a q r s _ _ hs ih => exact .postBegin a q r s ih hs
  | postEnd _ _ ih => exact .postEnd ih
  | receive o l a x _ hs ih => exact .receive o l a x ih hs

/-- What the settings of a controller say about a kind of calls. -/
def setting : CtrlKind → Ctrl → Bool × Option Nat × Option Nat
  | .messageListener, c => (c.hasMsgListener, none, none)
  | .nodeListener, c => (c.hasNodeListener, none, none)
  | .post, c => (false, c.postReq, c.postRes)

theorem setting_congr {k : CtrlKind} {c d : Ctrl} (h1 : d.hasMsgListener = c.hasMsgListener) (h2 : d.hasNodeListener = c.hasNodeListener)
    (h3 : d.postReq = c.postReq) (h4 : d.postRes = c.postRes) : setting k d = setting k c := by
  cases k <;> simp [setting, h1, h2, h3, h4]

theorem later_setting {e : Endian} {db : Db} {k : CtrlKind} {c d : Ctrl} (hc : CtrlReach e db c) (h : CtrlLater e db k c d) :
    setting k d = setting k c := by
  induction h with
  | same => rfl
  | setMessageListener b hk _ ih => rw [← ih]; cases k <;> first | exact absurd rfl hk | rfl
  | setNodeListener b hk _ ih => rw [← ih]; cases k <;> first | exact absurd rfl hk | rfl
  | enableOption p _ ih => rw [← ih]; exact setting_congr rfl rfl rfl rfl
  | disableOption p _ ih => rw [← ih]; exact setting_congr rfl rfl rfl rfl
  | localNode _ hn ih => rw [← ih]; exact setting_congr rfl rfl rfl rfl
  | start b _ hs ih =>
    rw [← ih]
    unfold Ctrl.start at hs
    simp only [Res.bind_eq_ok, Res.pure_eq, Res.ok.injEq, Prod.mk.injEq] at hs
    obtain ⟨_, _, rfl, _⟩ := hs
    exact setting_congr rfl rfl rfl rfl
  | announce m _ hs ih =>
    rw [← ih]
    unfold Ctrl.announceMessage at hs
    simp only [Res.bind_eq_ok, Res.pure_eq, Res.ok.injEq, Prod.mk.injEq] at hs
    obtain ⟨_, _, rfl, _⟩ := hs
    exact setting_congr rfl rfl rfl rfl
  | search v _ hs ih =>
    rw [← ih]
    unfold Ctrl.searchWithEsv Ctrl.announceMessage at hs
    simp only [Res.bind_eq_ok, Res.pure_eq, Res.ok.injEq, Prod.mk.injEq] at hs
    obtain ⟨_, _, _, _, rfl, _⟩ := hs
    exact setting_congr rfl rfl rfl rfl
  | searchObject x v _ hs ih =>
    rw [← ih]
    unfold Ctrl.searchObjectWithEsv Ctrl.announceMessage at hs
    simp only [Res.bind_eq_ok, Res.pure_eq, Res.ok.injEq, Prod.mk.injEq] at hs
    obtain ⟨_, _, _, _, _, _, rfl, _⟩ := hs
    exact setting_congr rfl rfl rfl rfl
  | @postBegin d d' h h' ev r a q w s hk _ hs ih =>
    rw [← ih]
    unfold Ctrl.postBegin at hs
    simp only at hs
    split at hs
    · simp at hs
    · simp only [Res.bind_eq_ok, Res.pure_eq, Res.ok.injEq, Prod.mk.injEq] at hs
      obtain ⟨_, _, rfl, _⟩ := hs
      cases k <;> first | exact absurd rfl hk | rfl
  | postEnd hk _ ih => rw [← ih]; cases k <;> first | exact absurd rfl hk | rfl
  | receive o l a x hl hs ih =>
    rw [← ih]
    rcases receive_any e db o (reach_cinv (later_reach hc hl)) hs with ⟨_, rfl, _⟩ | ⟨f, r, n1, ns, st, _, _, _, rfl, _⟩
    · rfl
    · exact setting_congr rfl rfl rfl rfl

end Uecho.Lemmas
