import Verif.Spec.HeapNode
import Verif.Lemmas.HeapMsg
import Verif.Lemmas.HeapCalls
import Lean.Elab.Tactic.Simp
/-! # Ownership of blocks: finding the frame -/
namespace Uecho.Lemmas.Blocks
open Uecho Uecho.Spec Uecho.Heap

section
open Lean Meta Elab Tactic

/-- The pieces of a concatenation. -/
partial def pieces (e : Expr) : MetaM (Array Expr) := do
  let e ← instantiateMVars e
  match e.getAppFnArgs with
  | (``HAppend.hAppend, #[_, _, _, _, a, b]) => return (← pieces a) ++ (← pieces b)
  | (``List.nil, _) => return #[]
  | (``List.cons, #[t, a, l]) => do
      let one ← mkAppM ``List.cons #[a, ← mkAppOptM ``List.nil #[t]]
      return #[one] ++ (← pieces l)
  | _ => return #[e]

/-- Bring a footprint into the form of a concatenation of pieces. -/
def normFp (stx : TSyntax `tactic) (e : Expr) : TacticM Expr := do
  let { ctx, simprocs, .. } ← mkSimpContext stx (eraseLocal := false)
  let (r, _) ← simp e ctx simprocs
  return r.expr

/-- The footprint of the next step is taken out of what is owned; the rest is the frame. -/
def runFrame (simpStx : TSyntax `tactic) (t : Term) : TacticM Unit := withMainContext do
  let e ← elabTerm t none
  let ty ← whnfR (← instantiateMVars (← inferType e))
  let goalTy ← whnfR (← instantiateMVars (← getMainTarget))
  match ty.getAppFnArgs, goalTy.getAppFnArgs with
  | (``Triple, #[_, P, _, _, _]), (``Triple, #[_, P0, _, _, _]) => do
    let mut have0 ← pieces (← normFp simpStx P0)
    for a in ← pieces (← normFp simpStx P) do
      let mut found := false
      let mut rest := #[]
      for b in have0 do
        if !found && (← withReducible (isDefEq a b)) then found := true
        else rest := rest.push b
      unless found do throwError "frame: piece {a} not owned; owned: {have0}"
      have0 := rest
    let nil ← mkAppOptM ``List.nil #[mkConst ``Nat]
    let mut K := nil
    let n := have0.size
    for i in [0:n] do
      let b := have0[n - 1 - i]!
      K ← if i = 0 then pure b else mkAppM ``HAppend.hAppend #[b, K]
    let kStx ← Term.exprToSyntax K
    let eStx ← Term.exprToSyntax e
    evalTactic (← `(tactic| refine Triple.bind (K := $kStx) $eStx ?_ ?_))
  | _, _ => throwError "frame: not a triple"
end

theorem objsF_cons (p : HObj) (ps : List HObj) : objsF (p :: ps) = objF p ++ objsF ps := by simp [objsF]
theorem objsF_append (l l' : List HObj) : objsF (l ++ l') = objsF l ++ objsF l' := by simp [objsF]
theorem objsF_nil : objsF [] = [] := rfl
theorem srvsF_cons (p : HSrv) (ps : List HSrv) : srvsF (p :: ps) = srvF p ++ srvsF ps := by simp [srvsF]
theorem srvsF_append (l l' : List HSrv) : srvsF (l ++ l') = srvsF l ++ srvsF l' := by simp [srvsF]
theorem srvsF_nil : srvsF [] = [] := rfl
theorem nodesF_cons (p : HNode) (ps : List HNode) : nodesF (p :: ps) = nodeF p ++ nodesF ps := by simp [nodesF]
theorem nodesF_append (l l' : List HNode) : nodesF (l ++ l') = nodesF l ++ nodesF l' := by simp [nodesF]
theorem nodesF_nil : nodesF [] = [] := rfl
theorem sockOptF_none : sockOptF none = [] := rfl
theorem sockOptF_some (s : HSock) : sockOptF (some s) = sockF s := rfl
theorem ptr_none {α : Type} : ptr (none : Option (Nat × α)) = [] := rfl
theorem ptr_some {α : Type} (x : Nat × α) : ptr (some x) = [x.1] := rfl

/-- Footprints as concatenations of pieces. -/
macro "fpsimp" : tactic => `(tactic| simp only [msgF, secF, propF, strF, propsF_append, propsF_cons, propsF_nil, objF, objsF_cons, objsF_append,
  objsF_nil, srvsF_cons, srvsF_append, srvsF_nil, srvF, serverF, nodeF, nodesF_cons, nodesF_append, nodesF_nil, ctrlF, dbF, sockF, sockOptF_none,
  sockOptF_some, ptr_none, ptr_some, Option.toList_none, Option.toList_some, List.map_cons, List.map_nil, List.map_append,
  List.append_assoc, List.nil_append, List.append_nil])

/-- Permutations of footprints, by counting. -/
macro "fp" : tactic => `(tactic| (refine List.perm_iff_count.2 fun _ => ?_; simp only [msgF, secF, propF, strF, propsF_append, propsF_cons,
  propsF_nil, objF, objsF_cons, objsF_append, objsF_nil, srvsF_cons, srvsF_append, srvsF_nil, srvF, serverF, nodeF, nodesF_cons, nodesF_append,
  nodesF_nil, ctrlF, dbF, sockF, sockOptF_none, sockOptF_some, ptr_none, ptr_some, Option.toList_none, Option.toList_some, List.map_cons, List.map_nil,
  List.map_append, List.count_append, List.count_nil, Nat.add_zero, Nat.zero_add] <;> ac_rfl))

open Lean Elab Tactic in
/-- The next step has the triple `t`. -/
elab "frame " t:term : tactic => do
  let stx ← `(tactic| fpsimp)
  let stx ← liftMacroM (expandMacros stx)
  runFrame ⟨stx⟩ t
  evalTactic (← `(tactic| · fp))

/-! ### Accesses -/

theorem touch_triple {P l : List Nat} (h : l ⊆ P) : Triple P (touch l) (fun _ => P) (fun _ => True) := by
  induction l with
  | nil => exact .pure (.refl _) trivial
  | cons a l ih =>
    intro rest m o
    have ha : a ∈ m.live := (o.1.mem_iff).2 (List.mem_append_left _ (h (by simp)))
    obtain ⟨x, m', e, r⟩ := ih (fun y hy => h (by simp [hy])) rest m o
    refine ⟨x, m', ?_, r⟩
    show (use a m >>= fun r => touch l r.2) = _
    simp only [use, if_pos ha, Res.bind_ok, e]

theorem propSelfs (l : List HProp) : l.map HProp.self ⊆ propsF l := by
  intro x hx
  simp only [List.mem_map] at hx
  obtain ⟨p, hp, rfl⟩ := hx
  exact List.mem_flatMap.2 ⟨p, hp, by simp [propF]⟩

theorem objSelfs (l : List HObj) : l.map HObj.self ⊆ objsF l := by
  intro x hx
  simp only [List.mem_map] at hx
  obtain ⟨p, hp, rfl⟩ := hx
  exact List.mem_flatMap.2 ⟨p, hp, by simp [objF]⟩

theorem srvSelfs (l : List HSrv) : l.map HSrv.self ⊆ srvsF l := by
  intro x hx
  simp only [List.mem_map] at hx
  obtain ⟨p, hp, rfl⟩ := hx
  exact List.mem_flatMap.2 ⟨p, hp, by simp [srvF]⟩

theorem nodeSelfs (l : List HNode) : l.map HNode.self ⊆ nodesF l := by
  intro x hx
  simp only [List.mem_map] at hx
  obtain ⟨p, hp, rfl⟩ := hx
  exact List.mem_flatMap.2 ⟨p, hp, by simp [nodeF]⟩

/-- The blocks are in the footprint. -/
macro "inFp" : tactic => `(tactic| (intro x hx
                                    simp only [List.mem_append, List.mem_cons, List.not_mem_nil, or_false, msgF, secF, propF, strF, propsF_append, propsF_cons,
                                      propsF_nil, objF, objsF_cons, objsF_append, objsF_nil, srvsF_cons, srvsF_append, srvsF_nil, srvF, serverF, nodeF, nodesF_cons, nodesF_append,
                                      nodesF_nil, ctrlF, dbF, sockF, sockOptF_none, sockOptF_some, ptr_none, ptr_some, Option.toList_none, Option.toList_some, List.map_cons, List.map_nil,
                                      List.map_append] at hx ⊢
                                    have h1 := fun l => @propSelfs l x
                                    have h2 := fun l => @objSelfs l x
                                    have h3 := fun l => @srvSelfs l x
                                    have h4 := fun l => @nodeSelfs l x
                                    grind))

/-- The next step accesses blocks that are owned. -/
macro "touching" : tactic => `(tactic| (refine Triple.bind (K := []) (touch_triple ?_) (by simp only [List.append_nil]; exact .refl _) ?_; · inFp))

theorem freeAll_triple (l : List Nat) : Triple l (freeAll l) (fun _ => []) (fun _ => True) := by
  induction l with
  | nil => exact .pure (.refl _) trivial
  | cons a l ih =>
    exact (free_triple a).bind (K := l) (by simp) fun _ _ => ih.perm (by simp)

theorem coin_triple (e : Env) : Triple [] (coin e) (fun _ => []) (fun _ => True) := by
  intro rest m h
  exact ⟨_, _, rfl, ⟨h.1, h.2.1, fun a ha => Nat.lt_succ_of_lt (h.2.2 a ha)⟩, trivial⟩

theorem askIfs_triple (e : Env) : Triple [] (askIfs e) (fun _ => []) (fun _ => True) := by
  intro rest m h
  exact ⟨_, _, rfl, ⟨h.1, h.2.1, fun a ha => Nat.lt_succ_of_lt (h.2.2 a ha)⟩, trivial⟩

theorem askHere_triple (e : Env) : Triple [] (askHere e) (fun _ => []) (fun _ => True) := by
  intro rest m h
  exact ⟨_, _, rfl, ⟨h.1, h.2.1, fun a ha => Nat.lt_succ_of_lt (h.2.2 a ha)⟩, trivial⟩

theorem askWrites_triple (e : Env) : Triple [] (askWrites e) (fun _ => []) (fun _ => True) := by
  intro rest m h
  exact ⟨_, _, rfl, ⟨h.1, h.2.1, fun a ha => Nat.lt_succ_of_lt (h.2.2 a ha)⟩, trivial⟩

/-- The last step. -/
theorem Triple.last {α : Type} {P : List Nat} {x : H α} {F : α → List Nat} {Q : α → Prop}
    (t : Triple P (x >>= Pure.pure) F Q) : Triple P x F Q := by
  intro rest m h
  obtain ⟨a, m', e, r⟩ := t rest m h
  refine ⟨a, m', ?_, r⟩
  change (x m >>= fun r => Res.ok (r.1, r.2)) = _ at e
  cases hx : x m with
  | ok b => rw [hx] at e; exact e
  | ub => rw [hx] at e; cases e

theorem splitBy_eq {α : Type} {f : α → Bool} : ∀ {l pre post : List α} {a : α}, splitBy f l = some (pre, a, post) →
    l = pre ++ a :: post ∧ f a = true := by
  intro l
  induction l with
  | nil => intro pre post a e; cases e
  | cons x l ih =>
    intro pre post a e
    simp only [splitBy] at e
    split at e
    next h => cases e; exact ⟨rfl, h⟩
    · simp only [Option.map_eq_some_iff] at e
      obtain ⟨⟨p1, b, p2⟩, e1, e2⟩ := e
      cases e2
      obtain ⟨h1, h2⟩ := ih e1
      exact ⟨by rw [h1]; rfl, h2⟩

theorem splitBy_none {α : Type} {f : α → Bool} : ∀ {l : List α}, splitBy f l = none → ∀ a ∈ l, f a = false := by
  intro l
  induction l with
  | nil => simp
  | cons x l ih =>
    intro e
    simp only [splitBy] at e
    split at e
    · cases e
    next h =>
      simp only [Option.map_eq_none_iff] at e
      intro a ha
      rcases List.mem_cons.1 ha with rfl | ha
      · simpa using h
      · exact ih e a ha

end Uecho.Lemmas.Blocks
