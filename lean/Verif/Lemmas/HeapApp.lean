import Verif.Lemmas.HeapCtrl
import Verif.Spec.HeapApp
import Verif.Spec.ControllerApi
/-! # Ownership of blocks: histories -/
namespace Uecho.Lemmas.Blocks
open Uecho Uecho.Spec Uecho.Heap

/-- What holds of the things an application holds. -/
structure AppOk (w : App) : Prop where
  held : HeldOk w.held
  nodes : ∀ x ∈ w.nodes, NodeOk x.2
  ctrls : ∀ x ∈ w.ctrls, CtrlOk x.2

theorem setSafe_iff {o : HObj} {code : Byte} {attr : CInt} (h : setSafe o code attr = true) : SetSafe o code attr := by
  simp only [setSafe, Bool.or_eq_true, beq_iff_eq, List.any_eq_true, Bool.and_eq_true] at h
  rcases h with (h | h) | ⟨p, hp, h1, h2⟩
  · exact Or.inl h
  · exact Or.inr (Or.inl h)
  · exact Or.inr (Or.inr ⟨p, hp, by simpa using h1, h2⟩)

theorem objCall_triple {ann : Announcer} {K : List Nat} (ha : AnnOk ann K) (db : HDb) (c : ObjCall) (o : HObj) :
    Triple (dbF db ++ objF o ++ K) (objCall db c ann o) (fun r => dbF db ++ objF r ++ K) (fun _ => True) := by
  cases c with
  | setCode g c i =>
    simp only [objCall]
    split
    next h => exact (objSetCode_triple ha db o g c i h).weak fun _ _ => trivial
    · exact .pure (.refl _) trivial
  | setGroup g => exact (objSetGroup_triple db o g).conseq (K := K) (by fp) fun r _ => ⟨by fp, trivial⟩
  | setClass c => exact (objSetClass_triple db o c).conseq (K := K) (by fp) fun r _ => ⟨by fp, trivial⟩
  | setProp code attr =>
    simp only [objCall]
    split
    next h => exact (objSetProperty_triple ha o code attr (setSafe_iff h)).conseq (K := dbF db) (by fp) fun r _ => ⟨by fp, trivial⟩
    · exact .pure (.refl _) trivial
  | setData code d => exact (objSetData_triple ha o code d).conseq (K := dbF db) (by fp) fun r _ => ⟨by fp, trivial⟩
  | setInteger code v size =>
    simp only [objCall]
    split
    next h => exact (objSetInteger_triple ha o code v size h.2).conseq (K := dbF db) (by fp) fun r _ => ⟨by fp, trivial⟩
    · exact .pure (.refl _) trivial
  | setAttr code attr => exact (objSetAttr_triple o code attr).conseq (K := dbF db ++ K) (by fp) fun r _ => ⟨by fp, trivial⟩
  | get code =>
    exact (objGetData_triple o code).bind (K := dbF db ++ K) (by fp) fun r _ => .pure (by fp) trivial
  | handler esv code => exact (objSetHandler_triple o esv code).conseq (K := dbF db ++ K) (by fp) fun r _ => ⟨by fp, trivial⟩
  | clear => exact (objClear_triple o).conseq (K := dbF db ++ K) (by fp) fun r _ => ⟨by fp, trivial⟩

/-- A function on an object that is there, with something that it takes. -/
theorem inNode_found (e : Env) (n : HNode) (hn : NodeOk n) (code : Byte × Byte × Byte) {f : Announcer → HObj → H HObj} {R R' : List Nat}
    (t : ∀ ann K o, AnnOk ann K → Triple (R ++ objF o ++ K) (f ann o) (fun r => R' ++ objF r ++ K) (fun _ => True))
    (h : R = R' ∨ nodeHas n code = true) :
    Triple (R ++ nodeF n) (inNode e n code f) (fun r => R' ++ nodeF r) (fun r => NodeOk r ∧ r.server = n.server) := by
  unfold inNode touchObjs
  touching
  intro _ _
  rcases h' : splitBy (fun o => o.is code) n.objs with _ | ⟨pre, o, post⟩
  · rw [h']
    rcases h with rfl | h
    · exact .pure (by fp) ⟨hn, rfl⟩
    · obtain ⟨o, ho, h⟩ := List.any_eq_true.1 h
      have := splitBy_none h' o ho
      simp [h] at this
  · obtain ⟨e1, ho⟩ := splitBy_eq h'
    rw [h']
    refine Triple.bind (K := []) (t _ _ o (annIn_ok e n hn pre post)) ?_ ?_
    · simp only [nodeF, e1, restF]; fp
    intro o1 h1
    exact .pure (by simp only [restF]; fp) ⟨hn, rfl⟩

theorem pick_all {α : Type} {Q : α → Prop} {h : Nat} {l : List (Nat × α)} {a : α} {l' : List (Nat × α)} (e : pick h l = some (a, l'))
    (hq : ∀ x ∈ l, Q x.2) : Q a ∧ ∀ x ∈ l', Q x.2 :=
  ⟨by obtain ⟨⟨k, hk⟩, _⟩ := pick_mem e; exact hq _ hk, fun x hx => hq x ((pick_mem e).2 x hx)⟩

theorem all_cons {α : Type} {Q : α → Prop} {h : Nat} {l : List (Nat × α)} {a : α} (ha : Q a) (hl : ∀ x ∈ l, Q x.2) : ∀ x ∈ (h, a) :: l, Q x.2 := by
  intro x hx
  rcases List.mem_cons.1 hx with rfl | hx
  · exact ha
  · exact hl x hx

/-- The blocks of the application without the objects, the nodes, the controllers. -/
theorem blocks_node {w : App} {h : Nat} {n : HNode} {l : List (Nat × HNode)} (e : pick h w.nodes = some (n, l)) :
    w.blocks.Perm (nodeF n ++ ({ w with nodes := l } : App).blocks) := by
  have := pick_perm nodeF e
  simp only [App.blocks]
  refine List.Perm.trans ((this.append_left _).append_right _) ?_
  perm

theorem blocks_ctrl {w : App} {h : Nat} {n : HCtrl} {l : List (Nat × HCtrl)} (e : pick h w.ctrls = some (n, l)) :
    w.blocks.Perm (ctrlF n ++ ({ w with ctrls := l } : App).blocks) := by
  have := pick_perm ctrlF e
  simp only [App.blocks]
  refine List.Perm.trans (this.append_left _) ?_
  perm

theorem blocks_obj {w : App} {h : Nat} {n : HObj} {l : List (Nat × HObj)} (e : pick h w.objs = some (n, l)) :
    w.blocks.Perm (objF n ++ ({ w with objs := l } : App).blocks) := by
  have := pick_perm objF e
  simp only [App.blocks]
  refine List.Perm.trans (((this.append_left _).append_right _).append_right _) ?_
  perm

theorem cons_node (w : App) (h : Nat) (n : HNode) (l : List (Nat × HNode)) :
    (nodeF n ++ ({ w with nodes := l } : App).blocks).Perm ({ w with nodes := (h, n) :: l } : App).blocks := by
  simp only [App.blocks, List.flatMap_cons]
  perm

theorem cons_ctrl (w : App) (h : Nat) (n : HCtrl) (l : List (Nat × HCtrl)) :
    (ctrlF n ++ ({ w with ctrls := l } : App).blocks).Perm ({ w with ctrls := (h, n) :: l } : App).blocks := by
  simp only [App.blocks, List.flatMap_cons]
  perm

theorem cons_obj (w : App) (h : Nat) (n : HObj) (l : List (Nat × HObj)) :
    (objF n ++ ({ w with objs := l } : App).blocks).Perm ({ w with objs := (h, n) :: l } : App).blocks := by
  simp only [App.blocks, List.flatMap_cons]
  perm

theorem onNode_triple {w : App} (ok : AppOk w) (h : Nat) {R : List Nat} {f : HNode → H HNode} {Q : HNode → HNode → Prop}
    (t : ∀ n, NodeOk n → Triple (R ++ nodeF n) (f n) (fun r => R ++ nodeF r) (fun r => NodeOk r ∧ Q n r)) :
    Triple (R ++ w.blocks) (onNode w h f) (fun r => R ++ r.blocks)
      (fun r => AppOk r ∧ (r = w ∨ ∃ n l n', pick h w.nodes = some (n, l) ∧ r = { w with nodes := (h, n') :: l } ∧ Q n n')) := by
  unfold onNode
  rcases e : pick h w.nodes with _ | ⟨n, l⟩
  · exact .pure (.refl _) ⟨ok, Or.inl rfl⟩
  · obtain ⟨h1, h2⟩ := pick_all e ok.nodes
    refine (t n h1).bind (K := ({ w with nodes := l } : App).blocks) ?_ fun r hr => ?_
    · exact ((blocks_node e).append_left R).trans (by perm)
    · refine .pure ?_ ⟨⟨ok.held, all_cons hr.1 h2, ok.ctrls⟩, Or.inr ⟨n, l, r, rfl, rfl, hr.2⟩⟩
      exact List.Perm.trans (by perm) ((cons_node w h r l).append_left R)

theorem onCtrl_triple {w : App} (ok : AppOk w) (h : Nat) {R : List Nat} {f : HCtrl → H HCtrl}
    (t : ∀ n, CtrlOk n → Triple (R ++ ctrlF n) (f n) (fun r => R ++ ctrlF r) CtrlOk) :
    Triple (R ++ w.blocks) (onCtrl w h f) (fun r => R ++ r.blocks) AppOk := by
  unfold onCtrl
  rcases e : pick h w.ctrls with _ | ⟨n, l⟩
  · exact .pure (.refl _) ok
  · obtain ⟨h1, h2⟩ := pick_all e ok.ctrls
    refine (t n h1).bind (K := ({ w with ctrls := l } : App).blocks) ?_ fun r hr => ?_
    · exact ((blocks_ctrl e).append_left R).trans (by perm)
    · refine .pure ?_ ⟨ok.held, ok.nodes, all_cons hr h2⟩
      exact List.Perm.trans (by perm) ((cons_ctrl w h r l).append_left R)

theorem ok_mid {pre post : List HNode} {n r : HNode} {l : List HNode} (e : l = pre ++ n :: post) (h : ∀ x ∈ l, NodeOk x) (hr : NodeOk r) :
    ∀ x ∈ pre ++ r :: post, NodeOk x := by
  intro x hx
  simp only [List.mem_append, List.mem_cons] at hx
  rcases hx with hx | rfl | hx
  · exact h x (by rw [e]; simp [hx])
  · exact hr
  · exact h x (by rw [e]; simp [hx])

theorem splitBy_find {α : Type} {f : α → Bool} : ∀ {l pre post : List α} {a : α}, splitBy f l = some (pre, a, post) → l.find? f = some a := by
  intro l
  induction l with
  | nil => intro pre post a h; cases h
  | cons x l ih =>
    intro pre post a h
    simp only [splitBy] at h
    split at h
    next hx =>
      cases h
      simp [hx]
    next hx =>
      rcases h' : splitBy f l with _ | ⟨p, b, q⟩
      · rw [h'] at h; cases h
      · rw [h'] at h
        simp only [Option.map_some, Option.some.injEq, Prod.mk.injEq] at h
        obtain ⟨_, rfl, _⟩ := h
        rw [List.find?_cons_of_neg hx]
        exact ih h'

theorem onObj_triple (e : Env) {w : App} (ok : AppOk w) {f : Announcer → HObj → H HObj} {R R' : List Nat}
    (t : ∀ ann K o, AnnOk ann K → Triple (R ++ objF o ++ K) (f ann o) (fun r => R' ++ objF r ++ K) (fun _ => True))
    (p : Place) (h : R = R' ∨ w.has p = true) :
    Triple (R ++ w.blocks) (onObj e w f p) (fun r => R' ++ r.blocks) AppOk := by
  cases p with
  | loose k =>
    simp only [onObj]
    rcases e1 : pick k w.objs with _ | ⟨o, l⟩
    · rcases h with rfl | h
      · exact .pure (.refl _) ok
      · simp [App.has, e1] at h
    · refine (t silent [] o (silent_ok [])).bind (K := ({ w with objs := l } : App).blocks) ?_ fun r _ => ?_
      · exact ((blocks_obj e1).append_left R).trans (by perm)
      · refine .pure ?_ ⟨ok.held, ok.nodes, ok.ctrls⟩
        exact List.Perm.trans (by perm) ((cons_obj w k r l).append_left R')
  | ofNode k code =>
    simp only [onObj]
    rcases e1 : pick k w.nodes with _ | ⟨n, l⟩
    · rcases h with rfl | h
      · exact .pure (.refl _) ok
      · simp [App.has, e1] at h
    · obtain ⟨h1, h2⟩ := pick_all e1 ok.nodes
      refine (inNode_found e n h1 code t ?_).bind (K := ({ w with nodes := l } : App).blocks) ?_ fun r hr => ?_
      · exact h.imp id fun h => by simpa [App.has, e1] using h
      · exact ((blocks_node e1).append_left R).trans (by perm)
      · refine .pure ?_ ⟨ok.held, all_cons hr.1 h2, ok.ctrls⟩
        exact List.Perm.trans (by perm) ((cons_node w k r l).append_left R')
  | ofCtrl k code =>
    simp only [onObj]
    rcases e1 : pick k w.ctrls with _ | ⟨c, l⟩
    · rcases h with rfl | h
      · exact .pure (.refl _) ok
      · simp [App.has, e1] at h
    · obtain ⟨h1, h2⟩ := pick_all e1 ok.ctrls
      refine (inNode_found e c.node h1.1 code t ?_).bind
        (K := [c.self] ++ [c.mutex] ++ [c.cond] ++ [c.nlist] ++ nodesF c.nodes ++ ({ w with ctrls := l } : App).blocks) ?_ fun r hr => ?_
      · exact h.imp id fun h => by simpa [App.has, e1] using h
      · exact ((blocks_ctrl e1).append_left R).trans (by simp only [ctrlF]; perm)
      · refine .pure ?_ ⟨ok.held, ok.nodes, all_cons ⟨hr.1, h1.2⟩ h2⟩
        exact List.Perm.trans (by simp only [ctrlF]; perm) ((cons_ctrl w k { c with node := r } l).append_left R')
  | remote k addr code =>
    simp only [onObj]
    rcases e1 : pick k w.ctrls with _ | ⟨c, l⟩
    · rcases h with rfl | h
      · exact .pure (.refl _) ok
      · simp [App.has, e1] at h
    · obtain ⟨h1, h2⟩ := pick_all e1 ok.ctrls
      refine (findNode_triple c addr).bind (K := R ++ ({ w with ctrls := l } : App).blocks) ?_ fun r hr => ?_
      · exact ((blocks_ctrl e1).append_left R).trans (by perm)
      · rcases r with _ | ⟨pre, n, post⟩
        · rcases h with rfl | h
          · refine .pure ?_ ok
            exact List.Perm.trans (by perm) ((blocks_ctrl e1).symm.append_left R)
          · exfalso
            have hno := splitBy_none hr.symm
            simp only [App.has, e1, Option.any_some] at h
            rcases hf : c.nodes.find? (fun n => n.at addr) with _ | n
            · rw [hf] at h; cases h
            · have := hno n (List.mem_of_find?_eq_some hf)
              rw [List.find?_some hf] at this
              cases this
        · simp only
          obtain ⟨e2, _⟩ := splitBy_eq hr.symm
          have hn : NodeOk n := h1.2 n (by rw [e2]; simp)
          refine (inNode_found e n hn code t ?_).bind (K := [c.self] ++ [c.mutex] ++ [c.cond] ++ nodeF c.node ++ [c.nlist] ++ nodesF pre ++ nodesF post ++
            ({ w with ctrls := l } : App).blocks) ?_ fun r hr' => ?_
          · refine h.imp id fun h => ?_
            simpa [App.has, e1, splitBy_find hr.symm] using h
          · simp only [ctrlF, e2, nodesF_append, nodesF_cons]; perm
          · refine .pure ?_ ⟨ok.held, ok.nodes, all_cons ⟨h1.1, ok_mid e2 h1.2 hr'.1⟩ h2⟩
            refine List.Perm.trans ?_ ((cons_ctrl w k { c with nodes := pre ++ r :: post } l).append_left R')
            simp only [ctrlF, nodesF_append, nodesF_cons]; perm

theorem add_obj (w : App) (h : Nat) (n : HObj) : (objF n ++ w.blocks).Perm ({ w with objs := (h, n) :: w.objs } : App).blocks := cons_obj w h n w.objs

theorem add_node (w : App) (h : Nat) (n : HNode) : (nodeF n ++ w.blocks).Perm ({ w with nodes := (h, n) :: w.nodes } : App).blocks := cons_node w h n w.nodes

theorem add_ctrl (w : App) (h : Nat) (n : HCtrl) : (ctrlF n ++ w.blocks).Perm ({ w with ctrls := (h, n) :: w.ctrls } : App).blocks := cons_ctrl w h n w.ctrls

/-- Everything but properties and messages. -/
def App.rest (w : App) : List Nat :=
  w.objs.flatMap (fun x => objF x.2) ++ w.nodes.flatMap (fun x => nodeF x.2) ++ w.ctrls.flatMap (fun x => ctrlF x.2)

theorem ctrlSafe_listed {c : HCtrl} (h : ctrlSafe c = true) (hc : CtrlOk c) : Listed c.nodes := by
  intro n hn
  refine ⟨hc.2 n hn, fun o ho => ?_⟩
  simp only [ctrlSafe, List.all_eq_true] at h
  exact h n hn o ho

theorem Listed.ok {l : List HNode} (h : Listed l) : ∀ n ∈ l, NodeOk n := fun n hn => (h n hn).1

theorem recvAt_triple (e : Env) (db : HDb) {w : App} (ok : AppOk w) {h : Nat} {c : HCtrl} {l : List (Nat × HCtrl)} (e1 : pick h w.ctrls = some (c, l))
    (hs : ctrlSafe c = true) (d : List Byte) (src : String) (id : List Byte) :
    Triple (dbF db ++ w.blocks) (recvAt e db w h d src id c l) (fun r => dbF db ++ r.blocks) AppOk := by
  obtain ⟨h1, h2⟩ := pick_all e1 ok.ctrls
  have hl := ctrlSafe_listed hs h1
  unfold recvAt
  rcases hp : c.post with _ | ⟨a, b⟩
  · refine (ctrlReceive_triple e db id d src (c, none) h1.1 hl hp).bind (K := ({ w with ctrls := l } : App).blocks) ?_ fun r hr => ?_
    · exact ((blocks_ctrl e1).append_left _).trans (by simp only [postF]; perm)
    · obtain ⟨⟨hn, -, hl', -, hi, -⟩, -⟩ := hr
      have hpost : r.2 = none := by
        rcases hh : r.2 with _ | x
        · rfl
        · rw [hh] at hi; cases hi
      refine .pure ?_ ⟨ok.held, ok.nodes, all_cons ⟨hn.ok h1.1, hl'.ok⟩ h2⟩
      exact List.Perm.trans (by simp only [hpost, postF]; perm) ((cons_ctrl w h r.1 l).append_left (dbF db))
  · simp only
    rcases hq : splitBy (fun x => x.2.self == a) w.held.msgs with _ | ⟨pre, q, post⟩
    · rw [hq]; exact .pure (.refl _) ok
    · rw [hq]
      simp only
      rcases hq' : splitBy (fun x => x.2.self == b) (pre ++ post) with _ | ⟨pre', s, post'⟩
      · rw [hq']; exact .pure (.refl _) ok
      · rw [hq']
        simp only
        obtain ⟨m1, -⟩ := splitBy_eq hq
        obtain ⟨m2, -⟩ := splitBy_eq hq'
        have memq : q ∈ w.held.msgs := by rw [m1]; simp
        have sub : ∀ x ∈ pre ++ post, x ∈ w.held.msgs := by
          intro x hx; rw [m1]
          rcases List.mem_append.1 hx with hx | hx <;> simp [hx]
        have mems : s ∈ w.held.msgs := sub s (by rw [m2]; simp)
        have hmsgs : (w.held.msgs.flatMap fun x => msgF x.2).Perm (msgF q.2 ++ msgF s.2 ++ (pre' ++ post').flatMap fun x => msgF x.2) := by
          have a1 : (w.held.msgs.flatMap fun x => msgF x.2).Perm (msgF q.2 ++ (pre ++ post).flatMap fun x => msgF x.2) := by
            rw [m1]; simp only [List.flatMap_append, List.flatMap_cons]; perm
          refine a1.trans ?_
          rw [m2]; simp only [List.flatMap_append, List.flatMap_cons]; perm
        refine (ctrlReceive_triple e db id d src (c, some (q.2, s.2)) h1.1 hl ⟨ok.held q memq, ok.held s mems⟩).bind
          (K := (pre' ++ post').flatMap (fun x => msgF x.2) ++ w.held.props.flatMap (fun x => propF x.2) ++ App.rest { w with ctrls := l }) ?_ fun r hr => ?_
        · refine ((blocks_ctrl e1).append_left _).trans ?_
          refine List.Perm.trans ?_ (List.Perm.trans (((hmsgs.append_left (dbF db ++ ctrlF c)).append_right
            (w.held.props.flatMap (fun x => propF x.2) ++ App.rest { w with ctrls := l }))) ?_)
          · simp only [App.blocks, Held.blocks, App.rest]; perm
          · simp only [postF]; perm
        · obtain ⟨⟨hn, -, hl', hpo, hi, -⟩, -⟩ := hr
          rcases hh : r.2 with _ | ⟨x, y⟩
          · rw [hh] at hi; cases hi
          · simp only [PostOk, hh] at hpo
            refine .pure ?_ ⟨?_, ok.nodes, all_cons ⟨hn.ok h1.1, hl'.ok⟩ h2⟩
            · simp only [postF, App.blocks, Held.blocks, App.rest, List.flatMap_cons]; perm
            · refine all_cons hpo.1 (all_cons hpo.2 ?_)
              intro z hz
              refine ok.held z (sub z ?_)
              rw [m2]
              rcases List.mem_append.1 hz with hz | hz <;> simp [hz]

theorem step_triple (e : Env) (db : HDb) {w : App} (ok : AppOk w) (s : Step) :
    Triple (dbF db ++ w.blocks) (step e db w s) (fun r => dbF db ++ r.blocks) AppOk := by
  cases s with
  | basic c =>
    refine (call_triple ok.held c).bind (K := dbF db ++ App.rest w) (by simp only [App.blocks, App.rest]; perm) fun s hs => ?_
    exact .pure (by simp only [App.blocks, App.rest]; perm) ⟨hs, ok.nodes, ok.ctrls⟩
  | objNew h =>
    simp only [step]
    split
    · refine objNew_triple.bind (K := dbF db ++ w.blocks) (by simp) fun o _ => .pure ?_ ⟨ok.held, ok.nodes, ok.ctrls⟩
      exact List.Perm.trans (by perm) ((add_obj w h o).append_left (dbF db))
    · exact .pure (.refl _) ok
  | deviceNew h =>
    simp only [step]
    split
    · refine (deviceNew_triple db).bind (K := w.blocks) (by simp) fun o _ => ?_
      rcases o with _ | o
      · exact .pure (by simp only [objOptF]; perm) ok
      · refine .pure ?_ ⟨ok.held, ok.nodes, ok.ctrls⟩
        exact List.Perm.trans (by simp only [objOptF]; perm) ((add_obj w h o).append_left (dbF db))
    · exact .pure (.refl _) ok
  | obj p c => exact onObj_triple e ok (fun ann K o ha => objCall_triple ha db c o) p (Or.inl rfl)
  | addProp p h =>
    simp only [step]
    split
    next hp =>
      rcases e1 : pick h w.held.props with _ | ⟨q, l⟩
      · exact .pure (.refl _) ok
      · simp only
        refine (onObj_triple e (w := { w with held := { w.held with props := l } }) ⟨ok.held, ok.nodes, ok.ctrls⟩
          (R := dbF db ++ propF q) (R' := dbF db) (fun ann K o ha => ?_) p (Or.inr hp)).perm ?_
        · exact (objAddProperty_triple o q).conseq (K := dbF db ++ K) (by perm) fun r _ => ⟨by perm, trivial⟩
        · have := pick_perm propF e1
          simp only [App.blocks, Held.blocks]
          refine List.Perm.trans ((((this.append_right _).append_right _).append_right _).append_right _ |>.append_left (dbF db)) ?_
          perm
    · exact .pure (.refl _) ok
  | objDelete h =>
    simp only [step]
    rcases e1 : pick h w.objs with _ | ⟨o, l⟩
    · exact .pure (.refl _) ok
    · refine (objDelete_triple o).bind (K := dbF db ++ ({ w with objs := l } : App).blocks) ?_ fun _ _ => .pure (by perm) ⟨ok.held, ok.nodes, ok.ctrls⟩
      exact ((blocks_obj e1).append_left _).trans (by perm)
  | nodeNew h id =>
    simp only [step]
    split
    · refine (nodeNew_triple e db id).bind (K := w.blocks) (.refl _) fun n hn => .pure ?_ ⟨ok.held, all_cons hn.1 ok.nodes, ok.ctrls⟩
      exact List.Perm.trans (by perm) ((add_node w h n).append_left (dbF db))
    · exact .pure (.refl _) ok
  | nodeAdd h k =>
    simp only [step]
    rcases e1 : pick h w.nodes with _ | ⟨n, l⟩
    · exact .pure (.refl _) ok
    · rcases e2 : pick k w.objs with _ | ⟨o, l'⟩
      · exact .pure (.refl _) ok
      · obtain ⟨h1, h2⟩ := pick_all e1 ok.nodes
        simp only
        refine (nodeAdd_triple e n h1 o).bind (K := dbF db ++ ({ w with nodes := l, objs := l' } : App).blocks) ?_ fun r hr => ?_
        · refine ((blocks_node e1).append_left _).trans ?_
          refine ((blocks_obj (w := { w with nodes := l }) e2).append_left (dbF db ++ nodeF n)).trans ?_ |> List.Perm.trans (by perm)
          perm
        · have hn : NodeOk r.1 := by show ServerOk r.1.server; rw [hr.1]; exact h1
          obtain ⟨n1, y⟩ := r
          rcases y with _ | y
          · refine .pure ?_ ⟨ok.held, all_cons hn h2, ok.ctrls⟩
            refine List.Perm.trans ?_ ((cons_node { w with objs := l' } h n1 l).append_left (dbF db))
            simp only [addedF, objOptF]; perm
          · refine .pure ?_ ⟨ok.held, all_cons hn h2, ok.ctrls⟩
            refine List.Perm.trans ?_ ((cons_node { w with objs := (k, y) :: l' } h n1 l).append_left (dbF db))
            refine List.Perm.trans ?_ ((cons_obj { w with nodes := l } k y l').append_left (dbF db ++ nodeF n1) |>.trans (by perm))
            simp only [addedF, objOptF]; perm
  | nodeSet h code =>
    exact (onNode_triple ok h (Q := fun _ _ => True) fun n hn => (nodeSetObject_triple e db n hn code).weak fun r hr => ⟨hr.1, trivial⟩).weak fun _ h => h.1
  | nodeAddr h v =>
    refine (onNode_triple ok h (Q := fun _ _ => True) fun n hn => (nodeSetAddr_triple n v).conseq (K := dbF db) (by perm) fun r hr => ⟨by perm, ?_, trivial⟩).weak
      fun _ h => h.1
    obtain ⟨a, rfl, _⟩ := hr
    exact hn
  | nodeStart h =>
    exact (onNode_triple ok h (Q := fun _ _ => True) fun n hn => (nodeStart_triple e n).conseq (K := dbF db) (by perm)
      fun r hr => ⟨by perm, hr.1, trivial⟩).weak fun _ h => h.1
  | nodeStop h =>
    exact (onNode_triple ok h (Q := fun _ _ => True) fun n hn => (nodeStop_triple n).conseq (K := dbF db) (by perm)
      fun r hr => ⟨by perm, hr.1, trivial⟩).weak fun _ h => h.1
  | nodeAnnounce h =>
    exact (onNode_triple ok h (Q := fun _ _ => True) fun n hn => (nodeAnnounce_triple e n hn).bind (K := dbF db) (by perm)
      fun r hr => .pure (by perm) ⟨hn, trivial⟩).weak fun _ h => h.1
  | nodeRecv h d src =>
    exact (onNode_triple ok h (Q := fun _ _ => True) fun n hn => (nodeReceive_triple e d src n hn).conseq (K := dbF db) (by perm)
      fun r hr => ⟨by perm, hr.ok hn, trivial⟩).weak fun _ h => h.1
  | nodeClear h =>
    exact (onNode_triple ok h (Q := fun _ _ => True) fun n hn => (nodeClear_triple n).conseq (K := dbF db) (by perm)
      fun r hr => ⟨by perm, (by show ServerOk r.server; rw [hr]; exact hn), trivial⟩).weak fun _ h => h.1
  | nodeDelete h =>
    simp only [step]
    rcases e1 : pick h w.nodes with _ | ⟨n, l⟩
    · exact .pure (.refl _) ok
    · refine (nodeDelete_triple n).bind (K := dbF db ++ ({ w with nodes := l } : App).blocks) ?_ fun _ _ => .pure (by perm)
        ⟨ok.held, (pick_all e1 ok.nodes).2, ok.ctrls⟩
      exact ((blocks_node e1).append_left _).trans (by perm)
  | ctrlNew h id =>
    simp only [step]
    split
    · refine (ctrlNew_triple e db id).bind (K := w.blocks) (.refl _) fun n hn => .pure ?_ ⟨ok.held, ok.nodes, all_cons ⟨hn.1, ?_⟩ ok.ctrls⟩
      · exact List.Perm.trans (by perm) ((add_ctrl w h n).append_left (dbF db))
      · rw [hn.2.2.1]; simp
    · exact .pure (.refl _) ok
  | ctrlStart h =>
    exact onCtrl_triple ok h fun n hn => (ctrlStart_triple e n).conseq (K := dbF db) (by perm)
      fun r hr => ⟨by perm, hr.1, by rw [hr.2.1]; simp⟩
  | ctrlStop h =>
    exact onCtrl_triple ok h fun n hn => (ctrlStop_triple n).conseq (K := dbF db) (by perm)
      fun r hr => ⟨by perm, hr.1, by rw [hr.2.1]; exact hn.2⟩
  | ctrlSearch h =>
    exact onCtrl_triple ok h fun n hn => (ctrlSearch_triple e n hn.1).bind (K := dbF db) (by perm)
      fun r hr => .pure (by perm) hn
  | ctrlRecv h d src id =>
    simp only [step]
    rcases e1 : pick h w.ctrls with _ | ⟨c, l⟩
    · exact .pure (.refl _) ok
    · simp only
      split
      next hs => exact recvAt_triple e db ok e1 hs d src id
      · exact .pure (.refl _) ok
  | ctrlPost h dst req res arrive id =>
    simp only [step]
    rcases e1 : pick h w.ctrls with _ | ⟨c, l⟩
    · exact .pure (.refl _) ok
    · simp only
      rcases e2 : pick req w.held.msgs with _ | ⟨q, ms⟩
      · exact .pure (.refl _) ok
      · simp only
        rcases e3 : pick res ms with _ | ⟨s, ms'⟩
        · exact .pure (.refl _) ok
        · simp only
          split
          next hs =>
            obtain ⟨h1, h2⟩ := pick_all e1 ok.ctrls
            obtain ⟨q1, q2⟩ := pick_all e2 ok.held
            obtain ⟨s1, s2⟩ := pick_all e3 q2
            refine (ctrlPost_triple e db id c h1.1 (ctrlSafe_listed hs h1) dst q s q1 s1 arrive).bind
              (K := ms'.flatMap (fun x => msgF x.2) ++ w.held.props.flatMap (fun x => propF x.2) ++ App.rest { w with ctrls := l }) ?_ fun r hr => ?_
            · refine ((blocks_ctrl e1).append_left _).trans ?_
              have a1 := pick_perm msgF e2
              have a2 := pick_perm msgF e3
              have a3 := a1.trans (a2.append_left (msgF q))
              refine List.Perm.trans ?_ (List.Perm.trans (((a3.append_left (dbF db ++ ctrlF c)).append_right
                (w.held.props.flatMap (fun x => propF x.2) ++ App.rest { w with ctrls := l }))) ?_)
              · simp only [App.blocks, Held.blocks, App.rest]; perm
              · perm
            · refine .pure ?_ ⟨all_cons hr.2.2.2.1 (all_cons hr.2.2.2.2 s2), ok.nodes, all_cons ⟨hr.1, hr.2.2.1.ok⟩ h2⟩
              simp only [App.blocks, Held.blocks, App.rest, List.flatMap_cons]; perm
          · exact .pure (.refl _) ok
  | ctrlDelete h =>
    simp only [step]
    rcases e1 : pick h w.ctrls with _ | ⟨n, l⟩
    · exact .pure (.refl _) ok
    · refine (ctrlDelete_triple n).bind (K := dbF db ++ ({ w with ctrls := l } : App).blocks) ?_ fun _ _ => .pure (by perm)
        ⟨ok.held, ok.nodes, (pick_all e1 ok.ctrls).2⟩
      exact ((blocks_ctrl e1).append_left _).trans (by perm)

theorem steps_triple (e : Env) (db : HDb) (l : List Step) : ∀ {w : App}, AppOk w →
    Triple (dbF db ++ w.blocks) (steps e db l w) (fun r => dbF db ++ r.blocks) AppOk := by
  induction l with
  | nil => intro w ok; exact .pure (.refl _) ok
  | cons s l ih => intro w ok; exact (step_triple e db ok s).bind (K := []) (by simp) fun w' ok' => (ih ok').perm (by simp)

theorem empty_ok : AppOk .empty := ⟨(fun x hx => by cases hx), (fun x hx => by cases hx), (fun x hx => by cases hx)⟩

theorem steps_append (e : Env) (db : HDb) (l l' : List Step) : ∀ (w : App), steps e db (l ++ l') w = (do
    let w ← steps e db l w
    steps e db l' w) := by
  induction l with
  | nil => intro w; rfl
  | cons s l ih =>
    intro w
    simp only [List.cons_append, steps, ih]
    funext m
    show (step e db w s m >>= _) = ((step e db w s m >>= _) >>= _)
    rw [Res.bind_assoc]
    rfl

/-- Deleting one thing. -/
theorem del_step {w : App} (e : Env) (db : HDb) (ok : AppOk w) (s : Step) {w' : App} (h : ∀ r m m', step e db w s m = .ok (r, m') → r = w') :
    Triple (dbF db ++ w.blocks) (step e db w s) (fun r => dbF db ++ r.blocks) (fun r => AppOk r ∧ r = w') := by
  intro rest m o
  obtain ⟨r, m', e1, o', ok'⟩ := step_triple e db ok s rest m o
  exact ⟨r, m', e1, o', ok', h r m m' e1⟩

theorem ret_ok {α : Type} {x : H Unit} {a r : α} {m m' : Mem} (h : (do
    x
    return a : H α) m = .ok (r, m')) : r = a := by
  have : (x m >>= fun r => (pure a : H α) r.2) = Res.ok (r, m') := h
  cases hx : x m with
  | ub => rw [hx] at this; cases this
  | ok v =>
    rw [hx] at this
    cases this
    rfl

theorem del_props (e : Env) (db : HDb) (l : List (Nat × HProp)) : ∀ {w : App}, AppOk w → w.held.props = l →
    Triple (dbF db ++ w.blocks) (steps e db (l.map fun x => .basic (.propDelete x.1)) w) (fun r => dbF db ++ r.blocks)
      (fun r => AppOk r ∧ r = { w with held := { w.held with props := [] } }) := by
  induction l with
  | nil => intro w ok h; exact .pure (.refl _) ⟨ok, by rw [← h]⟩
  | cons x l ih =>
    intro w ok h
    refine (del_step e db ok (.basic (.propDelete x.1)) (w' := { w with held := { w.held with props := l } }) ?_).bind (K := []) (by simp) ?_
    · intro r m m' hr
      simp only [step, call, h, pick, if_true] at hr
      have := hr
      change ((propDelete x.2 m >>= fun r => _) >>= _) = _ at this
      cases hx : propDelete x.2 m with
      | ub => rw [hx] at this; cases this
      | ok v => rw [hx] at this; cases this; rfl
    · rintro w1 ⟨ok1, rfl⟩
      exact (ih ok1 rfl).perm (by simp)

theorem del_msgs (e : Env) (db : HDb) (l : List (Nat × HMsg)) : ∀ {w : App}, AppOk w → w.held.msgs = l →
    Triple (dbF db ++ w.blocks) (steps e db (l.map fun x => .basic (.msgDelete x.1)) w) (fun r => dbF db ++ r.blocks)
      (fun r => AppOk r ∧ r = { w with held := { w.held with msgs := [] } }) := by
  induction l with
  | nil => intro w ok h; exact .pure (.refl _) ⟨ok, by rw [← h]⟩
  | cons x l ih =>
    intro w ok h
    refine (del_step e db ok (.basic (.msgDelete x.1)) (w' := { w with held := { w.held with msgs := l } }) ?_).bind (K := []) (by simp) ?_
    · intro r m m' hr
      simp only [step, call, h, pick, if_true] at hr
      have := hr
      change ((msgDelete x.2 m >>= fun r => _) >>= _) = _ at this
      cases hx : msgDelete x.2 m with
      | ub => rw [hx] at this; cases this
      | ok v => rw [hx] at this; cases this; rfl
    · rintro w1 ⟨ok1, rfl⟩
      exact (ih ok1 rfl).perm (by simp)

theorem del_objs (e : Env) (db : HDb) (l : List (Nat × HObj)) : ∀ {w : App}, AppOk w → w.objs = l →
    Triple (dbF db ++ w.blocks) (steps e db (l.map fun x => .objDelete x.1) w) (fun r => dbF db ++ r.blocks)
      (fun r => AppOk r ∧ r = { w with objs := [] }) := by
  induction l with
  | nil => intro w ok h; exact .pure (.refl _) ⟨ok, by rw [← h]⟩
  | cons x l ih =>
    intro w ok h
    refine (del_step e db ok (.objDelete x.1) (w' := { w with objs := l }) ?_).bind (K := []) (by simp) ?_
    · intro r m m' hr
      simp only [step, h, pick, if_true] at hr
      exact ret_ok hr
    · rintro w1 ⟨ok1, rfl⟩
      exact (ih ok1 rfl).perm (by simp)

theorem del_nodes (e : Env) (db : HDb) (l : List (Nat × HNode)) : ∀ {w : App}, AppOk w → w.nodes = l →
    Triple (dbF db ++ w.blocks) (steps e db (l.map fun x => .nodeDelete x.1) w) (fun r => dbF db ++ r.blocks)
      (fun r => AppOk r ∧ r = { w with nodes := [] }) := by
  induction l with
  | nil => intro w ok h; exact .pure (.refl _) ⟨ok, by rw [← h]⟩
  | cons x l ih =>
    intro w ok h
    refine (del_step e db ok (.nodeDelete x.1) (w' := { w with nodes := l }) ?_).bind (K := []) (by simp) ?_
    · intro r m m' hr
      simp only [step, h, pick, if_true] at hr
      exact ret_ok hr
    · rintro w1 ⟨ok1, rfl⟩
      exact (ih ok1 rfl).perm (by simp)

theorem del_ctrls (e : Env) (db : HDb) (l : List (Nat × HCtrl)) : ∀ {w : App}, AppOk w → w.ctrls = l →
    Triple (dbF db ++ w.blocks) (steps e db (l.map fun x => .ctrlDelete x.1) w) (fun r => dbF db ++ r.blocks)
      (fun r => AppOk r ∧ r = { w with ctrls := [] }) := by
  induction l with
  | nil => intro w ok h; exact .pure (.refl _) ⟨ok, by rw [← h]⟩
  | cons x l ih =>
    intro w ok h
    refine (del_step e db ok (.ctrlDelete x.1) (w' := { w with ctrls := l }) ?_).bind (K := []) (by simp) ?_
    · intro r m m' hr
      simp only [step, h, pick, if_true] at hr
      exact ret_ok hr
    · rintro w1 ⟨ok1, rfl⟩
      exact (ih ok1 rfl).perm (by simp)

theorem closing_triple (e : Env) (db : HDb) {w : App} (ok : AppOk w) :
    Triple (dbF db ++ w.blocks) (steps e db w.closing w) (fun r => dbF db ++ r.blocks) (fun r => r = .empty) := by
  unfold App.closing
  simp only [List.append_assoc, steps_append]
  refine (del_props e db _ ok rfl).bind (K := []) (by simp) ?_
  rintro w1 ⟨ok1, rfl⟩
  refine (del_msgs e db w.held.msgs ok1 rfl).bind (K := []) (by simp) ?_
  rintro w2 ⟨ok2, rfl⟩
  refine (del_objs e db w.objs ok2 rfl).bind (K := []) (by simp) ?_
  rintro w3 ⟨ok3, rfl⟩
  refine (del_nodes e db w.nodes ok3 rfl).bind (K := []) (by simp) ?_
  rintro w4 ⟨ok4, rfl⟩
  exact ((del_ctrls e db w.ctrls ok4 rfl).perm (by simp)).weak fun r hr => hr.2

/-! ### Datagrams at a node -/

/-- Only the data of properties has changed, in any of the objects. -/
inductive SameObjs : List HObj → List HObj → Prop
  | nil : SameObjs [] []
  | cons {o o' : HObj} {l l' : List HObj} : Same o o' → SameObjs l l' → SameObjs (o :: l) (o' :: l')

theorem SameObjs.refl (l : List HObj) : SameObjs l l := by
  induction l with
  | nil => exact .nil
  | cons o l ih => exact .cons (.refl o) ih

theorem SameObjs.trans {l l' l'' : List HObj} (h : SameObjs l l') (h' : SameObjs l' l'') : SameObjs l l'' := by
  induction h generalizing l'' with
  | nil => exact h'
  | cons a _ ih =>
    cases h' with
    | cons b h' => exact .cons (a.trans b) (ih h')

theorem SameObjs.mid (pre post : List HObj) {o o' : HObj} (h : Same o o') : SameObjs (pre ++ o :: post) (pre ++ o' :: post) := by
  induction pre with
  | nil => exact .cons h (SameObjs.refl post)
  | cons x pre ih => exact .cons (.refl x) ih

theorem SameNode.objs {n r : HNode} (h : SameNode n r) : ∃ l, r = { n with objs := l } ∧ SameObjs n.objs l := by
  rcases h with rfl | ⟨pre, o, o', post, e, rfl, h⟩
  · exact ⟨_, rfl, .refl _⟩
  · exact ⟨_, rfl, by rw [e]; exact .mid pre post h⟩

theorem propsF_length (l : List HProp) : 2 * l.length ≤ (propsF l).length ∧ (propsF l).length ≤ 4 * l.length := by
  induction l with
  | nil => simp [propsF]
  | cons p l ih =>
    have : 2 ≤ (propF p).length ∧ (propF p).length ≤ 4 := by
      obtain ⟨a, ⟨b, v⟩, c, d, f, g, i⟩ := p
      rcases v with _ | v <;> rcases g with _ | g <;> simp [propF, strF, ptr]
    simp only [propsF_cons, List.length_append, List.length_cons]
    omega

theorem SameObjs.length {l l' : List HObj} (h : SameObjs l l') :
    (objsF l').length ≤ (objsF l).length + 2 * (l.map fun o => o.props.length).sum ∧
      (l'.map fun o => o.props.length) = l.map fun o => o.props.length := by
  induction h with
  | nil => simp [objsF]
  | @cons o o' l l' a _ ih =>
    obtain ⟨ps, rfl, e⟩ := a
    have hl : ps.length = o.props.length := by
      have := congrArg List.length e
      simpa [shp] using this
    have h1 := propsF_length o.props
    have h2 := propsF_length ps
    refine ⟨?_, by simp [hl, ih.2]⟩
    simp only [objsF_cons, List.length_append, objF, List.map_cons, List.sum_cons]
    omega

theorem datagrams_triple (e : Env) (db : HDb) (k : Nat) (ds : List (List Byte × String)) : ∀ {w : App} {n : HNode} {l : List (Nat × HNode)}, AppOk w →
    pick k w.nodes = some (n, l) →
    Triple (dbF db ++ w.blocks) (steps e db (ds.map fun d => .nodeRecv k d.1 d.2) w) (fun r => dbF db ++ r.blocks)
      (fun r => r.blocks.length ≤ w.blocks.length + 2 * (n.objs.map fun o => o.props.length).sum) := by
  have key : ∀ (ds : List (List Byte × String)) {w : App} {n : HNode} {l : List (Nat × HNode)}, AppOk w → pick k w.nodes = some (n, l) →
      Triple (dbF db ++ w.blocks) (steps e db (ds.map fun d => .nodeRecv k d.1 d.2) w) (fun r => dbF db ++ r.blocks)
        (fun r => r = w ∨ ∃ n', r = { w with nodes := (k, n') :: l } ∧ ∃ os, n' = { n with objs := os } ∧ SameObjs n.objs os) := by
    intro ds
    induction ds with
    | nil => intro w n l ok h; exact .pure (.refl _) (Or.inl rfl)
    | cons d ds ih =>
      intro w n l ok h
      refine (onNode_triple ok k (R := dbF db) (Q := SameNode) fun n hn => (nodeReceive_triple e d.1 d.2 n hn).conseq (K := dbF db) (by perm)
        fun r hr => ⟨by perm, hr.ok hn, hr⟩).bind (K := []) (by simp) ?_
      rintro w1 ⟨ok1, rfl | ⟨n1, l1, n', h1, rfl, hs⟩⟩
      · exact (ih ok1 h).perm (by simp)
      · rw [h] at h1
        cases h1
        obtain ⟨os, rfl, hos⟩ := hs.objs
        refine ((ih (w := { w with nodes := (k, { n with objs := os }) :: l }) (n := { n with objs := os }) (l := l) ok1 (by simp [pick])).perm (by simp)).weak ?_
        rintro r (rfl | ⟨n', rfl, os', rfl, h2⟩)
        · exact Or.inr ⟨_, rfl, os, rfl, hos⟩
        · exact Or.inr ⟨_, rfl, os', rfl, hos.trans h2⟩
  intro w n l ok h
  refine (key ds ok h).weak ?_
  rintro r (rfl | ⟨n', rfl, os, rfl, hs⟩)
  · omega
  · have h1 := (blocks_node h).length_eq
    have h2 := (cons_node w k { n with objs := os } l).length_eq
    have h3 := hs.length.1
    simp only [List.length_append, nodeF] at h1 h2 h3 ⊢
    omega

/-! ### Datagrams at a controller -/

/-- A datagram that lists objects: a response or notification with the list of instances. -/
def Announces (d : List Byte) : Prop := ∃ f rest x l, d = encode f ++ rest ∧ f.WF ∧ SearchAnswer f (x :: l)

theorem announces_search {d : List Byte} (h : Announces d) : ∃ f rest, decode d = some (f, rest) ∧ (parsed Message.new f).isSearchResponse = .ok true ∧
    Lists (parsed Message.new f) := by
  obtain ⟨f, rest, x, l, rfl, hw, ha⟩ := h
  refine ⟨f, rest, decode_complete hw, ?_, ?_⟩
  · obtain ⟨h1, h2⟩ := ha
    simp only [Message.isSearchResponse, parsed, h2]
    rcases h1 with h1 | h1 | h1 <;> rw [h1] <;> rfl
  · obtain ⟨h1, h2⟩ := ha
    refine ⟨mkProp (0xD6, x :: l), x, l, ?_, rfl⟩
    simp only [parsed, h2]
    rfl

theorem Addrs.none {l : List HNode} {as : List String} (h : Addrs l as) {a : String} (ha : a ∉ as) : ∀ n ∈ l, n.at a = false := by
  intro n hn
  obtain ⟨h1, h2, -⟩ := h
  have h3 : n.addr.val.map (·.2) ∈ as.map some := by rw [← h2]; exact List.mem_map_of_mem hn
  obtain ⟨b, hb, e⟩ := List.mem_map.1 h3
  have : ¬ b = a := fun e => ha (e ▸ hb)
  simp [HNode.at, h1 n hn, isBoundTo, ← e, this]

/-- The controller after datagrams: everything is in order, it has a node for each of these addresses. -/
structure Knows (c : HCtrl) (as : List String) : Prop where
  post : c.post = none
  listed : Listed c.nodes
  addrs : Addrs c.nodes as

theorem Knows.safe {c : HCtrl} {as : List String} (h : Knows c as) : ctrlSafe c = true := by
  simp only [ctrlSafe, List.all_eq_true]
  exact fun n hn o ho => (h.listed n hn).2 o ho

theorem ctrlDatagrams_triple (e : Env) (db : HDb) (k : Nat) (ds : List (List Byte × String × List Byte)) : ∀ {w : App} {c : HCtrl} {l : List (Nat × HCtrl)}
    {as : List String}, AppOk w → pick k w.ctrls = some (c, l) → Knows c as →
    Triple (dbF db ++ w.blocks) (steps e db (ds.map fun d => .ctrlRecv k d.1 d.2.1 d.2.2) w) (fun r => dbF db ++ r.blocks)
      (fun r => AppOk r ∧ ∃ c' l' as', pick k r.ctrls = some (c', l') ∧ Knows c' as' ∧ (∀ a ∈ as, a ∈ as') ∧
        (∀ a ∈ as', a ∈ as ∨ a ∈ ds.map (·.2.1)) ∧ ∀ d ∈ ds, Announces d.1 → d.2.1 ∈ as') := by
  induction ds with
  | nil =>
    intro w c l as ok h hk
    exact .pure (.refl _) ⟨ok, c, l, as, h, hk, fun _ h => h, fun _ h => Or.inl h, fun d hd => by cases hd⟩
  | cons d ds ih =>
    intro w c l as ok h hk
    obtain ⟨h1, h2⟩ := pick_all h ok.ctrls
    have one : Triple (dbF db ++ w.blocks) (step e db w (.ctrlRecv k d.1 d.2.1 d.2.2)) (fun r => dbF db ++ r.blocks)
        (fun r => AppOk r ∧ ∃ c' as', pick k r.ctrls = some (c', l) ∧ Knows c' as' ∧ (∀ a ∈ as, a ∈ as') ∧
          (∀ a ∈ as', a ∈ as ∨ a = d.2.1) ∧ (Announces d.1 → d.2.1 ∈ as')) := by
      simp only [step, h, hk.safe, if_true, recvAt, hk.post]
      refine (ctrlReceive_triple e db d.2.2 d.1 d.2.1 (c, none) h1.1 hk.listed hk.post).bind (K := ({ w with ctrls := l } : App).blocks) ?_ fun r hr => ?_
      · exact ((blocks_ctrl h).append_left _).trans (by simp only [postF]; perm)
      · obtain ⟨⟨hn, ⟨_, _, hc⟩, hl', hpo, hi, hkept⟩, hmet⟩ := hr
        have hpost : r.2 = none := by
          rcases hh : r.2 with _ | x
          · rfl
          · rw [hh] at hi; cases hi
        have hp : r.1.post = none := by rw [hc]; exact hk.post
        refine .pure ?_ ⟨⟨ok.held, ok.nodes, all_cons ⟨hn.ok h1.1, hl'.ok⟩ h2⟩, r.1, ?_⟩
        · exact List.Perm.trans (by simp only [hpost, postF]; perm) ((cons_ctrl w k r.1 l).append_left (dbF db))
        · have hpick : pick k ((k, r.1) :: l) = some (r.1, l) := by simp [pick]
          by_cases hnew : Announces d.1 ∧ d.2.1 ∉ as
          · obtain ⟨ha, hna⟩ := hnew
            obtain ⟨f, rest, hd, hs, hli⟩ := announces_search ha
            obtain ⟨n, en, hrem⟩ := hmet f rest hd hs hli (hk.addrs.none hna)
            have hadd : Addrs r.1.nodes (as ++ [d.2.1]) := by
              rw [en]
              rcases Kept.new (hk.addrs.none hna) hrem as hk.addrs with h' | ⟨a, e1, _, h'⟩
              · have := congrArg List.length h'.2.1
                have h'' := congrArg List.length hk.addrs.2.1
                simp only [List.length_map, List.length_append, List.length_cons, List.length_nil] at this h''
                omega
              · cases e1; exact h'
            exact ⟨as ++ [d.2.1], hpick, ⟨hp, hl', hadd⟩, fun a ha => by simp [ha], fun a ha => by simpa using ha, fun _ => by simp⟩
          · rcases hkept as hk.addrs with h' | ⟨a, e1, hna, h'⟩
            · refine ⟨as, hpick, ⟨hp, hl', h'⟩, fun _ h => h, fun _ h => Or.inl h, fun ha => ?_⟩
              by_cases hin : d.2.1 ∈ as
              · exact hin
              · exact absurd ⟨ha, hin⟩ hnew
            · cases e1
              exact ⟨as ++ [d.2.1], hpick, ⟨hp, hl', h'⟩, fun a ha => by simp [ha], fun a ha => by simpa using ha, fun _ => by simp⟩
    refine one.bind (K := []) (by simp) ?_
    rintro w1 ⟨ok1, c1, as1, hp1, hk1, m1, m2, m3⟩
    refine ((ih ok1 hp1 hk1).perm (by simp)).weak ?_
    rintro r ⟨okr, c2, l2, as2, hp2, hk2, n1, n2, n3⟩
    refine ⟨okr, c2, l2, as2, hp2, hk2, fun a ha => n1 a (m1 a ha), fun a ha => ?_, fun x hx hax => ?_⟩
    · rcases n2 a ha with h | h
      · rcases m2 a h with h | h
        · exact Or.inl h
        · exact Or.inr (by simp [h])
      · exact Or.inr (by simp only [List.map_cons, List.mem_cons]; exact Or.inr h)
    · rcases List.mem_cons.1 hx with rfl | hx
      · exact n1 _ (m3 hax)
      · exact n3 x hx hax

/-- A new controller and the datagrams that reach it. -/
theorem fresh_triple (e : Env) (db : HDb) (k : Nat) (id : List Byte) (ds : List (List Byte × String × List Byte)) {w : App} (ok : AppOk w)
    (hk : unused k w.ctrls = true) :
    Triple (dbF db ++ w.blocks) (steps e db (.ctrlNew k id :: ds.map fun d => .ctrlRecv k d.1 d.2.1 d.2.2) w) (fun r => dbF db ++ r.blocks)
      (fun r => ∃ c l as, pick k r.ctrls = some (c, l) ∧ Knows c as ∧ (∀ a ∈ as, a ∈ ds.map (·.2.1)) ∧ ∀ d ∈ ds, Announces d.1 → d.2.1 ∈ as) := by
  have one : Triple (dbF db ++ w.blocks) (step e db w (.ctrlNew k id)) (fun r => dbF db ++ r.blocks)
      (fun r => AppOk r ∧ ∃ c, pick k r.ctrls = some (c, w.ctrls) ∧ Knows c []) := by
    simp only [step, hk, if_true]
    refine (ctrlNew_triple e db id).bind (K := w.blocks) (.refl _) fun n hn => .pure ?_
      ⟨⟨ok.held, ok.nodes, all_cons ⟨hn.1, ?_⟩ ok.ctrls⟩, n, by simp [pick], hn.2.2.2, ?_, ?_⟩
    · exact List.Perm.trans (by perm) ((add_ctrl w k n).append_left (dbF db))
    · rw [hn.2.2.1]; simp
    · rw [hn.2.2.1]; intro x hx; cases hx
    · rw [hn.2.2.1]; exact ⟨by simp, rfl, .nil⟩
  refine one.bind (K := []) (by simp) ?_
  rintro w1 ⟨ok1, c1, hp1, hk1⟩
  refine ((ctrlDatagrams_triple e db k ds ok1 hp1 hk1).perm (by simp)).weak ?_
  rintro r ⟨-, c2, l2, as2, hp2, hk2, -, n2, n3⟩
  exact ⟨c2, l2, as2, hp2, hk2, fun a ha => by simpa using n2 a ha, n3⟩

theorem nodesF_length (l : List HNode) : l.length ≤ (nodesF l).length := by
  induction l with
  | nil => simp
  | cons n l ih =>
    simp only [nodesF_cons, List.length_append, List.length_cons, nodeF]
    omega

theorem ctrl_blocks {w : App} {k : Nat} {c : HCtrl} {l : List (Nat × HCtrl)} (h : pick k w.ctrls = some (c, l)) : c.nodes.length ≤ w.blocks.length := by
  have h1 := (blocks_ctrl h).length_eq
  have h2 := nodesF_length c.nodes
  simp only [List.length_append, ctrlF] at h1
  omega

/-! ### Single steps, for the runs that go wrong -/

theorem bind_run {α β : Type} (x : H α) (f : α → H β) (m : Mem) : (x >>= f) m = (x m >>= fun r => f r.1 r.2) := rfl
theorem pure_run {α : Type} (a : α) (m : Mem) : (pure a : H α) m = .ok (a, m) := rfl
theorem bind_ub {α β : Type} (f : α → Res β) : ((Res.ub : Res α) >>= f) = .ub := rfl

theorem touch_or (l : List Nat) (m : Mem) : touch l m = .ok ((), m) ∨ touch l m = .ub := by
  induction l with
  | nil => exact .inl rfl
  | cons a l ih =>
    by_cases ha : a ∈ m.live
    · simpa [touch, bind_run, use, ha] using ih
    · simp [touch, bind_run, use, ha, bind_ub]

/-- Adding a property deletes the one with its code. -/
theorem replace_triple (o : HObj) (p q : HProp) (pre post : List HProp) (h : splitBy (fun y => y.code == q.code) o.props = some (pre, p, post)) :
    Triple (objF o ++ propF q) (objAddProperty o q) (fun _ => objF { o with props := pre ++ post } ++ propF q) (fun _ => True) := by
  unfold objAddProperty plAdd
  frame use_triple o.self
  intro _ _
  frame use_triple q.self
  intro _ _
  touching
  intro _ _
  frame use_triple q.self
  intro _ _
  simp only [h]
  obtain ⟨e, hq⟩ := splitBy_eq h
  refine Triple.perm (P := objF { o with props := pre ++ p :: post } ++ propF q) ?_ (by rw [← e]; fp)
  frame propDelete_triple p
  intro _ _
  exact .pure (by fp) trivial

end Uecho.Lemmas.Blocks
