import Verif.Lemmas.Section
import Verif.Lemmas.Object
import Verif.Spec.Service
/-! Lemmas about request handling. -/
set_option linter.unusedSimpArgs false
namespace Uecho.Lemmas
open Uecho Uecho.Spec

/-! ### handlers -/

theorem notifyLoop_eq (p : Property) (esv c : Byte) (d : List Byte) : ∀ (hs : List Observer) (acc : Bool),
    (∀ x ∈ hs, x.handler ≠ none) →
    Obj.notifyLoop p esv c d hs acc = .ok (acc && accepts hs esv c p d)
  | [], acc, _ => by simp [Obj.notifyLoop, accepts]
  | x :: xs, acc, h => by
      have ih := fun a => notifyLoop_eq p esv c d xs a (fun y hy => h y (List.mem_cons_of_mem _ hy))
      have hx := h x (List.mem_cons_self ..)
      unfold Obj.notifyLoop accepts
      by_cases h1 : esv = x.esv
      · by_cases h2 : c = x.code
        · subst h1 h2
          cases hh : x.handler with
          | none => exact absurd hh hx
          | some g => simp [ih, hh, accepts, Bool.and_assoc]
        · have : ¬ x.code = c := fun e => h2 e.symm
          have e2 : (x.code == c) = false := by simpa using this
          subst h1
          simp [h2, ih, e2, accepts]
      · have : ¬ x.esv = esv := fun e => h1 e.symm
        have e1 : (x.esv == esv) = false := by simpa using this
        simp [h1, ih, e1, accepts]

/-- a NULL handler among the matching ones is UB -/
theorem notifyLoop_null (p : Property) (esv c : Byte) (d : List Byte) : ∀ (hs : List Observer) (acc : Bool)
    (x : Observer), x ∈ hs → x.esv = esv → x.code = c → x.handler = none →
    Obj.notifyLoop p esv c d hs acc = .ub
  | [], _, _, h, _, _, _ => by simp at h
  | y :: ys, acc, x, h, h1, h2, h3 => by
      unfold Obj.notifyLoop
      rcases List.mem_cons.1 h with rfl | h
      · simp [h1, h2, h3]
      · have ih := fun a => notifyLoop_null p esv c d ys a x h h1 h2 h3
        split
        · exact ih _
        · split
          · exact ih _
          · split
            · rfl
            · exact ih _

/-! ### one section -/

/-- is it a write service for the loop body -/
def isW (esv : Byte) : Bool := esv == 0x60#8 || esv == 0x61#8
def isR (esv : Byte) : Bool := esv == 0x62#8 || esv == 0x63#8 || esv == 0x74#8

def storeObj (o : Obj) (c : Byte) (d : List Byte) : Obj :=
  { o with props := Message.modifyFirst c (fun p => { p with data := d }) o.props }

def stepObj (esv : Byte) (o : Obj) (q : Prop8) : Obj :=
  if granted o.observers esv o.getProperty q && isW esv then storeObj o q.1 q.2 else o

def stepRes (esv : Byte) (o : Obj) (q : Prop8) : Prop8 :=
  (q.1, match o.getProperty q.1 with
    | some p => if accepts o.observers esv q.1 p q.2 then (if isR esv then p.data else [])
                else (if esv == 0x61#8 then q.2 else [])
    | none => if esv == 0x61#8 then q.2 else [])

def stepAnn (esv : Byte) (o : Obj) (q : Prop8) : List Property :=
  if granted o.observers esv o.getProperty q && isW esv then
    match o.getProperty q.1 with
    | some p => PropertyList.ann (p.setData q.2)
    | none => []
  else []

def runObj (esv : Byte) : Obj → List Prop8 → Obj
  | o, [] => o
  | o, q :: qs => runObj esv (stepObj esv o q) qs
def runRes (esv : Byte) : Obj → List Prop8 → List Prop8
  | _, [] => []
  | o, q :: qs => stepRes esv o q :: runRes esv (stepObj esv o q) qs
def runAnn (esv : Byte) : Obj → List Prop8 → List Property
  | _, [] => []
  | o, q :: qs => stepAnn esv o q ++ runAnn esv (stepObj esv o q) qs
def runVer (esv : Byte) : Obj → List Prop8 → List Bool
  | _, [] => []
  | o, q :: qs => granted o.observers esv o.getProperty q :: runVer esv (stepObj esv o q) qs

/-- everything but the properties is kept -/
def SameFrame (o o' : Obj) : Prop := o' = { o with props := o'.props }

theorem stepObj_frame (esv o q) : SameFrame o (stepObj esv o q) := by
  unfold SameFrame stepObj; split <;> rfl

theorem SameFrame.trans {a b c : Obj} (h1 : SameFrame a b) (h2 : SameFrame b c) : SameFrame a c := by
  unfold SameFrame at *; rw [h2, h1]

theorem runObj_frame (esv) : ∀ (qs : List Prop8) (o : Obj), SameFrame o (runObj esv o qs)
  | [], _ => rfl
  | q :: qs, o => (stepObj_frame esv o q).trans (runObj_frame esv qs _)

theorem SameFrame.obs {a b : Obj} (h : SameFrame a b) : b.observers = a.observers := by rw [h]
theorem SameFrame.code {a b : Obj} (h : SameFrame a b) : b.getCode = a.getCode := by rw [h]; rfl
theorem SameFrame.node {a b : Obj} (h : SameFrame a b) : b.hasNode = a.hasNode := by rw [h]

theorem modifyFirst_id : ∀ (c : Byte) (f : Property → Property) (l : List Property),
    (∀ p, l.find? (fun p => p.code == c) = some p → f p = p) → Message.modifyFirst c f l = l
  | _, _, [], _ => rfl
  | c, f, p :: ps, h => by
      unfold Message.modifyFirst
      by_cases hc : p.code == c
      · rw [if_pos hc, h p (by simp [hc])]
      · rw [if_neg hc, modifyFirst_id c f ps (fun q hq => h q (by simpa [hc] using hq))]

theorem modifyFirst_congr : ∀ (c : Byte) (f g : Property → Property) (l : List Property),
    (∀ p, l.find? (fun p => p.code == c) = some p → f p = g p) →
    Message.modifyFirst c f l = Message.modifyFirst c g l
  | _, _, _, [], _ => rfl
  | c, f, g, p :: ps, h => by
      unfold Message.modifyFirst
      by_cases hc : p.code == c
      · rw [if_pos hc, if_pos hc, h p (by simp [hc])]
      · rw [if_neg hc, if_neg hc, modifyFirst_congr c f g ps (fun q hq => h q (by simpa [hc] using hq))]

theorem handleOne_eq (esv : Byte) (add : Message → Property → Res Message) (s : Node.Req) (q : Prop8)
    (hn : ∀ x ∈ s.obj.observers, x.handler ≠ none) :
    Node.handleOne esv add s (mkProp q) =
      (add s.res (mkProp (stepRes esv s.obj q)) >>= fun res =>
        .ok ⟨stepObj esv s.obj q, res,
          s.cnt + (if granted s.obj.observers esv s.obj.getProperty q then 1 else 0),
          s.ann ++ stepAnn esv s.obj q⟩) := by
  obtain ⟨c, d⟩ := q
  have hmk : ∀ d', mkProp (c, d') = { (Property.new.setCode c) with data := d' } := fun _ => rfl
  have hcode : (mkProp (c, d)).code = c := rfl
  have hdata : (mkProp (c, d)).data = d := rfl
  unfold Node.handleOne stepObj stepRes stepAnn granted
  simp only [hcode, hdata]
  cases hp : s.obj.getProperty c with
  | none =>
    simp only [setData_fst]
    by_cases h61 : esv == 0x61#8
    · simp [h61, Esv.writeRequestRR, hmk, setData_fst]
    · simp [h61, Esv.writeRequestRR, hmk]; rfl
  | some p =>
    simp only [Obj.notifyRequest, hcode, hdata]
    rw [notifyLoop_eq p esv c d s.obj.observers true hn]
    simp only [Res.bind_ok, Bool.true_and]
    rcases Bool.eq_false_or_eq_true (accepts s.obj.observers esv c p d) with ha | ha
    rotate_left
    · simp only [ha]
      by_cases h61 : esv == 0x61#8
      · simp [h61, Esv.writeRequestRR, hmk, setData_fst]
      · simp [h61, Esv.writeRequestRR, hmk]; rfl
    · simp only [ha, if_true, Bool.true_and]
      have hw : (esv == Esv.writeRequest || esv == Esv.writeRequestRR) = isW esv := rfl
      have hr : (esv == Esv.readRequest || esv == Esv.notificationRequest ||
          esv == Esv.notificationRR) = isR esv := rfl
      rw [hw, hr]
      cases hww : isW esv with
      | true =>
        have hrr : isR esv = false := by
          unfold isW at hww; unfold isR
          simp only [Bool.or_eq_true, beq_iff_eq] at hww
          rcases hww with rfl | rfl <;> rfl
        simp only [hrr, if_true, if_false, Bool.false_eq_true, storeObj, setData_fst, hmk]
        have : Message.modifyFirst c (fun _ => { p with data := d }) s.obj.props =
            Message.modifyFirst c (fun p => { p with data := d }) s.obj.props := by
          apply modifyFirst_congr
          intro p' hp'
          have : s.obj.props.find? (fun p => p.code == c) = some p := hp
          rw [hp'] at this; cases this; rfl
        simp only [this]
        rfl
      | false =>
        simp only [if_false, Bool.false_eq_true]
        have : Message.modifyFirst c (fun _ => p) s.obj.props = s.obj.props := by
          apply modifyFirst_id
          intro p' hp'
          have : s.obj.props.find? (fun p => p.code == c) = some p := hp
          rw [hp'] at this; cases this; rfl
        simp only [this]
        have hann : PropertyList.ann (p, false) = [] := rfl
        rw [hann]
        cases hrr : isR esv <;> simp [hmk, setData_fst] <;> rfl

theorem handleAll_eq (esv : Byte) (s : Sec) : ∀ (qs : List Prop8) (st : Node.Req),
    MsgWF st.res → (secProps s st.res).length + qs.length ≤ 255 →
    (∀ x ∈ st.obj.observers, x.handler ≠ none) →
    ∃ res', s.addAll st.res ((runRes esv st.obj qs).map mkProp) = .ok res' ∧
      Node.handleAll esv s.add st (qs.map mkProp) =
      .ok ⟨runObj esv st.obj qs, res', st.cnt + (runVer esv st.obj qs).count true,
        st.ann ++ runAnn esv st.obj qs⟩
  | [], st, _, _, _ => ⟨st.res, rfl, by simp [Node.handleAll, runObj, runVer, runAnn]⟩
  | q :: qs, st, hm, hl, hn => by
      simp only [List.length_cons] at hl
      have hlen := sec_len hm s
      have hadd := propAdd_eq (o := secOpc s st.res) (l := secProps s st.res)
        (mkProp (stepRes esv st.obj q)) hlen (by omega)
      have hlen' := (propAdd_ok hadd).2.2.2.2
      have hf := stepObj_frame esv st.obj q
      obtain ⟨res', h1, h2⟩ := handleAll_eq esv s qs
        ⟨stepObj esv st.obj q, secWith s st.res (secOpc s st.res + 1)
          (secProps s st.res ++ [mkProp (stepRes esv st.obj q)]),
          st.cnt + (if granted st.obj.observers esv st.obj.getProperty q then 1 else 0),
          st.ann ++ stepAnn esv st.obj q⟩
        (secWith_wf hm s _ _ hlen') (by rw [(secWith_self ..).1]; simp; omega)
        (by simp only [hf.obs]; exact hn)
      refine ⟨res', ?_, ?_⟩
      · simp only [runRes, List.map_cons, Sec.addAll, sec_add, hadd, Res.bind_ok]
        exact h1
      · simp only [List.map_cons, Node.handleAll, handleOne_eq esv s.add st q hn, sec_add, hadd,
          Res.bind_ok, h2]
        congr 2
        · simp only [runVer, List.count_cons]
          cases granted st.obj.observers esv st.obj.getProperty q <;> simp <;> omega
        · simp [runAnn, List.append_assoc]

theorem runRes_length (esv) : ∀ (qs : List Prop8) (o : Obj), (runRes esv o qs).length = qs.length
  | [], _ => rfl
  | q :: qs, o => by simp [runRes, runRes_length esv qs]

theorem runVer_length (esv) : ∀ (qs : List Prop8) (o : Obj), (runVer esv o qs).length = qs.length
  | [], _ => rfl
  | q :: qs, o => by simp [runVer, runVer_length esv qs]

theorem runRes_codes (esv) : ∀ (qs : List Prop8) (o : Obj), codes (runRes esv o qs) = codes qs
  | [], _ => rfl
  | q :: qs, o => by
      have := runRes_codes esv qs (stepObj esv o q)
      simp [codes] at this ⊢
      simp [runRes, stepRes, this]

/-! ### link with the specification -/

theorem storeObj_get (o : Obj) (c : Byte) (d : List Byte) :
    (storeObj o c d).getProperty = PMap.store o.getProperty c d := by
  funext k
  unfold PMap.store
  have hcode : ∀ p : Property, ({ p with data := d } : Property).code = p.code := fun _ => rfl
  change (Message.modifyFirst c _ o.props).find? (fun p => p.code == k) = _
  have key : ∀ l : List Property,
      (Message.modifyFirst c (fun p => { p with data := d }) l).find? (fun p => p.code == k) =
      if k = c then (l.find? (fun p => p.code == k)).map (fun p => { p with data := d })
      else l.find? (fun p => p.code == k) := by
    intro l
    induction l with
    | nil => simp [Message.modifyFirst]
    | cons p ps ih =>
      unfold Message.modifyFirst
      by_cases hc : p.code = c
      · simp only [hc, beq_self_eq_true, if_true]
        by_cases hk : k = c
        · subst hk; simp [hc]
        · have : ¬ c = k := fun h => hk h.symm
          simp [hk, hc, this]
      · have : (p.code == c) = false := by simpa using hc
        simp only [this, Bool.false_eq_true, if_false, List.find?_cons]
        by_cases hk : p.code = k
        · have : ¬ k = c := fun h => hc (hk.trans h)
          simp [hk, this]
        · have : (p.code == k) = false := by simpa using hk
          simp only [this, ih]
  exact key o.props

theorem stepObj_get {esv : Byte} (h : isW esv = true) (o : Obj) (q : Prop8) :
    (stepObj esv o q).getProperty =
      if granted o.observers esv o.getProperty q then PMap.store o.getProperty q.1 q.2
      else o.getProperty := by
  unfold stepObj
  rw [h, Bool.and_true]
  split
  · exact storeObj_get ..
  · rfl

theorem runObj_write {esv : Byte} (h : isW esv = true) : ∀ (qs : List Prop8) (o : Obj),
    (runObj esv o qs).getProperty = writeSection o.observers esv o.getProperty qs ∧
    runVer esv o qs = writeVerdicts o.observers esv o.getProperty qs
  | [], _ => ⟨rfl, rfl⟩
  | q :: qs, o => by
      obtain ⟨h1, h2⟩ := runObj_write h qs (stepObj esv o q)
      rw [(stepObj_frame esv o q).obs, stepObj_get h] at h1 h2
      exact ⟨h1, congrArg _ h2⟩

theorem stepObj_read {esv : Byte} (h : isW esv = false) (o : Obj) (q : Prop8) :
    stepObj esv o q = o := by unfold stepObj; rw [h, Bool.and_false]; rfl

theorem run_read {esv : Byte} (h : isW esv = false) : ∀ (qs : List Prop8) (o : Obj),
    runObj esv o qs = o ∧ runAnn esv o qs = [] ∧
    runVer esv o qs = qs.map (granted o.observers esv o.getProperty)
  | [], _ => ⟨rfl, rfl, rfl⟩
  | q :: qs, o => by
      obtain ⟨h1, h2, h3⟩ := run_read h qs o
      have ha : stepAnn esv o q = [] := by unfold stepAnn; rw [h, Bool.and_false]; rfl
      simp only [runObj, runAnn, runVer, stepObj_read h, h1, h2, h3, ha]
      simp

theorem runRes_read {esv : Byte} (hr : isR esv = true) : ∀ (qs : List Prop8) (o : Obj),
    runRes esv o qs = readSection o.observers esv o.getProperty qs := by
  have hw : isW esv = false := by
    unfold isR at hr; unfold isW
    simp only [Bool.or_eq_true, beq_iff_eq] at hr
    rcases hr with (rfl | rfl) | rfl <;> rfl
  have h61 : (esv == 0x61#8) = false := by
    unfold isW at hw; simp only [Bool.or_eq_false_iff] at hw; exact hw.2
  intro qs
  induction qs with
  | nil => intro _; rfl
  | cons q qs ih =>
    intro o
    simp only [runRes, stepObj_read hw, ih o, readSection, List.map_cons, stepRes, hr, h61,
      if_true, Bool.false_eq_true, if_false]
    all_goals rfl

theorem runRes_write {esv : Byte} (hw : isW esv = true) : ∀ (qs : List Prop8) (o : Obj),
    runRes esv o qs =
      writeReply o.observers esv (fun q => if esv = 0x61#8 then q.2 else []) o.getProperty qs := by
  have hr : isR esv = false := by
    unfold isW at hw; unfold isR
    simp only [Bool.or_eq_true, beq_iff_eq] at hw
    rcases hw with rfl | rfl <;> rfl
  intro qs
  induction qs with
  | nil => intro _; rfl
  | cons q qs ih =>
    intro o
    have h := ih (stepObj esv o q)
    rw [(stepObj_frame esv o q).obs, stepObj_get hw] at h
    unfold runRes writeReply
    rw [h]
    congr 1
    unfold stepRes granted
    simp only [hr, Bool.false_eq_true, if_false]
    congr 1
    cases o.getProperty q.1 with
    | none => simp
    | some p => cases hA : accepts o.observers esv q.1 p q.2 <;> simp

end Uecho.Lemmas
