import Verif.Props.CList
import Verif.Model.Keyed
import Verif.Spec.Keyed
/-! # Lemmas for C120: dictionaries in linked memory -/
namespace Uecho.Lemmas
open Uecho Uecho.Spec Uecho.CList

/-- At most one element per code in every list. -/
def Uniq (w : Dicts) : Prop := ∀ p l, w.seqs.lists p = some l → (l.map w.code).Nodup

structure DRep (m : Keyed.Mem) (w : Dicts) : Prop where
  rep : Rep m.cells w.seqs
  code : m.code = w.code
  uniq : Uniq w

theorem Rep.cell_elem {h : CList.Mem} {s : Seqs} (r : Rep h s) {p x : Nat} {l : List Nat} (hp : s.lists p = some l) (hx : x ∈ l) :
    ∃ c, cell h x = .ok c := by
  obtain ⟨c, e, _⟩ := fl_some ((r.ring p l hp).elem x hx)
  exact ⟨c, cell_eq e⟩

theorem findLoop_ring {m : Keyed.Mem} {s : Seqs} (r : Rep m.cells s) {p : Nat} (c : Int) {l2 l1 : List Nat} (hp : s.lists p = some (l1 ++ l2))
    (k : Nat) (hk : l2.length ≤ k) : Keyed.findLoop m c k l2.head? = .ok (some (l2.find? fun y => m.code y = c)) := by
  induction l2 generalizing l1 k with
  | nil => cases k <;> rfl
  | cons x l2 ih =>
    cases k with
    | zero => simp at hk
    | succ k =>
      obtain ⟨d, hd⟩ := r.cell_elem hp (x := x) (by simp)
      simp only [List.head?_cons, Keyed.findLoop, Keyed.getCode, hd, Res.bind_ok, Res.pure_eq]
      by_cases hc : m.code x = c
      · simp [hc]
      · rw [if_neg hc, next_elem (r.ring p _ hp), Res.bind_ok, ih (l1 := l1 ++ [x]) (by simpa using hp) k (by simpa using hk)]
        simp [hc]

theorem find_rep {m : Keyed.Mem} {s : Seqs} (r : Rep m.cells s) {p : Nat} (c : Int) {l : List Nat} (hp : s.lists p = some l) (k : Nat)
    (hk : l.length ≤ k) : Keyed.find k m p c = .ok (some (l.find? fun y => m.code y = c)) := by
  unfold Keyed.find gets
  rw [next_head (r.ring p l hp), Res.bind_ok]
  exact findLoop_ring r c (l1 := []) hp k hk

theorem add_rep {h : CList.Mem} {s : Seqs} (r : Rep h s) {p x : Nat} {l : List Nat} (hp : s.lists p = some l) (hx : s.loose x = true) :
    ∃ h', CList.add h p x = .ok (h', true) ∧ Rep h' ((s.setList p (some (l ++ [x]))).setLoose x false) := by
  obtain ⟨h', k0, g1, g2⟩ := Props.runOp_rep r ⟨true, none, none⟩ (.add hp hx)
  refine ⟨h', ?_, g2⟩
  have := g1 k0 (Nat.le_refl _)
  simp only [Props.runOp, Res.bind_eq_ok, Res.pure_eq] at this
  obtain ⟨⟨a, b⟩, e1, e2⟩ := this
  simp only [Res.ok.injEq, Option.some.injEq, Prod.mk.injEq, SeqObs.bool.injEq] at e2
  rw [e1, e2.1, e2.2]

/-- Removing an element from its list and freeing it. -/
theorem remove_free {h : CList.Mem} {s : Seqs} (r : Rep h s) {p y : Nat} {l : List Nat} (hp : s.lists p = some l) (hy : y ∈ l) :
    ∃ h1 h2, CList.remove h y = .ok (h1, true) ∧ CList.remove h1 y = .ok (h1, true) ∧ CList.free h1 y = .ok h2 ∧
    Rep h2 (s.setList p (some (l.erase y))) := by
  obtain ⟨l1, l2, rfl⟩ := List.append_of_mem hy
  have nd := (List.nodup_cons.1 (r.ring p _ hp).nd).2
  obtain ⟨h1, g1, g2⟩ := r.remove hp
  have hl : ((s.setList p (some (l1 ++ l2))).setLoose y true).loose y = true := by simp [Seqs.setLoose]
  obtain ⟨h1', g3, rfl⟩ := Props.remove_loose (g2.loose y hl)
  have g4 := g2.freeElement hl
  refine ⟨h1', _, g1, g3, by simp [CList.free, cell_eq (g2.loose y hl)]; rfl, ?_⟩
  rw [erase_split nd]
  have e : ((s.setList p (some (l1 ++ l2))).setLoose y true).setLoose y false = s.setList p (some (l1 ++ l2)) := by
    have := r.apart p y ⟨_, hp, by simp⟩
    simp only [Seqs.setLoose, Seqs.setList, Seqs.mk.injEq, true_and]
    funext z
    by_cases hz : z = y
    · simp [hz, this]
    · simp [hz]
  rw [e] at g4
  exact g4

theorem mem_of_code {code : Nat → Int} {l : List Nat} (nd : (l.map code).Nodup) {y z : Nat} (hy : y ∈ l) (hz : z ∈ l) (e : code y = code z) :
    y = z := by
  induction l with
  | nil => simp at hy
  | cons a l ih =>
    rw [List.map_cons, List.nodup_cons] at nd
    rcases List.mem_cons.1 hy with rfl | hy' <;> rcases List.mem_cons.1 hz with rfl | hz'
    · rfl
    · exact absurd (e ▸ List.mem_map_of_mem hz') nd.1
    · exact absurd (e ▸ List.mem_map_of_mem hy') nd.1
    · exact ih nd.2 hy' hz'

/-- With unique codes, erasing the element of a code is leaving out all elements with that code. -/
theorem erase_eq_filter {code : Nat → Int} {l : List Nat} (nd : (l.map code).Nodup) {y : Nat} (hy : y ∈ l) :
    l.erase y = l.filter fun z => code z ≠ code y := by
  induction l with
  | nil => simp at hy
  | cons a l ih =>
    rw [List.map_cons, List.nodup_cons] at nd
    by_cases e : a = y
    · subst e
      rw [List.erase_cons_head, List.filter_cons_of_neg (by simp)]
      symm
      rw [List.filter_eq_self]
      intro z hz
      simp only [ne_eq, decide_not, Bool.not_eq_eq_eq_not, Bool.not_true, decide_eq_false_iff_not]
      intro hc
      exact nd.1 (hc ▸ List.mem_map_of_mem hz)
    · have hy' : y ∈ l := by
        rcases List.mem_cons.1 hy with h | h
        · exact absurd h.symm e
        · exact h
      rw [List.erase_cons_tail (by simpa using e), List.filter_cons_of_pos, ih nd.2 hy']
      simp only [ne_eq, decide_not, Bool.not_eq_eq_eq_not, Bool.not_true, decide_eq_false_iff_not]
      intro hc
      exact nd.1 (hc ▸ List.mem_map_of_mem hy')

theorem nodup_filter_map {code : Nat → Int} {l : List Nat} (nd : (l.map code).Nodup) (f : Nat → Bool) : ((l.filter f).map code).Nodup :=
  List.Nodup.sublist (List.Sublist.map code List.filter_sublist) nd

theorem setList_same (s : Seqs) (p : Nat) (a b : Option (List Nat)) : (s.setList p a).setList p b = s.setList p b := by
  simp only [Seqs.setList, Seqs.mk.injEq, and_true]
  funext q; split <;> rfl

theorem uniq_setList {w : Dicts} (u : Uniq w) {p : Nat} {l : List Nat} (hl : (l.map w.code).Nodup) (s' : Seqs)
    (hs : s'.lists = (w.seqs.setList p (some l)).lists) : Uniq { w with seqs := s' } := by
  intro q l' hq
  simp only [hs, Seqs.setList] at hq
  split at hq
  · injection hq with hq; subst hq; exact hl
  · exact u q l' hq

/-- A code given to an element that is in no list does not matter to the lists. -/
theorem uniq_setCode {w : Dicts} (u : Uniq w) {x : Nat} (hx : ∀ p l, w.seqs.lists p = some l → x ∉ l) (c : Int) : Uniq (w.setCode x c) := by
  intro p l hp
  have : l.map (w.setCode x c).code = l.map w.code := by
    apply List.map_congr_left
    intro y hy
    simp only [Dicts.setCode]
    rw [if_neg]
    rintro rfl
    exact hx p l hp hy
  rw [this]
  exact u p l hp

theorem code_congr {w : Dicts} {x : Nat} {l : List Nat} (hx : x ∉ l) (c : Int) (f : Int → Bool) :
    (l.find? fun y => f ((w.setCode x c).code y)) = l.find? fun y => f (w.code y) := by
  induction l with
  | nil => rfl
  | cons a l ih =>
    have ha : a ≠ x := fun e => hx (by simp [e])
    simp only [List.find?_cons, Dicts.setCode, if_neg ha]
    rw [show (l.find? fun y => f (if y = x then c else w.code y)) = l.find? fun y => f (w.code y) from
      ih (fun h => hx (by simp [h]))]

/-- Appending an element, outside lists, with a code that the list does not have. -/
theorem drep_append {h' : CList.Mem} {w : Dicts} (u : Uniq w) {p x : Nat} {l : List Nat}
    (hl : (l.map w.code).Nodup) (hc : ∀ y ∈ l, w.code y ≠ w.code x)
    (r' : Rep h' ((w.seqs.setList p (some (l ++ [x]))).setLoose x false)) : DRep ⟨h', w.code⟩ (w.append p x l) := by
  refine ⟨r', rfl, ?_⟩
  refine uniq_setList (l := l ++ [x]) (p := p) u ?_ _ ?_
  · rw [List.map_append, List.nodup_append]
    refine ⟨hl, by simp, ?_⟩
    intro a ha b hb
    rw [List.mem_map] at ha
    obtain ⟨y, hy, rfl⟩ := ha
    rw [List.map_singleton, List.mem_singleton] at hb
    subst hb
    exact hc y hy
  · rfl

end Uecho.Lemmas
