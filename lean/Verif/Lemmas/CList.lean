import Verif.Model.CList
import Verif.Spec.Sequence
set_option linter.unusedSimpArgs false
/-!
# Lemmas: rings of cells
-/
namespace Uecho.Lemmas
open Uecho Uecho.Spec Uecho.CList

def nx (h : Mem) (u : Nat) : Option Nat := (h u).bind Cell.next
def pv (h : Mem) (u : Nat) : Option Nat := (h u).bind Cell.prev
def fl (h : Mem) (u : Nat) : Option Bool := (h u).map Cell.head

theorem nx_some {h : Mem} {u v : Nat} (e : nx h u = some v) : ∃ c, h u = some c ∧ c.next = some v := by
  unfold nx at e; cases hc : h u with
  | none => rw [hc] at e; cases e
  | some c => rw [hc] at e; exact ⟨c, rfl, e⟩
theorem pv_some {h : Mem} {u v : Nat} (e : pv h u = some v) : ∃ c, h u = some c ∧ c.prev = some v := by
  unfold pv at e; cases hc : h u with
  | none => rw [hc] at e; cases e
  | some c => rw [hc] at e; exact ⟨c, rfl, e⟩
theorem fl_some {h : Mem} {u : Nat} {b : Bool} (e : fl h u = some b) : ∃ c, h u = some c ∧ c.head = b := by
  unfold fl at e; cases hc : h u with
  | none => rw [hc] at e; cases e
  | some c => rw [hc] at e; exact ⟨c, rfl, by simpa using e⟩

theorem cell_eq {h : Mem} {u : Nat} {c : Cell} (e : h u = some c) : cell h u = .ok c := by
  unfold cell; rw [e]

/-- consecutive cells are linked both ways -/
def Links (h : Mem) : List Nat → Prop
  | [] => True
  | [_] => True
  | a :: b :: l => nx h a = some b ∧ pv h b = some a ∧ Links h (b :: l)

theorem links_append (h : Mem) (l : List Nat) (a : Nat) (r : List Nat) :
    Links h (l ++ a :: r) ↔ Links h (l ++ [a]) ∧ Links h (a :: r) := by
  induction l with
  | nil => simp [Links]
  | cons x l ih =>
    cases l with
    | nil => simp [Links, and_assoc]
    | cons y l =>
      simp only [List.cons_append, Links] at ih ⊢
      rw [ih]; simp only [and_assoc]

theorem links_mid {h : Mem} {l : List Nat} {y z : Nat} {r : List Nat} (k : Links h (l ++ y :: z :: r)) :
    nx h y = some z ∧ pv h z = some y := by
  rw [links_append] at k
  exact ⟨k.2.1, k.2.2.1⟩

theorem links_frame {h h' : Mem} {l : List Nat} (k : Links h l) (hn : ∀ u ∈ l.dropLast, nx h' u = nx h u)
    (hp : ∀ u ∈ l.tail, pv h' u = pv h u) : Links h' l := by
  induction l with
  | nil => trivial
  | cons a l ih =>
    cases l with
    | nil => trivial
    | cons b l =>
      refine ⟨?_, ?_, ?_⟩
      · rw [hn a (by simp)]; exact k.1
      · rw [hp b (by simp)]; exact k.2.1
      · refine ih k.2.2 (fun u hu => hn u (by simp [List.dropLast] at hu ⊢; exact .inr hu)) (fun u hu => hp u ?_)
        simp at hu ⊢; exact .inr hu

/-- A list with header `p` and elements `xs`. -/
structure IsRing (h : Mem) (p : Nat) (xs : List Nat) : Prop where
  nd : (p :: xs).Nodup
  links : Links h (p :: (xs ++ [p]))
  head : fl h p = some true
  elem : ∀ x ∈ xs, fl h x = some false

theorem IsRing.frame {h h' : Mem} {p : Nat} {xs : List Nat} (r : IsRing h p xs) (hf : ∀ u ∈ p :: xs, h' u = h u) :
    IsRing h' p xs := by
  have mem : ∀ u ∈ p :: (xs ++ [p]), u ∈ p :: xs := by simp; intro a h; exact h.symm
  refine ⟨r.nd, links_frame r.links ?_ ?_, ?_, ?_⟩
  · intro u hu; unfold nx; rw [hf u (mem u (List.dropLast_subset _ hu))]
  · intro u hu; unfold pv; rw [hf u (mem u (List.mem_of_mem_tail hu))]
  · unfold fl; rw [hf p (by simp)]; exact r.head
  · intro x hx; unfold fl; rw [hf x (by simp [hx])]; exact r.elem x hx

theorem insert_spec {h : Mem} {x y z : Nat} {cx : Cell} (hx : h x = some cx) (hy : nx h y = some z) (hz : pv h z = some y)
    (h1 : x ≠ y) (h2 : x ≠ z) : ∃ h', CList.insert h y x = .ok h' ∧
    (∀ u, nx h' u = if u = x then some z else if u = y then some x else nx h u) ∧
    (∀ u, pv h' u = if u = x then some y else if u = z then some x else pv h u) ∧
    (∀ u, fl h' u = fl h u) ∧ (∀ u, u ≠ x → u ≠ y → u ≠ z → h' u = h u) := by
  obtain ⟨cy, ey, ny⟩ := nx_some hy
  obtain ⟨cz, ez, pz⟩ := pv_some hz
  obtain ⟨fy, py, _⟩ := cy
  obtain ⟨fz, _, nz⟩ := cz
  simp only at ny pz; subst ny pz
  by_cases h3 : y = z
  · subst h3
    rw [ey] at ez
    simp only [Option.some.injEq, Cell.mk.injEq] at ez
    obtain ⟨rfl, rfl, rfl⟩ := ez
    refine ⟨_, by simp [CList.insert, cell, put, hx, ey, h1, Ne.symm h1, deref]; rfl, ?_, ?_, ?_, ?_⟩
    · intro u; by_cases a : u = y <;> by_cases b : u = x <;> simp [nx, put, a, b, h1, Ne.symm h1] <;> simp_all
    · intro u; by_cases a : u = y <;> by_cases b : u = x <;> simp [pv, put, a, b, h1, Ne.symm h1] <;> simp_all
    · intro u; by_cases a : u = y <;> by_cases b : u = x <;> simp [fl, put, a, b, h1, Ne.symm h1, hx, ey] <;> simp_all
    · intro u a b c; simp [put, a, b]
  · refine ⟨_, by simp [CList.insert, cell, put, hx, ey, ez, h1, h2, h3, Ne.symm h1, Ne.symm h2, deref]; rfl, ?_, ?_, ?_, ?_⟩
    · intro u; by_cases a : u = y <;> by_cases b : u = x <;> by_cases c : u = z <;>
        simp [nx, put, a, b, c, h1, h2, h3, Ne.symm h1, Ne.symm h2, Ne.symm h3, hx, ey, ez] <;> simp_all
    · intro u; by_cases a : u = y <;> by_cases b : u = x <;> by_cases c : u = z <;>
        simp [pv, put, a, b, c, h1, h2, h3, Ne.symm h1, Ne.symm h2, Ne.symm h3, hx, ey, ez] <;> simp_all
    · intro u; by_cases a : u = y <;> by_cases b : u = x <;> by_cases c : u = z <;>
        simp [fl, put, a, b, c, h1, h2, h3, Ne.symm h1, Ne.symm h2, Ne.symm h3, hx, ey, ez] <;> simp_all
    · intro u a b c; simp [put, a, b, c]

theorem remove_spec {h : Mem} {x y z : Nat} (hy : nx h y = some x) (hz : pv h z = some x) (hxn : nx h x = some z)
    (hxp : pv h x = some y) (h1 : x ≠ y) (h2 : x ≠ z) : ∃ h', CList.remove h x = .ok (h', true) ∧
    (∀ u, nx h' u = if u = x then some x else if u = y then some z else nx h u) ∧
    (∀ u, pv h' u = if u = x then some x else if u = z then some y else pv h u) ∧
    (∀ u, fl h' u = fl h u) ∧ (∀ u, u ≠ x → u ≠ y → u ≠ z → h' u = h u) := by
  obtain ⟨cy, ey, ny⟩ := nx_some hy
  obtain ⟨cz, ez, pz⟩ := pv_some hz
  obtain ⟨cx, ex, nx'⟩ := nx_some hxn
  obtain ⟨cx', ex', px⟩ := pv_some hxp
  rw [ex] at ex'; obtain rfl := Option.some.inj ex'
  obtain ⟨fy, py, _⟩ := cy
  obtain ⟨fz, _, nz⟩ := cz
  obtain ⟨fx, _, _⟩ := cx
  simp only at ny pz nx' px; subst ny pz nx' px
  by_cases h3 : y = z
  · subst h3
    rw [ey] at ez
    simp only [Option.some.injEq, Cell.mk.injEq] at ez
    obtain ⟨rfl, rfl, rfl⟩ := ez
    refine ⟨_, by simp [CList.remove, cell, put, ex, ey, h1, Ne.symm h1, deref]; rfl, ?_, ?_, ?_, ?_⟩
    · intro u; by_cases a : u = y <;> by_cases b : u = x <;> simp [nx, put, a, b, h1, Ne.symm h1] <;> simp_all
    · intro u; by_cases a : u = y <;> by_cases b : u = x <;> simp [pv, put, a, b, h1, Ne.symm h1] <;> simp_all
    · intro u; by_cases a : u = y <;> by_cases b : u = x <;> simp [fl, put, a, b, h1, Ne.symm h1, ex, ey] <;> simp_all
    · intro u a b c; simp [put, a, b]
  · refine ⟨_, by simp [CList.remove, cell, put, ex, ey, ez, h1, h2, h3, Ne.symm h1, Ne.symm h2, Ne.symm h3, deref]; rfl, ?_, ?_, ?_, ?_⟩
    · intro u; by_cases a : u = y <;> by_cases b : u = x <;> by_cases c : u = z <;>
        simp [nx, put, a, b, c, h1, h2, h3, Ne.symm h1, Ne.symm h2, Ne.symm h3, ex, ey, ez] <;> simp_all
    · intro u; by_cases a : u = y <;> by_cases b : u = x <;> by_cases c : u = z <;>
        simp [pv, put, a, b, c, h1, h2, h3, Ne.symm h1, Ne.symm h2, Ne.symm h3, ex, ey, ez] <;> simp_all
    · intro u; by_cases a : u = y <;> by_cases b : u = x <;> by_cases c : u = z <;>
        simp [fl, put, a, b, c, h1, h2, h3, Ne.symm h1, Ne.symm h2, Ne.symm h3, ex, ey, ez] <;> simp_all
    · intro u a b c; simp [put, a, b, c]

theorem ring_nd {p : Nat} {xs l : List Nat} {y z : Nat} {r : List Nat} (nd : (p :: xs).Nodup)
    (e : p :: (xs ++ [p]) = l ++ y :: z :: r) :
    y ∉ l ∧ y ∉ (z :: r).dropLast ∧ z ∉ (l ++ [y]).tail ∧ z ∉ r := by
  have d : (l ++ y :: z :: r).dropLast = p :: xs := by
    rw [← e, ← List.cons_append, List.dropLast_concat]
  have t : (l ++ y :: z :: r).tail = xs ++ [p] := by rw [← e]; rfl
  have nd1 : (l ++ y :: (z :: r).dropLast).Nodup := by
    have : (l ++ y :: z :: r).dropLast = l ++ y :: (z :: r).dropLast := by
      rw [List.dropLast_append_of_ne_nil (by simp)]; rfl
    rw [← this, d]; exact nd
  have nd2 : ((l ++ [y]).tail ++ z :: r).Nodup := by
    have : (l ++ y :: z :: r).tail = (l ++ [y]).tail ++ z :: r := by cases l <;> simp
    rw [← this, t]
    rw [List.nodup_append]
    simp only [List.nodup_cons] at nd
    refine ⟨nd.2, by simp, ?_⟩
    intro a ha b hb hab
    simp only [List.mem_singleton] at hb
    subst hb hab
    exact nd.1 ha
  rw [List.nodup_append] at nd1 nd2
  refine ⟨fun hm => nd1.2.2 y hm y (by simp) rfl, (List.nodup_cons.1 nd1.2.1).1,
    fun hm => nd2.2.2 z hm z (by simp) rfl, (List.nodup_cons.1 nd2.2.1).1⟩

theorem links_insert {h h' : Mem} {p : Nat} {xs l : List Nat} {x y z : Nat} {r : List Nat} (nd : (p :: xs).Nodup)
    (e : p :: (xs ++ [p]) = l ++ y :: z :: r) (hx : x ∉ p :: (xs ++ [p])) (k : Links h (p :: (xs ++ [p])))
    (hn : ∀ u, nx h' u = if u = x then some z else if u = y then some x else nx h u)
    (hp : ∀ u, pv h' u = if u = x then some y else if u = z then some x else pv h u) :
    Links h' (l ++ y :: x :: z :: r) := by
  obtain ⟨n1, n2, n3, n4⟩ := ring_nd nd e
  rw [e] at k hx
  have k1 := (links_append h l y (z :: r)).1 k
  have hxy : x ≠ y := by rintro rfl; exact hx (by simp)
  have hxz : x ≠ z := by rintro rfl; exact hx (by simp)
  rw [links_append]
  refine ⟨links_frame k1.1 ?_ ?_, ?_, ?_, ?_, ?_, links_frame k1.2.2.2 ?_ ?_⟩
  · intro u hu
    rw [List.dropLast_concat] at hu
    rw [hn, if_neg (by rintro rfl; exact hx (by simp [hu])), if_neg (by rintro rfl; exact n1 hu)]
  · intro u hu
    have hm : u ∈ l ++ [y] := List.mem_of_mem_tail hu
    rw [hp, if_neg (by rintro rfl; apply hx; simp at hm ⊢; rcases hm with hm | hm <;> simp [hm]),
      if_neg (by rintro rfl; exact n3 hu)]
  · rw [hn, if_neg (Ne.symm hxy), if_pos rfl]
  · rw [hp, if_pos rfl]
  · rw [hn, if_pos rfl]
  · rw [hp, if_neg (Ne.symm hxz), if_pos rfl]
  · intro u hu
    have hm : u ∈ z :: r := List.dropLast_subset _ hu
    rw [hn, if_neg (by rintro rfl; apply hx; simp at hm ⊢; rcases hm with hm | hm <;> simp [hm]),
      if_neg (by rintro rfl; exact n2 hu)]
  · intro u hu
    have hm : u ∈ r := hu
    rw [hp, if_neg (by rintro rfl; exact hx (by simp [hm])), if_neg (by rintro rfl; exact n4 hm)]

theorem links_remove {h h' : Mem} {p : Nat} {xs l : List Nat} {x y z : Nat} {r : List Nat} (nd : (p :: xs).Nodup)
    (e : p :: (xs ++ [p]) = l ++ y :: z :: r) (hx : x ∉ p :: (xs ++ [p])) (k : Links h (l ++ y :: x :: z :: r))
    (hn : ∀ u, nx h' u = if u = x then some x else if u = y then some z else nx h u)
    (hp : ∀ u, pv h' u = if u = x then some x else if u = z then some y else pv h u) :
    Links h' (l ++ y :: z :: r) := by
  obtain ⟨n1, n2, n3, n4⟩ := ring_nd nd e
  rw [e] at hx
  have k1 := (links_append h l y (x :: z :: r)).1 k
  have hxy : x ≠ y := by rintro rfl; exact hx (by simp)
  have hxz : x ≠ z := by rintro rfl; exact hx (by simp)
  rw [links_append]
  refine ⟨links_frame k1.1 ?_ ?_, ?_, ?_, links_frame k1.2.2.2.2.2 ?_ ?_⟩
  · intro u hu
    rw [List.dropLast_concat] at hu
    rw [hn, if_neg (by rintro rfl; exact hx (by simp [hu])), if_neg (by rintro rfl; exact n1 hu)]
  · intro u hu
    have hm : u ∈ l ++ [y] := List.mem_of_mem_tail hu
    rw [hp, if_neg (by rintro rfl; apply hx; simp at hm ⊢; rcases hm with hm | hm <;> simp [hm]),
      if_neg (by rintro rfl; exact n3 hu)]
  · rw [hn, if_neg (Ne.symm hxy), if_pos rfl]
  · rw [hp, if_neg (Ne.symm hxz), if_pos rfl]
  · intro u hu
    have hm : u ∈ z :: r := List.dropLast_subset _ hu
    rw [hn, if_neg (by rintro rfl; apply hx; simp at hm ⊢; rcases hm with hm | hm <;> simp [hm]),
      if_neg (by rintro rfl; exact n2 hu)]
  · intro u hu
    have hm : u ∈ r := hu
    rw [hp, if_neg (by rintro rfl; exact hx (by simp [hm])), if_neg (by rintro rfl; exact n4 hm)]

/-- how the header and the elements around a position look -/
theorem split_ring (p : Nat) (l1 l2 : List Nat) : ∃ l z r, p :: l1 = l ++ [(p :: l1).getLast (by simp)] ∧ l2 ++ [p] = z :: r := by
  refine ⟨(p :: l1).dropLast, ?_⟩
  cases l2 with
  | nil => exact ⟨p, [], (List.dropLast_concat_getLast (by simp)).symm, rfl⟩
  | cons a l => exact ⟨a, l ++ [p], (List.dropLast_concat_getLast (by simp)).symm, rfl⟩

theorem mem_ring {p u : Nat} {xs : List Nat} : u ∈ p :: (xs ++ [p]) ↔ u ∈ p :: xs := by
  simp only [List.mem_cons, List.mem_append, List.not_mem_nil, or_false]
  constructor
  · rintro (h | h | h) <;> simp [h]
  · rintro (h | h) <;> simp [h]

theorem ring_insert {h : Mem} {p x : Nat} {l1 l2 : List Nat} (r : IsRing h p (l1 ++ l2)) (hx : x ∉ p :: (l1 ++ l2))
    (hf : fl h x = some false) : ∃ h', CList.insert h ((p :: l1).getLast (by simp)) x = .ok h' ∧
    IsRing h' p (l1 ++ x :: l2) ∧ ∀ u, u ∉ p :: (l1 ++ x :: l2) → h' u = h u := by
  obtain ⟨l, z, rr, e1, e2⟩ := split_ring p l1 l2
  generalize hy : (p :: l1).getLast (by simp) = y at e1
  have e : p :: (l1 ++ l2 ++ [p]) = l ++ y :: z :: rr := by
    rw [List.append_assoc, e2, ← List.cons_append, e1]; simp
  have hxF : x ∉ p :: (l1 ++ l2 ++ [p]) := fun hm => hx (mem_ring.1 hm)
  have hm := r.links; rw [e] at hm
  obtain ⟨m1, m2⟩ := links_mid hm
  obtain ⟨cx, ex, _⟩ := fl_some hf
  have yin : y ∈ p :: (l1 ++ l2) := by
    refine mem_ring.1 ?_; rw [e]; simp
  have zin : z ∈ p :: (l1 ++ l2) := by
    refine mem_ring.1 ?_; rw [e]; simp
  have hxy : x ≠ y := by rintro rfl; exact hx yin
  have hxz : x ≠ z := by rintro rfl; exact hx zin
  obtain ⟨h', g1, g2, g3, g4, g5⟩ := insert_spec ex m1 m2 hxy hxz
  refine ⟨h', g1, ⟨?_, ?_, ?_, ?_⟩, ?_⟩
  · have nd := r.nd
    rw [← List.cons_append] at nd hx ⊢
    rw [List.nodup_append] at nd ⊢
    simp only [List.mem_append, not_or] at hx
    refine ⟨nd.1, List.nodup_cons.2 ⟨hx.2, nd.2.1⟩, ?_⟩
    intro a ha b hb hab
    subst hab
    rcases List.mem_cons.1 hb with rfl | hb
    · exact hx.1 ha
    · exact nd.2.2 a ha a hb rfl
  · have := links_insert r.nd e hxF r.links g2 g3
    have e' : p :: (l1 ++ x :: l2 ++ [p]) = l ++ y :: x :: z :: rr := by
      rw [List.append_assoc, List.cons_append, e2, ← List.cons_append, e1]; simp
    rw [e']; exact this
  · rw [g4]; exact r.head
  · intro u hu
    rw [g4]
    simp only [List.mem_append, List.mem_cons] at hu
    rcases hu with hu | rfl | hu
    · exact r.elem u (by simp [hu])
    · exact hf
    · exact r.elem u (by simp [hu])
  · intro u hu
    refine g5 u ?_ ?_ ?_
    · rintro rfl; exact hu (by simp)
    · rintro rfl; apply hu; simp at yin ⊢; rcases yin with h | h | h <;> simp [h]
    · rintro rfl; apply hu; simp at zin ⊢; rcases zin with h | h | h <;> simp [h]

theorem ring_remove {h : Mem} {p x : Nat} {l1 l2 : List Nat} (r : IsRing h p (l1 ++ x :: l2)) :
    ∃ h', CList.remove h x = .ok (h', true) ∧ IsRing h' p (l1 ++ l2) ∧ h' x = some ⟨false, some x, some x⟩ ∧
      ∀ u, u ∉ p :: (l1 ++ x :: l2) → h' u = h u := by
  obtain ⟨l, z, rr, e1, e2⟩ := split_ring p l1 l2
  generalize hy : (p :: l1).getLast (by simp) = y at e1
  have e : p :: (l1 ++ l2 ++ [p]) = l ++ y :: z :: rr := by
    rw [List.append_assoc, e2, ← List.cons_append, e1]; simp
  have e' : p :: (l1 ++ x :: l2 ++ [p]) = l ++ y :: x :: z :: rr := by
    rw [List.append_assoc, List.cons_append, e2, ← List.cons_append, e1]; simp
  have nd : (p :: (l1 ++ l2)).Nodup ∧ x ∉ p :: (l1 ++ l2) := by
    have := r.nd
    rw [← List.cons_append] at this ⊢
    rw [List.nodup_append] at this ⊢
    obtain ⟨a1, a2, a3⟩ := this
    rw [List.nodup_cons] at a2
    refine ⟨⟨a1, a2.2, fun a ha b hb => a3 a ha b (List.mem_cons_of_mem _ hb)⟩, ?_⟩
    rw [List.mem_append, not_or]
    exact ⟨fun hm => a3 x hm x (by simp) rfl, a2.1⟩
  have hxF : x ∉ p :: (l1 ++ l2 ++ [p]) := fun hm => nd.2 (mem_ring.1 hm)
  have hm := r.links; rw [e'] at hm
  obtain ⟨m1, m2⟩ := links_mid hm
  have hm2 := hm
  rw [show l ++ y :: x :: z :: rr = (l ++ [y]) ++ x :: z :: rr by simp] at hm2
  obtain ⟨m3, m4⟩ := links_mid hm2
  have yin : y ∈ p :: (l1 ++ l2) := by
    refine mem_ring.1 ?_; rw [e]; simp
  have zin : z ∈ p :: (l1 ++ l2) := by
    refine mem_ring.1 ?_; rw [e]; simp
  have hxy : x ≠ y := by rintro rfl; exact nd.2 yin
  have hxz : x ≠ z := by rintro rfl; exact nd.2 zin
  obtain ⟨h', g1, g2, g3, g4, g5⟩ := remove_spec m1 m4 m3 m2 hxy hxz
  refine ⟨h', g1, ⟨nd.1, ?_, ?_, ?_⟩, ?_, ?_⟩
  · have := links_remove nd.1 e hxF hm g2 g3
    rw [e]; exact this
  · rw [g4]; exact r.head
  · intro u hu
    rw [g4]; refine r.elem u ?_
    simp at hu ⊢; rcases hu with h | h <;> simp [h]
  · have a1 := g2 x; have a2 := g3 x; have a3 := g4 x
    rw [if_pos rfl] at a1 a2
    rw [r.elem x (by simp)] at a3
    obtain ⟨c, k1, k2⟩ := nx_some a1
    obtain ⟨c', k3, k4⟩ := pv_some a2
    obtain ⟨c'', k5, k6⟩ := fl_some a3
    rw [k1] at k3 k5
    obtain rfl := Option.some.inj k3
    obtain rfl := Option.some.inj k5
    rw [k1]; obtain ⟨_, _, _⟩ := c; simp only at k2 k4 k6; subst k2 k4 k6; rfl
  · intro u hu
    refine g5 u ?_ ?_ ?_
    · rintro rfl; exact hu (by simp)
    · rintro rfl; apply hu; simp at yin ⊢; rcases yin with h | h | h <;> simp [h]
    · rintro rfl; apply hu; simp at zin ⊢; rcases zin with h | h | h <;> simp [h]

/-- `next` follows the ring -/
theorem next_ring {h : Mem} {p : Nat} {l1 l2 : List Nat} (r : IsRing h p (l1 ++ l2)) :
    CList.next h ((p :: l1).getLast (by simp)) = .ok l2.head? := by
  obtain ⟨l, z, rr, e1, e2⟩ := split_ring p l1 l2
  generalize hy : (p :: l1).getLast (by simp) = y at e1
  have e : p :: (l1 ++ l2 ++ [p]) = l ++ y :: z :: rr := by
    rw [List.append_assoc, e2, ← List.cons_append, e1]; simp
  have hm := r.links; rw [e] at hm
  obtain ⟨m1, m2⟩ := links_mid hm
  obtain ⟨cy, ey, ny⟩ := nx_some m1
  unfold CList.next
  rw [cell_eq ey]
  simp only [Res.bind_ok, ny]
  cases l2 with
  | nil =>
    simp only [List.nil_append, List.cons.injEq] at e2
    obtain ⟨rfl, _⟩ := e2
    obtain ⟨c, ec, hc⟩ := fl_some r.head
    rw [cell_eq ec]; simp [hc]
  | cons a l2 =>
    simp only [List.cons_append, List.cons.injEq] at e2
    obtain ⟨rfl, _⟩ := e2
    obtain ⟨c, ec, hc⟩ := fl_some (r.elem a (by simp))
    rw [cell_eq ec]; simp [hc]

/-- `prev` follows the ring backwards -/
theorem prev_ring {h : Mem} {p x : Nat} {l1 l2 : List Nat} (r : IsRing h p (l1 ++ x :: l2)) :
    CList.prev h x = .ok l1.getLast? := by
  obtain ⟨l, z, rr, e1, e2⟩ := split_ring p l1 (x :: l2)
  have ex : x = z := by simp at e2; exact e2.1
  subst ex
  generalize hy : (p :: l1).getLast (by simp) = y at e1
  have e : p :: (l1 ++ x :: l2 ++ [p]) = l ++ y :: x :: rr := by
    rw [List.append_assoc, e2, ← List.cons_append, e1]; simp
  have hm := r.links; rw [e] at hm
  obtain ⟨m1, m2⟩ := links_mid hm
  obtain ⟨cx, ex, px⟩ := pv_some m2
  unfold CList.prev
  rw [cell_eq ex]
  simp only [Res.bind_ok, px]
  cases hl : l1.getLast? with
  | none =>
    have : l1 = [] := List.getLast?_eq_none_iff.1 hl
    subst this
    simp at hy; subst hy
    obtain ⟨c, ec, hc⟩ := fl_some r.head
    rw [cell_eq ec]; simp [hc]
  | some a =>
    have hne : l1 ≠ [] := by rintro rfl; cases hl
    have : y = a := by
      rw [← hy, List.getLast_cons hne]
      rw [List.getLast?_eq_some_getLast hne] at hl; exact Option.some.inj hl
    subst this
    obtain ⟨c, ec, hc⟩ := fl_some (r.elem y (by
      have := List.mem_of_getLast? hl; simp [this]))
    rw [cell_eq ec]; simp [hc]

theorem nextCircular_ring {h : Mem} {p x : Nat} {l1 l2 : List Nat} (r : IsRing h p (l1 ++ x :: l2)) :
    CList.nextCircular h x = .ok (l2.head?.or (l1 ++ x :: l2).head?) := by
  have r' := r
  rw [show l1 ++ x :: l2 = (l1 ++ [x]) ++ l2 by simp] at r'
  obtain ⟨l, z, rr, e1, e2⟩ := split_ring p (l1 ++ [x]) l2
  have hy : ((p :: l1) ++ [x]).getLast (by simp) = x := by rw [List.getLast_append_of_ne_nil _ (by simp)]; rfl
  replace e1 : p :: (l1 ++ [x]) = l ++ [x] := e1.trans (congrArg (fun a => l ++ [a]) hy)
  have e : p :: (l1 ++ [x] ++ l2 ++ [p]) = l ++ x :: z :: rr := by
    rw [List.append_assoc, e2, ← List.cons_append, e1]; simp
  have hm := r'.links; rw [e] at hm
  obtain ⟨m1, m2⟩ := links_mid hm
  obtain ⟨cx, ex, nx'⟩ := nx_some m1
  unfold CList.nextCircular
  rw [cell_eq ex]
  simp only [Res.bind_ok, nx']
  cases l2 with
  | nil =>
    simp only [List.nil_append, List.cons.injEq] at e2
    obtain ⟨rfl, _⟩ := e2
    obtain ⟨c, ec, hc⟩ := fl_some r.head
    rw [cell_eq ec]
    simp only [Res.bind_ok, hc, if_true, List.head?_nil, Option.none_or]
    have k := r.links
    have : c.next = nx h p := by unfold nx; rw [ec]; rfl
    rw [this]
    cases l1 with
    | nil => exact congrArg _ k.1
    | cons a l1 => exact congrArg _ k.1
  | cons a l2 =>
    simp only [List.cons_append, List.cons.injEq] at e2
    obtain ⟨rfl, _⟩ := e2
    obtain ⟨c, ec, hc⟩ := fl_some (r.elem a (by simp))
    rw [cell_eq ec]; simp [hc]

theorem prevCircular_ring {h : Mem} {p x : Nat} {l1 l2 : List Nat} (r : IsRing h p (l1 ++ x :: l2)) :
    CList.prevCircular h x = .ok (l1.getLast?.or (l1 ++ x :: l2).getLast?) := by
  obtain ⟨l, z, rr, e1, e2⟩ := split_ring p l1 (x :: l2)
  have ex : x = z := by simp at e2; exact e2.1
  subst ex
  generalize hy : (p :: l1).getLast (by simp) = y at e1
  have e : p :: (l1 ++ x :: l2 ++ [p]) = l ++ y :: x :: rr := by
    rw [List.append_assoc, e2, ← List.cons_append, e1]; simp
  have hm := r.links; rw [e] at hm
  obtain ⟨m1, m2⟩ := links_mid hm
  obtain ⟨cx, ex, px⟩ := pv_some m2
  unfold CList.prevCircular
  rw [cell_eq ex]
  simp only [Res.bind_ok, px]
  cases hl : l1.getLast? with
  | none =>
    have : l1 = [] := List.getLast?_eq_none_iff.1 hl
    subst this
    simp at hy; subst hy
    obtain ⟨c, ec, hc⟩ := fl_some r.head
    rw [cell_eq ec]
    simp only [Res.bind_ok, hc, if_true, Option.none_or, List.nil_append]
    have : c.prev = pv h p := by unfold pv; rw [ec]; rfl
    rw [this]
    have k := r.links
    have hlast : ∃ l' , x :: l2 = l' ++ [(x :: l2).getLast (by simp)] :=
      ⟨_, (List.dropLast_concat_getLast (by simp)).symm⟩
    obtain ⟨l', el⟩ := hlast
    rw [List.getLast?_eq_some_getLast (by simp)]
    generalize (x :: l2).getLast (by simp) = w at el
    rw [List.nil_append, el, show p :: (l' ++ [w] ++ [p]) = (p :: l') ++ w :: p :: [] by simp] at k
    exact congrArg _ (links_mid k).2
  | some a =>
    have hne : l1 ≠ [] := by rintro rfl; cases hl
    have : y = a := by
      rw [← hy, List.getLast_cons hne]
      rw [List.getLast?_eq_some_getLast hne] at hl; exact Option.some.inj hl
    subst this
    obtain ⟨c, ec, hc⟩ := fl_some (r.elem y (by
      have := List.mem_of_getLast? hl; simp [this]))
    rw [cell_eq ec]; simp [hc]

/-- one element further -/
theorem next_elem {h : Mem} {p x : Nat} {l1 l2 : List Nat} (r : IsRing h p (l1 ++ x :: l2)) :
    CList.next h x = .ok l2.head? := by
  rw [show l1 ++ x :: l2 = (l1 ++ [x]) ++ l2 by simp] at r
  have := next_ring r
  have hy : ((p :: l1) ++ [x]).getLast (by simp) = x := by rw [List.getLast_append_of_ne_nil _ (by simp)]; rfl
  exact (congrArg (CList.next h) hy).symm.trans this

theorem next_head {h : Mem} {p : Nat} {l : List Nat} (r : IsRing h p l) : CList.next h p = .ok l.head? :=
  next_ring (l1 := []) r

theorem sizeLoop_ring {h : Mem} {p : Nat} {l2 l1 : List Nat} (r : IsRing h p (l1 ++ l2)) (k cnt : Nat) (hk : l2.length ≤ k)
    (hc : cnt + l2.length < 2 ^ 31) : sizeLoop h k l2.head? cnt = .ok (some (cnt + l2.length)) := by
  induction l2 generalizing l1 k cnt with
  | nil => cases k <;> rfl
  | cons x l ih =>
    cases k with
    | zero => simp at hk
    | succ k =>
      simp only [List.length_cons] at hk hc
      simp only [List.head?_cons, sizeLoop]
      rw [if_neg (by omega), next_elem r]
      rw [show l1 ++ x :: l = (l1 ++ [x]) ++ l by simp] at r
      simp only [Res.bind_ok]
      rw [ih r k (cnt + 1) (by omega) (by omega)]
      simp only [List.length_cons]; congr 2; omega

theorem getLoop_ring {h : Mem} {p : Nat} {l2 l1 : List Nat} (r : IsRing h p (l1 ++ l2)) (n : Nat) :
    getLoop h n l2.head? = .ok l2[n]? := by
  induction l2 generalizing l1 n with
  | nil => cases n <;> rfl
  | cons x l ih =>
    cases n with
    | zero => rfl
    | succ n =>
      simp only [List.head?_cons, getLoop]
      rw [next_elem r]
      rw [show l1 ++ x :: l = (l1 ++ [x]) ++ l by simp] at r
      simp only [Res.bind_ok]
      rw [ih r n]; simp

theorem iterLoop_ring {h : Mem} {p : Nat} {l2 l1 : List Nat} (r : IsRing h p (l1 ++ l2)) (k : Nat) (acc : List Nat)
    (hk : l2.length ≤ k) : iterLoop h k l2.head? acc = .ok (some (acc ++ l2)) := by
  induction l2 generalizing l1 k acc with
  | nil => cases k <;> simp [iterLoop]
  | cons x l ih =>
    cases k with
    | zero => simp at hk
    | succ k =>
      simp only [List.length_cons] at hk
      simp only [List.head?_cons, iterLoop]
      rw [next_elem r]
      rw [show l1 ++ x :: l = (l1 ++ [x]) ++ l by simp] at r
      simp only [Res.bind_ok]
      rw [ih r k _ (by omega)]; simp

theorem clearLoop_ring {p : Nat} {l : List Nat} {h : Mem} (r : IsRing h p l) :
    ∃ h', (∀ k, l.length ≤ k → clearLoop k h l.head? = .ok (some h')) ∧ IsRing h' p [] ∧ (∀ u ∈ l, h' u = none) ∧
      ∀ u, u ∉ p :: l → h' u = h u := by
  induction l generalizing h with
  | nil => exact ⟨h, fun k _ => by cases k <;> rfl, r, by simp, fun _ _ => rfl⟩
  | cons x l ih =>
    obtain ⟨h1, g1, g2, g3, g4⟩ := ring_remove (l1 := []) r
    have hx : x ∉ p :: l := by
      have := r.nd; simp only [List.nodup_cons, List.mem_cons, not_or] at this ⊢
      exact ⟨fun h => this.1.1 h.symm, this.2.1⟩
    let h2 : Mem := fun q => if q = x then none else h1 q
    have r2 : IsRing h2 p l := by
      refine IsRing.frame g2 ?_
      intro u hu
      show (if u = x then none else h1 u) = h1 u
      rw [if_neg (by rintro rfl; exact hx hu)]
    obtain ⟨h', k1, k2, k3, k4⟩ := ih r2
    refine ⟨h', ?_, k2, ?_, ?_⟩
    · intro k hk
      cases k with
      | zero => simp at hk
      | succ k =>
        simp only [List.length_cons] at hk
        simp only [List.head?_cons, clearLoop]
        rw [next_elem (l1 := []) r]
        simp only [Res.bind_ok, g1, CList.free, cell_eq g3, Res.pure_eq]
        exact k1 k (by omega)
    · intro u hu
      rcases List.mem_cons.1 hu with rfl | hu
      · rw [k4 u hx]; show (if u = u then none else h1 u) = none; rw [if_pos rfl]
      · exact k3 u hu
    · intro u hu
      simp only [List.mem_cons, not_or] at hu
      rw [k4 u (by simp [hu])]
      show (if u = x then none else h1 u) = h u
      rw [if_neg hu.2.1, g4 u (by simp [hu])]

end Uecho.Lemmas
