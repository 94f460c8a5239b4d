import Verif.Spec.DiscoverRace
/-!
# C94, C95: discovery by several threads, creation of the database
-/
namespace Uecho.Props
open Uecho Uecho.Spec

namespace DR
open DiscoverRace

structure Inv (s : Sys) : Prop where
  nodup : s.nodes.Nodup
  fresh : ∀ t a, s.thr t = .add a → a ∉ s.nodes
  one : ∀ t u a, Handles (s.thr t) a → Handles (s.thr u) a → t = u

theorem inv_step {s s' : Sys} (hv : Inv s) {l : Label} (hl : OneAtATime s l) (h : DiscoverRace.step s l = some s') : Inv s' := by
  cases l with
  | arrive t a =>
    simp only [DiscoverRace.step] at h
    split at h
    · cases h
      refine ⟨hv.nodup, ?_, ?_⟩
      · intro u b hu
        by_cases hut : u = t
        · subst hut; simp [Sys.goto] at hu
        · simp [Sys.goto, hut] at hu; exact hv.fresh u b hu
      · have key : ∀ u b, Handles ((s.goto t (.look a)).thr u) b → u = t ∧ b = a ∨ u ≠ t ∧ Handles (s.thr u) b := by
          intro u b hu
          by_cases hut : u = t
          · subst hut; left; simpa [Sys.goto, Handles, eq_comm] using hu
          · right; exact ⟨hut, by simpa [Sys.goto, hut] using hu⟩
        intro u v b hu hv'
        rcases key u b hu with ⟨rfl, rfl⟩ | ⟨h1, h2⟩ <;> rcases key v b hv' with ⟨rfl, h4⟩ | ⟨h3, h4⟩
        · rfl
        · exact absurd h4 (hl v)
        · subst h4; exact absurd h2 (hl u)
        · exact hv.one u v b h2 h4
    · cases h
  | step t =>
    simp only [DiscoverRace.step] at h
    split at h
    · cases h
    · rename_i a ha
      cases h
      have hh : ∀ u b x, (x = .idle ∨ x = .add a) → Handles ((s.goto t x).thr u) b → Handles (s.thr u) b := by
        intro u b x hx hu
        by_cases hut : u = t
        · subst hut
          rcases hx with rfl | rfl <;> simp [Sys.goto, Handles] at hu
          subst hu; exact .inl ha
        · simpa [Sys.goto, hut] using hu
      split
      · refine ⟨hv.nodup, ?_, fun u v b h1 h2 => hv.one u v b (hh u b _ (.inl rfl) h1) (hh v b _ (.inl rfl) h2)⟩
        intro u b hu
        by_cases hut : u = t
        · subst hut; simp [Sys.goto] at hu
        · simp [Sys.goto, hut] at hu; exact hv.fresh u b hu
      · rename_i hn
        refine ⟨hv.nodup, ?_, fun u v b h1 h2 => hv.one u v b (hh u b _ (.inr rfl) h1) (hh v b _ (.inr rfl) h2)⟩
        intro u b hu
        by_cases hut : u = t
        · subst hut; simp [Sys.goto] at hu; subst hu; exact hn
        · simp [Sys.goto, hut] at hu; exact hv.fresh u b hu
    · rename_i a ha
      cases h
      have hfr := hv.fresh t a ha
      have hh : ∀ u b, Handles ((Sys.goto { s with nodes := s.nodes ++ [a] } t .idle).thr u) b → u ≠ t ∧ Handles (s.thr u) b := by
        intro u b hu
        by_cases hut : u = t
        · subst hut; simp [Sys.goto, Handles] at hu
        · exact ⟨hut, by simpa [Sys.goto, hut] using hu⟩
      refine ⟨?_, ?_, fun u v b h1 h2 => hv.one u v b (hh u b h1).2 (hh v b h2).2⟩
      · refine List.nodup_append.2 ⟨hv.nodup, by simp, ?_⟩
        intro x hx y hy; rw [List.mem_singleton.1 hy]; rintro rfl; exact hfr hx
      · intro u b hu
        obtain ⟨h1, h2⟩ := hh u b (.inr hu)
        by_cases hut : u = t
        · exact absurd hut h1
        · have hu' : s.thr u = .add b := by simpa [Sys.goto, hut] using hu
          change b ∉ s.nodes ++ [a]
          rw [List.mem_append, List.mem_singleton]
          rintro (h | rfl)
          · exact hv.fresh u b hu' h
          · exact h1 (hv.one u t b (.inr hu') (.inr ha))

end DR

/-- **C94, partial** (answers from one address are handled one at a time). However many threads handle answers, each address is listed at most
once. -/
theorem C94_listed_once_partial {ls : List DiscoverRace.Label} {s : DiscoverRace.Sys} (h : DiscoverRun OneAtATime ls s) : s.nodes.Nodup := by
  have hv : DR.Inv s := by
    induction h with
    | nil => exact ⟨by simp [DiscoverRace.Sys.init], (by intro t a h; cases h), (by intro t u a h; rcases h with h | h <;> cases h)⟩
    | snoc l _ hl hs ih => exact DR.inv_step ih hl hs
  exact hv.nodup

example : ∃ s, DiscoverRun OneAtATime [.arrive 1 "a", .arrive 2 "b", .step 1, .step 2, .step 2, .step 1] s ∧ s.nodes = ["b", "a"] := by
  refine ⟨_, .snoc (ls := [_, _, _, _, _]) _ (.snoc (ls := [_, _, _, _]) _ (.snoc (ls := [_, _, _]) _ (.snoc (ls := [_, _]) _ (.snoc (ls := [_]) _
    (.snoc (ls := []) _ .nil ?_ rfl) ?_ rfl) trivial rfl) trivial rfl) trivial rfl) trivial rfl, rfl⟩
  · intro t h; rcases h with h | h <;> cases h
  · intro t h
    by_cases ht : t = 1
    · subst ht; rcases h with h | h <;> simp [DiscoverRace.Sys.goto] at h
    · rcases h with h | h <;> simp [DiscoverRace.Sys.goto, ht, DiscoverRace.Sys.init] at h

/-- **C94, violated.** Two receiver threads that handle answers from the same new address at the same time list it twice. -/
theorem C94_listed_twice_violated (a : String) : ∃ ls s, DiscoverRun (fun _ _ => True) ls s ∧ s.nodes = [a, a] :=
  ⟨_, _, .snoc (.step 2) (.snoc (.step 1) (.snoc (.step 2) (.snoc (.step 1) (.snoc (.arrive 2 a) (.snoc (.arrive 1 a) .nil trivial rfl) trivial rfl)
    trivial rfl) trivial rfl) trivial rfl) trivial rfl, rfl⟩

namespace DB
open DbRace

/-- Before the first call has returned: nobody, or one thread, uses the function. Afterwards: the database is complete. -/
structure Inv (tb : List (List Nat)) (s : Sys) : Prop where
  log : ∀ x ∈ s.log, x = (0, tb.flatten)
  state : (s.ptr = none ∧ s.dbs = [] ∧ s.log = [] ∧ ((∀ t, s.thr t = .idle) ∨
      ∃ t, (s.thr t = .test ∨ s.thr t = .create) ∧ ∀ u, u ≠ t → s.thr u = .idle)) ∨
    (s.log = [] ∧ s.ptr = some 0 ∧ ∃ t done rest, (s.thr t = .pass rest ∧ done ++ rest.flatten = tb.flatten ∨ (∃ b, s.thr t = .fill 0 b rest ∧ done ++ b ++ rest.flatten = tb.flatten)) ∧ s.dbs = [done] ∧ ∀ u, u ≠ t → s.thr u = .idle) ∨
    (s.ptr = some 0 ∧ s.dbs = [tb.flatten] ∧ (∀ t, s.thr t = .idle ∨ s.thr t = .test ∨ s.thr t = .ret) ∧ (s.log ≠ [] ∨ ∃ t, s.thr t = .ret ∧ ∀ u, u ≠ t → s.thr u = .idle))

theorem gs (s : Sys) (t : Nat) (x : Pc) : (s.goto t x).thr t = x := by simp [Sys.goto]
theorem go (s : Sys) {t u : Nat} (x : Pc) (h : u ≠ t) : (s.goto t x).thr u = s.thr u := by simp [Sys.goto, h]

theorem inv_step {tb : List (List Nat)} {s s' : Sys} (hv : Inv tb s) {l : Label} (hl : FirstAlone s l) (h : DbRace.step tb s l = some s') : Inv tb s' := by
  obtain ⟨hlog, hst⟩ := hv
  cases l with
  | call t =>
    simp only [DbRace.step] at h
    split at h
    · rename_i hidle
      cases h
      refine ⟨hlog, ?_⟩
      rcases hst with ⟨h1, h2, h3, h4⟩ | ⟨h1, h2, w, dn, rest, h3, h5, h6⟩ | ⟨h1, h2, h3, h4⟩
      · refine .inl ⟨h1, h2, h3, .inr ⟨t, .inl (gs ..), ?_⟩⟩
        intro u hu
        rw [go _ _ hu]
        rcases hl with hl | hl
        · exact absurd h3 hl
        · exact hl u
      · rcases hl with hl | hl
        · exact absurd h1 hl
        · have hi := hl w; rcases h3 with ⟨h3, _⟩ | ⟨b, h3, _⟩ <;> rw [h3] at hi <;> cases hi
      · refine .inr (.inr ⟨h1, h2, ?_, ?_⟩)
        · intro u
          by_cases hu : u = t
          · subst hu; rw [gs]; exact .inr (.inl rfl)
          · rw [go _ _ hu]; exact h3 u
        · rcases h4 with h4 | ⟨w, h4, h5⟩
          · exact .inl h4
          · rcases hl with hl | hl
            · exact .inl hl
            · have := hl w; rw [h4] at this; cases this
    · cases h
  | step t =>
    simp only [DbRace.step] at h
    rcases hst with ⟨h1, h2, h3, h4⟩ | ⟨h1, h2, w, dn, rest, h3, h5, h6⟩ | ⟨h1, h2, h3, h4⟩
    · rcases h4 with h4 | ⟨w, h4, h5⟩
      · rw [h4 t] at h; cases h
      · by_cases hw : t = w
        · subst hw
          rcases h4 with h4 | h4
          · rw [h4] at h
            simp only [h1, Option.isNone_none, if_true] at h
            cases h
            exact ⟨hlog, .inl ⟨h1, h2, h3, .inr ⟨t, .inr (gs ..), fun u hu => by rw [go _ _ hu]; exact h5 u hu⟩⟩⟩
          · rw [h4] at h
            cases h
            exact ⟨hlog, .inr (.inl ⟨h3, by simp [Sys.goto, h2], t, [], tb, .inl ⟨gs .., rfl⟩, by simp [Sys.goto, h2], fun u hu => by rw [go _ _ hu]; exact h5 u hu⟩)⟩
        · rw [h5 t hw] at h; cases h
    · by_cases hw : t = w
      · subst hw
        rcases h3 with ⟨h3, h4⟩ | ⟨b, h3, h4⟩
        · rw [h3] at h
          cases rest with
          | nil =>
            cases h
            rw [List.flatten_nil, List.append_nil] at h4
            refine ⟨hlog, .inr (.inr ⟨h2, h4 ▸ h5, ?_, .inr ⟨t, gs .., fun u hu => by rw [go _ _ hu]; exact h6 u hu⟩⟩)⟩
            intro u
            by_cases hu : u = t
            · subst hu; rw [gs]; exact .inr (.inr rfl)
            · rw [go _ _ hu]; exact .inl (h6 u hu)
          | cons x rest =>
            simp only [h2] at h
            cases h
            exact ⟨hlog, .inr (.inl ⟨h1, h2, t, dn, rest, .inr ⟨x, gs .., by simpa using h4⟩, h5, fun u hu => by rw [go _ _ hu]; exact h6 u hu⟩)⟩
        · rw [h3] at h
          cases b with
          | nil =>
            cases h
            exact ⟨hlog, .inr (.inl ⟨h1, h2, t, dn, rest, .inl ⟨gs .., by simpa using h4⟩, h5, fun u hu => by rw [go _ _ hu]; exact h6 u hu⟩)⟩
          | cons x b =>
            cases h
            exact ⟨hlog, .inr (.inl ⟨h1, h2, t, dn ++ [x], rest, .inr ⟨b, gs .., by simpa using h4⟩, by simp [Sys.goto, h5],
              fun u hu => by rw [go _ _ hu]; exact h6 u hu⟩)⟩
      · rw [h6 t hw] at h; cases h
    · have hg : ∀ x, (x = .idle ∨ x = .ret) → ∀ u, (s.goto t x).thr u = .idle ∨ (s.goto t x).thr u = .test ∨ (s.goto t x).thr u = .ret := by
        intro x hx u
        by_cases hu : u = t
        · subst hu; rw [gs]; rcases hx with rfl | rfl <;> simp
        · rw [go _ _ hu]; exact h3 u
      rcases h3 t with ht | ht | ht
      · rw [ht] at h; cases h
      · rw [ht] at h
        simp only [h1] at h
        cases h
        refine ⟨hlog, .inr (.inr ⟨h1, h2, hg .ret (.inr rfl), ?_⟩)⟩
        rcases h4 with h4 | ⟨w, h4, h5⟩
        · exact .inl h4
        · have hw : t = w := by
            apply Decidable.byContradiction
            intro hne
            rw [h5 t hne] at ht; cases ht
          subst hw; rw [h4] at ht; cases ht
      · rw [ht] at h
        simp only [h1] at h
        cases h
        refine ⟨?_, .inr (.inr ⟨h1, h2, hg .idle (.inl rfl), .inl (by simp)⟩)⟩
        intro x hx
        rcases List.mem_append.1 hx with hx | hx
        · exact hlog x hx
        · rw [List.mem_singleton.1 hx, h2]; rfl

end DB

/-- **C95, partial** (the first call returns before another begins). Every call returns the same database, with all entries. -/
theorem C95_complete_partial {tb : List (List Nat)} {ls : List DbRace.Label} {s : DbRace.Sys} (h : DbRun tb FirstAlone ls s) :
    ∀ x ∈ s.log, x = (0, tb.flatten) := by
  have hv : DB.Inv tb s := by
    induction h with
    | nil => exact ⟨by intro x hx; simp [DbRace.Sys.init] at hx, .inl ⟨rfl, rfl, rfl, .inl fun _ => rfl⟩⟩
    | snoc l _ hl hs ih => exact DB.inv_step ih hl hs
  exact hv.log

example : ∃ s, DbRun [[5]] FirstAlone [.call 1, .step 1, .step 1, .step 1, .step 1, .step 1, .step 1, .step 1, .call 2, .call 3, .step 3, .step 2, .step 3] s ∧
    s.log = [(0, [5]), (0, [5])] := by
  have h8 : DbRun [[5]] FirstAlone [.call 1, .step 1, .step 1, .step 1, .step 1, .step 1, .step 1, .step 1] _ :=
    .snoc (ls := [_, _, _, _, _, _, _]) _ (.snoc (ls := [_, _, _, _, _, _]) _ (.snoc (ls := [_, _, _, _, _]) _ (.snoc (ls := [_, _, _, _]) _
      (.snoc (ls := [_, _, _]) _ (.snoc (ls := [_, _]) _ (.snoc (ls := [_]) _ (.snoc (ls := []) _ .nil (.inr fun _ => rfl) rfl) trivial rfl) trivial rfl)
      trivial rfl) trivial rfl) trivial rfl) trivial rfl) trivial rfl
  refine ⟨_, .snoc (.step 3) (.snoc (.step 2) (.snoc (.step 3) (.snoc (.call 3) (.snoc (.call 2) h8 (Or.inl ?_) rfl) (Or.inl ?_) rfl) trivial rfl)
    trivial rfl) trivial rfl, rfl⟩
  · intro h; cases h
  · intro h; cases h

/-- **C95, violated.** A call that begins while another thread is still creating the database returns an empty one, and two first calls can
create two. -/
theorem C95_incomplete_violated (tb : List (List Nat)) (hne : tb.flatten ≠ []) :
    (∃ ls s, DbRun tb (fun _ _ => True) ls s ∧ ∃ x ∈ s.log, x.2 ≠ tb.flatten) ∧
    (∃ ls s, DbRun tb (fun _ _ => True) ls s ∧ s.dbs.length = 2) := by
  refine ⟨⟨_, _, .snoc (.step 2) (.snoc (.step 2) (.snoc (.call 2) (.snoc (.step 1) (.snoc (.step 1) (.snoc (.call 1) .nil trivial rfl) trivial rfl) trivial rfl)
    trivial rfl) trivial rfl) trivial rfl, (0, []), .head _, fun h => hne h.symm⟩, ?_⟩
  exact ⟨_, _, .snoc (.step 2) (.snoc (.step 1) (.snoc (.step 2) (.snoc (.step 1) (.snoc (.call 2) (.snoc (.call 1) .nil trivial rfl) trivial rfl) trivial rfl)
    trivial rfl) trivial rfl) trivial rfl, rfl⟩

end Uecho.Props
