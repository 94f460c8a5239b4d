import Verif.Spec.Race
/-!
# C92: threads that use one property
-/
namespace Uecho.Props
open Uecho Uecho.Spec Uecho.Race

theorem lastWritten_append (d0 : List Byte) (l1 l2 : List Ev) : lastWritten d0 (l1 ++ l2) = lastWritten (lastWritten d0 l1) l2 := by
  induction l1 generalizing d0 with
  | nil => rfl
  | cons x l ih => cases x <;> exact ih _

theorem agree_snoc_write {d0 log t d} (h : ReadsAgree d0 log) : ReadsAgree d0 (log ++ [.wrote t d]) := by
  intro l1 l2 t' v he
  rcases List.eq_nil_or_concat l2 with rfl | ⟨l3, x, rfl⟩
  · have := (List.append_inj' he rfl).2; simp at this
  · rw [List.concat_eq_append, ← List.cons_append, ← List.append_assoc] at he
    exact h l1 l3 t' v (List.append_inj' he rfl).1

theorem agree_snoc_read {d0 log t v} (h : ReadsAgree d0 log) (hv : v = lastWritten d0 log) : ReadsAgree d0 (log ++ [.read t v]) := by
  intro l1 l2 t' v' he
  rcases List.eq_nil_or_concat l2 with rfl | ⟨l3, x, rfl⟩
  · obtain ⟨h1, h2⟩ := List.append_inj' he rfl
    simp only [List.cons.injEq, Ev.read.injEq, and_true] at h2
    rw [← h2.2, hv, h1]
  · rw [List.concat_eq_append, ← List.cons_append, ← List.append_assoc] at he
    exact h l1 l3 t' v' (List.append_inj' he rfl).1

/-- The memory holds the data `d`. -/
def Rep (s : Sys) (d : List Byte) : Prop :=
  (d = [] ∧ s.data = none ∧ s.size = 0) ∨ (d ≠ [] ∧ ∃ p, s.data = some p ∧ s.heap p = some d ∧ s.size = d.length)

/-- What a writer has done so far. -/
def WInv (s : Sys) (d : List Byte) : WPc → Prop
  | .size0 => ∃ d', Rep s d'
  | .test => s.data = none ∨ ∃ p b, s.data = some p ∧ s.heap p = some b
  | .free => ∃ p b, s.data = some p ∧ s.heap p = some b
  | .null => True
  | .alloc => d ≠ [] ∧ s.data = none
  | .count => d ≠ [] ∧ ∃ p b, s.data = some p ∧ s.heap p = some b ∧ b.length = d.length
  | .copy => d ≠ [] ∧ s.size = d.length ∧ ∃ p b, s.data = some p ∧ s.heap p = some b ∧ b.length = d.length

def RInv (s : Sys) : RPc → Prop
  | .ptr => True
  | .size p => p = s.data
  | .copy p n => p = s.data ∧ n = s.size

structure Inv (d0 : List Byte) (s : Sys) : Prop where
  agree : ReadsAgree d0 s.log
  quiet : (∀ t, ¬ Writing s t) → Rep s (lastWritten d0 s.log) ∧ ∀ t pc, s.thr t = .reader pc → RInv s pc
  busy : ∀ t d pc, s.thr t = .writer d pc → WInv s d pc ∧ (∀ u, u ≠ t → s.thr u = .idle) ∧
    (pc = .size0 ∨ pc = .test ∨ d ≠ [] ∨ pc = .free ∨ pc = .null) ∧ (pc = .test → s.size = 0) ∧ (pc = .free → s.size = 0) ∧
    (pc = .null → s.size = 0)

theorem inv_init (p : Nat) (d : List Byte) : Inv d (Sys.init p d) := by
  have hi : ∀ t, (Sys.init p d).thr t = .idle := by intro t; unfold Sys.init; split <;> rfl
  have hl : (Sys.init p d).log = [] := by unfold Sys.init; split <;> rfl
  refine ⟨?_, ?_, ?_⟩
  · rw [hl]; intro l1 l2 t v h; simp at h
  · intro _
    refine ⟨?_, ?_⟩
    · rw [hl]
      by_cases hd : d = []
      · left; simp [Sys.init, hd, lastWritten]
      · right; refine ⟨hd, p, ?_⟩; simp [Sys.init, hd, lastWritten]
    · intro t pc h; rw [hi] at h; cases h
  · intro t d' pc h; rw [hi] at h; cases h

theorem goto_same (s : Sys) (t : Nat) (x : Thread) : (s.goto t x).thr t = x := by simp [Sys.goto]
theorem goto_other (s : Sys) {t u : Nat} (x : Thread) (h : u ≠ t) : (s.goto t x).thr u = s.thr u := by simp [Sys.goto, h]

/-- The writer of `s` takes its next step inside the write. -/
theorem inv_writer_next {d0 : List Byte} {s s' : Sys} {t : Nat} {d : List Byte} {pc pc' : WPc}
    (hv : Inv d0 s) (ht : s.thr t = .writer d pc) (hthr : s'.thr = (s.goto t (.writer d pc')).thr) (hlog : s'.log = s.log)
    (hw : WInv s' d pc') (hx : pc' = .test ∨ pc' = .free ∨ pc' = .null ∨ d ≠ [])
    (hs : s'.size = 0 ∨ (pc' ≠ .test ∧ pc' ≠ .free ∧ pc' ≠ .null)) : Inv d0 s' := by
  obtain ⟨_, hi, _⟩ := hv.busy t d pc ht
  refine ⟨by rw [hlog]; exact hv.agree, ?_, ?_⟩
  · intro hq
    exact absurd ⟨d, pc', by rw [hthr, goto_same]⟩ (hq t)
  · intro u d' pc'' hu
    by_cases hut : u = t
    · subst hut
      rw [hthr, goto_same] at hu
      cases hu
      refine ⟨hw, ?_, ?_, ?_, ?_, ?_⟩
      · intro v hv'; rw [hthr, goto_other _ _ hv']; exact hi v hv'
      · rcases hx with h | h | h | h <;> simp [h]
      all_goals intro hp; rcases hs with h | ⟨h1, h2, h3⟩ <;> first | exact h | exact absurd hp (by assumption)
    · rw [hthr, goto_other _ _ hut, hi u hut] at hu; cases hu

/-- The writer of `s` returns. -/
theorem inv_writer_done {d0 : List Byte} {s s' : Sys} {t : Nat} {d : List Byte} {pc : WPc}
    (hv : Inv d0 s) (ht : s.thr t = .writer d pc) (hthr : s'.thr = (s.goto t .idle).thr) (hlog : s'.log = s.log ++ [.wrote t d])
    (hr : Rep s' d) : Inv d0 s' := by
  obtain ⟨_, hi, _⟩ := hv.busy t d pc ht
  have hall : ∀ u, s'.thr u = .idle := by
    intro u
    rw [hthr]
    by_cases hut : u = t
    · subst hut; exact goto_same ..
    · rw [goto_other _ _ hut]; exact hi u hut
  refine ⟨by rw [hlog]; exact agree_snoc_write hv.agree, ?_, ?_⟩
  · intro _
    refine ⟨?_, ?_⟩
    · rw [hlog, lastWritten_append]; exact hr
    · intro u pc h; rw [hall] at h; cases h
  · intro u d' pc' h; rw [hall] at h; cases h

theorem inv_cleared {d0 : List Byte} {s s1 : Sys} {t : Nat} {d : List Byte} {pc : WPc}
    (hv : Inv d0 s) (ht : s.thr t = .writer d pc) (hthr : s1.thr = s.thr) (hlog : s1.log = s.log) (hd : s1.data = none) (hs : s1.size = 0) :
    Inv d0 (cleared s1 t d) := by
  unfold cleared
  split
  · rename_i he
    exact inv_writer_done hv ht (by simp [wrote, Sys.emit, Sys.goto, hthr]) (by simp [wrote, Sys.emit, Sys.goto, hlog])
      (.inl ⟨he, by simp [wrote, Sys.emit, Sys.goto, hd], by simp [wrote, Sys.emit, Sys.goto, hs]⟩)
  · rename_i he
    exact inv_writer_next hv ht (by simp [Sys.goto, hthr]) (by simp [Sys.goto, hlog]) (pc' := .alloc) ⟨he, by simp [Sys.goto, hd]⟩
      (.inr (.inr (.inr he))) (.inr (by simp))

theorem inv_writeStep {d0 : List Byte} {s : Sys} (hv : Inv d0 s) {t a : Nat} {d : List Byte} {pc : WPc} (ht : s.thr t = .writer d pc) :
    ∃ r, writeStep s t d a pc = .ok r ∧ ∀ s', r = some s' → Inv d0 s' := by
  obtain ⟨hw, hi, hx, hz1, hz2, hz3⟩ := hv.busy t d pc ht
  cases pc with
  | size0 =>
    refine ⟨_, rfl, ?_⟩
    rintro s' h; cases h
    obtain ⟨d', hr⟩ := hw
    refine inv_writer_next hv ht (pc' := .test) rfl rfl ?_ (.inl rfl) (.inl rfl)
    rcases hr with ⟨_, h, _⟩ | ⟨_, p, h1, h2, _⟩
    · exact .inl h
    · exact .inr ⟨p, d', h1, h2⟩
  | test =>
    have hs := hz1 rfl
    rcases hw with h | ⟨p, b, h1, h2⟩
    · refine ⟨_, by simp only [writeStep, h]; rfl, ?_⟩
      rintro s' hh; cases hh
      exact inv_cleared hv ht rfl rfl h hs
    · refine ⟨_, by simp only [writeStep, h1]; rfl, ?_⟩
      rintro s' hh; cases hh
      exact inv_writer_next hv ht (pc' := .free) rfl rfl ⟨p, b, h1, h2⟩ (.inr (.inl rfl)) (.inl hs)
  | free =>
    have hs := hz2 rfl
    obtain ⟨p, b, h1, h2⟩ := hw
    refine ⟨_, by simp only [writeStep, h1, h2]; rfl, ?_⟩
    rintro s' hh; cases hh
    exact inv_writer_next hv ht (pc' := .null) rfl rfl trivial (.inr (.inr (.inl rfl))) (.inl hs)
  | null =>
    refine ⟨_, rfl, ?_⟩
    rintro s' hh; cases hh
    exact inv_cleared hv ht rfl rfl rfl (hz3 rfl)
  | alloc =>
    obtain ⟨hne, hd⟩ := hw
    cases ha : s.heap a with
    | some b => exact ⟨_, by simp only [writeStep, ha]; rfl, by intro s' h; cases h⟩
    | none =>
      refine ⟨_, by simp only [writeStep, ha]; rfl, ?_⟩
      rintro s' hh; cases hh
      exact inv_writer_next hv ht (pc' := .count) rfl rfl
        ⟨hne, a, List.replicate d.length 0#8, rfl, by simp [Sys.goto, Sys.setBlock], by simp⟩ (.inr (.inr (.inr hne))) (.inr (by simp))
  | count =>
    obtain ⟨hne, p, b, h1, h2, h3⟩ := hw
    refine ⟨_, rfl, ?_⟩
    rintro s' hh; cases hh
    exact inv_writer_next hv ht (pc' := .copy) rfl rfl ⟨hne, rfl, p, b, h1, h2, h3⟩ (.inr (.inr (.inr hne))) (.inr (by simp))
  | copy =>
    obtain ⟨hne, hs, p, b, h1, h2, h3⟩ := hw
    have hlt : ¬ b.length < d.length := by omega
    refine ⟨_, by simp only [writeStep, h1, h2, if_neg hlt]; rfl, ?_⟩
    rintro s' hh; cases hh
    have hb : b.drop d.length = [] := by rw [← h3, List.drop_length]
    refine inv_writer_done hv ht (by simp [wrote, Sys.emit, Sys.goto, Sys.setBlock]) (by simp [wrote, Sys.emit, Sys.goto, Sys.setBlock])
      (.inr ⟨hne, p, by simp [wrote, Sys.emit, Sys.goto, Sys.setBlock, h1], ?_, by simp [wrote, Sys.emit, Sys.goto, Sys.setBlock, hs]⟩)
    simp [wrote, Sys.emit, Sys.goto, Sys.setBlock, hb]

theorem noWriter {d0 : List Byte} {s : Sys} (hv : Inv d0 s) {t : Nat} {pc : RPc} (ht : s.thr t = .reader pc) : ∀ u, ¬ Writing s u := by
  rintro u ⟨d, pc', hu⟩
  have h := (hv.busy u d pc' hu).2.1 t (by rintro rfl; rw [ht] at hu; cases hu)
  rw [ht] at h; cases h

/-- A reader takes its next step; the memory does not change. -/
theorem inv_reader_next {d0 : List Byte} {s : Sys} (hv : Inv d0 s) {t : Nat} {x : Thread} (hq : ∀ u, ¬ Writing s u)
    (hx : ∀ pc, x = .reader pc → RInv s pc) (hnw : ∀ d pc, x ≠ .writer d pc) : Inv d0 (s.goto t x) := by
  obtain ⟨h1, h2⟩ := hv.quiet hq
  refine ⟨hv.agree, ?_, ?_⟩
  · intro _
    refine ⟨h1, ?_⟩
    intro u pc hu
    by_cases hut : u = t
    · subst hut; rw [goto_same] at hu
      have := hx pc hu
      cases pc <;> exact this
    · rw [goto_other _ _ hut] at hu
      have := h2 u pc hu
      cases pc <;> exact this
  · intro u d pc hu
    by_cases hut : u = t
    · subst hut; rw [goto_same] at hu; exact absurd hu (hnw d pc)
    · rw [goto_other _ _ hut] at hu; exact absurd ⟨d, pc, hu⟩ (hq u)

theorem inv_emit_read {d0 : List Byte} {s : Sys} (hv : Inv d0 s) {t : Nat} (hq : ∀ u, ¬ Writing s u) :
    Inv d0 (s.emit (.read t (lastWritten d0 s.log))) := by
  obtain ⟨h1, h2⟩ := hv.quiet hq
  refine ⟨agree_snoc_read hv.agree rfl, ?_, ?_⟩
  · intro _
    refine ⟨?_, fun u pc hu => ?_⟩
    · simp only [Sys.emit, lastWritten_append, lastWritten]; exact h1
    · have := h2 u pc hu
      cases pc <;> exact this
  · intro u d pc hu
    exact absurd ⟨d, pc, hu⟩ (hq u)

theorem inv_readStep {d0 : List Byte} {s : Sys} (hv : Inv d0 s) {t : Nat} {pc : RPc} (ht : s.thr t = .reader pc) :
    ∃ r, readStep s t pc = .ok r ∧ ∀ s', r = some s' → Inv d0 s' := by
  have hq := noWriter hv ht
  obtain ⟨h1, h2⟩ := hv.quiet hq
  have hr := h2 t pc ht
  have hidle : Inv d0 (s.goto t .idle) := inv_reader_next hv hq (by intro pc h; cases h) (by intro d pc h; cases h)
  have hq' : ∀ u, ¬ Writing (s.goto t .idle) u := by
    rintro u ⟨d, pc, hu⟩
    by_cases hut : u = t
    · subst hut; rw [goto_same] at hu; cases hu
    · rw [goto_other _ _ hut] at hu; exact hq u ⟨d, pc, hu⟩
  cases pc with
  | ptr =>
    refine ⟨_, rfl, ?_⟩
    rintro s' h; cases h
    exact inv_reader_next hv hq (by intro pc h; cases h; rfl) (by intro d pc h; cases h)
  | size p =>
    refine ⟨_, rfl, ?_⟩
    rintro s' h; cases h
    exact inv_reader_next hv hq (by intro pc h; cases h; exact ⟨hr, rfl⟩) (by intro d pc h; cases h)
  | copy p n =>
    obtain ⟨rfl, rfl⟩ := hr
    have hgoal := inv_emit_read hidle (t := t) hq'
    rcases h1 with ⟨he, hd, hs⟩ | ⟨hne, p, hd, hh, hs⟩
    · refine ⟨_, by simp only [readStep, hs, if_true]; rfl, ?_⟩
      rintro s' h; cases h
      rw [show lastWritten d0 (s.goto t .idle).log = [] from he] at hgoal
      exact hgoal
    · have hlen : (lastWritten d0 s.log).length ≠ 0 := by
        intro h; exact hne (List.length_eq_zero_iff.1 h)
      refine ⟨_, by simp only [readStep, hs, hd, hh, if_neg hlen, Nat.lt_irrefl, if_false, List.take_length]; rfl, ?_⟩
      rintro s' h; cases h
      exact hgoal

theorem inv_step {d0 : List Byte} {s : Sys} (hv : Inv d0 s) {l : Label} (hl : Locked s l) :
    ∃ r, Race.step s l = .ok r ∧ ∀ s', r = some s' → Inv d0 s' := by
  cases l with
  | write t d =>
    have hi := hl t
    refine ⟨_, by simp only [Race.step, hi]; rfl, ?_⟩
    rintro s' h; cases h
    obtain ⟨h1, h2⟩ := hv.quiet (by rintro u ⟨d, pc, hu⟩; rw [hl u] at hu; cases hu)
    refine ⟨hv.agree, ?_, ?_⟩
    · intro hq; exact absurd ⟨d, .size0, goto_same ..⟩ (hq t)
    · intro u d' pc hu
      by_cases hut : u = t
      · subst hut
        rw [goto_same] at hu
        cases hu
        exact ⟨⟨_, h1⟩, fun v hv' => by rw [goto_other _ _ hv']; exact hl v, .inl rfl, by simp, by simp, by simp⟩
      · rw [goto_other _ _ hut, hl u] at hu; cases hu
  | read t =>
    cases hi : s.thr t with
    | idle =>
      refine ⟨_, by simp only [Race.step, hi]; rfl, ?_⟩
      rintro s' h; cases h
      exact inv_reader_next hv hl (by intro pc h; cases h; trivial) (by intro d pc h; cases h)
    | writer d pc => exact ⟨_, by simp only [Race.step, hi]; rfl, by intro s' h; cases h⟩
    | reader pc => exact ⟨_, by simp only [Race.step, hi]; rfl, by intro s' h; cases h⟩
  | step t a =>
    cases hi : s.thr t with
    | idle => exact ⟨_, by simp only [Race.step, hi]; rfl, by intro s' h; cases h⟩
    | writer d pc => simp only [Race.step, hi]; exact inv_writeStep hv hi
    | reader pc => simp only [Race.step, hi]; exact inv_readStep hv hi

/-- **C92, partial** (the application prevents that a write overlaps another use of the property). In every such interleaving of any
number of threads nothing undefined happens, and each read returns the data of the last completed write. -/
theorem C92_locked_partial {p : Nat} {d0 : List Byte} {ls : List Label} {s : Sys} (h : RaceRun Locked (Sys.init p d0) ls s) :
    (∀ l, Locked s l → ∃ r, Race.step s l = .ok r) ∧ ReadsAgree d0 s.log := by
  have hv : Inv d0 s := by
    generalize hs0 : Sys.init p d0 = s0 at h
    have hi : Inv d0 s0 := by rw [← hs0]; exact inv_init p d0
    clear hs0
    induction h with
    | nil => exact hi
    | snoc l _ hl hstep ih =>
      obtain ⟨r, h1, h2⟩ := inv_step ih hl
      rw [hstep] at h1
      cases h1
      exact h2 _ rfl
  exact ⟨fun l hl => let ⟨r, h1, _⟩ := inv_step hv hl; ⟨r, h1⟩, hv.agree⟩

/-! ## The failures -/

/-- The state after the choices `ls`. -/
def runs (s : Sys) : List Label → Option Sys
  | [] => some s
  | l :: ls => match Race.step s l with
    | .ok (some s') => runs s' ls
    | _ => none

theorem raceRun_trans {ok : Sys → Label → Prop} {s s1 s2 : Sys} {l : Label} (hl : ok s l) (h : Race.step s l = .ok (some s1)) {ls : List Label}
    (hr : RaceRun ok s1 ls s2) : RaceRun ok s (l :: ls) s2 := by
  induction hr with
  | nil => exact .snoc (ls := []) l (.nil s) hl h
  | snoc l' _ h1 h2 ih => exact .snoc l' ih h1 h2

theorem raceRun_of {ls : List Label} {s s' : Sys} (h : runs s ls = some s') : RaceRun AnyOrder s ls s' := by
  induction ls generalizing s with
  | nil => cases h; exact .nil _
  | cons l ls ih =>
    simp only [runs] at h
    split at h
    · rename_i s1 heq
      exact raceRun_trans trivial heq (ih h)
    · cases h

def labelThread : Label → Nat
  | .write t _ => t
  | .read t => t
  | .step t _ => t

theorem step_other {s s' : Sys} {l : Label} (h : Race.step s l = .ok (some s')) {u : Nat} (hu : u ≠ labelThread l) : s'.thr u = s.thr u := by
  have hc : ∀ (s : Sys) (t : Nat) (d : List Byte), u ≠ t → (cleared s t d).thr u = s.thr u := by
    intro s t d hu
    unfold cleared wrote Sys.emit Sys.goto
    split <;> simp [hu]
  cases l with
  | write t d => simp only [Race.step] at h; split at h <;> cases h; exact goto_other _ _ hu
  | read t => simp only [Race.step] at h; split at h <;> cases h; exact goto_other _ _ hu
  | step t a =>
    change u ≠ t at hu
    simp only [Race.step] at h
    split at h
    · cases h
    · rename_i d pc _
      cases pc <;> simp only [writeStep] at h
      all_goals repeat' split at h
      all_goals cases h
      all_goals first | exact hc _ _ _ hu | exact goto_other _ _ hu
    · rename_i pc _
      cases pc <;> simp only [readStep] at h
      all_goals repeat' split at h
      all_goals cases h
      all_goals exact goto_other _ _ hu

/-- The threads 1 and 2 respect the lock. -/
def locked12 (s : Sys) : List Label → Bool
  | [] => true
  | l :: ls => (match l with
      | .write t _ => decide (s.thr 1 = .idle ∧ s.thr 2 = .idle ∧ (t = 1 ∨ t = 2))
      | .read t => (match s.thr 1, s.thr 2 with
        | .writer _ _, _ => false
        | _, .writer _ _ => false
        | _, _ => true) && decide (t = 1 ∨ t = 2)
      | .step t _ => decide (t = 1 ∨ t = 2)) &&
    match Race.step s l with
    | .ok (some s') => locked12 s' ls
    | _ => false

theorem locked_of {ls : List Label} {s s' : Sys} (ho : ∀ u, u ≠ 1 → u ≠ 2 → s.thr u = .idle) (h : locked12 s ls = true) (hr : runs s ls = some s') :
    RaceRun Locked s ls s' := by
  induction ls generalizing s with
  | nil => cases hr; exact .nil _
  | cons l ls ih =>
    simp only [runs] at hr
    split at hr
    · rename_i s1 heq
      simp only [locked12, heq, Bool.and_eq_true] at h
      obtain ⟨h1, h2⟩ := h
      have hlt : labelThread l = 1 ∨ labelThread l = 2 := by
        cases l <;> simp only [Bool.and_eq_true, decide_eq_true_eq] at h1
        · exact h1.2.2
        · exact h1.2
        · exact h1
      have hlock : Locked s l := by
        cases l with
        | write t d =>
          simp only [decide_eq_true_eq] at h1
          intro u
          by_cases h1' : u = 1
          · subst h1'; exact h1.1
          · by_cases h2' : u = 2
            · subst h2'; exact h1.2.1
            · exact ho u h1' h2'
        | read t =>
          simp only [Bool.and_eq_true] at h1
          rintro u ⟨d, pc, hu⟩
          by_cases h1' : u = 1
          · subst h1'; simp [hu] at h1
          · by_cases h2' : u = 2
            · subst h2'
              rw [hu] at h1
              revert h1
              cases s.thr 1 <;> simp
            · rw [ho u h1' h2'] at hu; cases hu
        | step t a => trivial
      refine raceRun_trans hlock heq (ih ?_ h2 hr)
      intro u hu1 hu2
      rw [step_other heq (by rcases hlt with h | h <;> omega)]
      exact ho u hu1 hu2
    · cases hr

/-- two readers and, after them, a writer -/
example : ∃ s, RaceRun Locked (Sys.init 7 [1, 2]) ([.read 1, .read 2, .step 2 0, .step 1 0, .step 1 0, .step 2 0, .step 1 0, .step 2 0, .write 1 [3],
    .step 1 0, .step 1 0, .step 1 0, .step 1 0, .step 1 8, .step 1 0, .step 1 0, .read 2, .step 2 0, .step 2 0, .step 2 0]) s ∧
    s.log = [.read 1 [1, 2], .read 2 [1, 2], .wrote 1 [3], .read 2 [3]] := by
  refine ⟨_, locked_of (s' := ?_) (fun u _ _ => rfl) (by decide +kernel) ?_, ?_⟩
  rotate_left
  · with_unfolding_all rfl
  · with_unfolding_all rfl

/-- **C92, violated.** Whatever data a property has and whatever is written: if a second thread writes between the moment a thread has
taken pointer and size and the moment it copies, the copy reads freed memory. -/
theorem C92_use_after_free_violated (p : Nat) (d0 d : List Byte) (h0 : d0 ≠ []) :
    ∃ ls s, RaceRun AnyOrder (Sys.init p d0) ls s ∧ Race.step s (.step 1 0) = .ub := by
  have hl : d0.length ≠ 0 := fun h => h0 (List.length_eq_zero_iff.1 h)
  refine ⟨[.read 1, .step 1 0, .step 1 0, .write 2 d, .step 2 0, .step 2 0, .step 2 0], _, raceRun_of (s' := ?_) ?_, ?_⟩
  rotate_left
  · simp [runs, Race.step, Sys.init, h0, Sys.goto, readStep, writeStep, Sys.setBlock]; rfl
  · simp [Race.step, readStep, hl]

/-- **C92, violated.** Two threads that write a property can free its data twice. -/
theorem C92_double_free_violated (p : Nat) (d0 d1 d2 : List Byte) (h0 : d0 ≠ []) :
    ∃ ls s, RaceRun AnyOrder (Sys.init p d0) ls s ∧ Race.step s (.step 2 0) = .ub := by
  refine ⟨[.write 1 d1, .step 1 0, .step 1 0, .write 2 d2, .step 2 0, .step 2 0, .step 1 0], _, raceRun_of (s' := ?_) ?_, ?_⟩
  rotate_left
  · simp [runs, Race.step, Sys.init, h0, Sys.goto, readStep, writeStep, Sys.setBlock]; rfl
  · simp [Race.step, writeStep]

/-- **C92, violated.** A read that overlaps a write can return no data at all, although the property has data before and after. -/
theorem C92_torn_read_violated (p : Nat) (d0 d : List Byte) (h0 : d0 ≠ []) (hd : d ≠ []) :
    ∃ ls s, RaceRun AnyOrder (Sys.init p d0) ls s ∧ s.log = [.read 2 [], .wrote 1 d] := by
  refine ⟨[.write 1 d, .step 1 0, .read 2, .step 2 0, .step 2 0, .step 2 0, .step 1 0, .step 1 0, .step 1 0, .step 1 (p + 1), .step 1 0, .step 1 0],
    _, raceRun_of (s' := ?_) ?_, ?_⟩
  rotate_left
  · simp [runs, Race.step, Sys.init, h0, hd, Sys.goto, readStep, writeStep, Sys.setBlock, cleared, wrote, Sys.emit]; rfl
  · rfl

end Uecho.Props
