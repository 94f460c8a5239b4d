import Verif.Spec.LightEsp
/-!
# C163: the light on an ESP32 and its network

Specification: `Verif/Spec/LightEsp.lean`.
-/
namespace Uecho.Props
open Uecho Uecho.Spec Uecho.LightEsp

/-- **C163.** The light boots if the storage is usable, or can be made so by erasing it, and everything else succeeds; the storage is erased only
if it has no free pages or another version, and then always before it is used. -/
theorem C163_boot (first second : NvsResult) (erase rest : Bool) :
    ((appMain first erase second rest).erased = true ↔ (first = .noFreePages ∨ first = .newVersionFound) ∧ erase = true) ∧
    ((appMain first erase second rest).started = true ↔
      rest = true ∧ (first = .ok ∨ ((first = .noFreePages ∨ first = .newVersionFound) ∧ erase = true ∧ second = .ok))) := by
  cases first <;> cases second <;> cases erase <;> cases rest <;> decide

example : appMain .newVersionFound true .ok true = ⟨true, true⟩ := rfl

theorem espHappen_lights {s s' : Station} {x : Happens} (h : espHappen s x = some s') :
    s'.lights = s.lights + (if x = .address then 1 else 0) ∧ (x = .address → s.link = .up) ∧
      s'.started = (s.started || decide (x = .started)) ∧
      (s'.link ≠ .idle → s.link ≠ .idle ∨ x = .started) ∧ (s'.link = .up → s.link = .up ∨ x = .joined) ∧ (x = .started → s.started = false) ∧
      (x = .lost → s'.link = .idle ∧ s.link ≠ .idle) := by
  obtain ⟨st, l, k⟩ := s
  cases x <;> cases st <;> cases l <;>
    simp_all [espHappen, wifiHandler, gotIpHandler, espPerform] <;> subst h <;> simp_all

theorem espHistory_append : ∀ (xs ys : List Happens) {s s' : Station}, espHistory s xs = some s' → espHistory s (xs ++ ys) = espHistory s' ys
  | [], _, _, _, h => by simp only [espHistory, Option.some.injEq] at h; subst h; rfl
  | x :: xs, ys, s, s', h => by
      simp only [espHistory, List.cons_append, Option.bind_eq_some_iff] at h ⊢
      obtain ⟨s1, h1, h2⟩ := h
      rw [h1]
      exact espHistory_append xs ys h2

theorem espHistory_lights : ∀ (xs : List Happens) {s s' : Station}, espHistory s xs = some s' →
    s'.lights = s.lights + xs.count .address
  | [], s, s', h => by simp only [espHistory, Option.some.injEq] at h; subst h; rfl
  | x :: xs, s, s', h => by
      simp only [espHistory, Option.bind_eq_some_iff] at h
      obtain ⟨s1, h1, h2⟩ := h
      rw [espHistory_lights xs h2, (espHappen_lights h1).1, List.count_cons]
      by_cases hx : x = .address
      · simp [hx]; omega
      · simp [hx]

theorem espHistory_up : ∀ (xs : List Happens) {s s' : Station}, espHistory s xs = some s' → s'.link = .up → s.link = .up ∨ Happens.joined ∈ xs
  | [], s, s', h, hu => by simp only [espHistory, Option.some.injEq] at h; subst h; exact .inl hu
  | x :: xs, s, s', h, hu => by
      simp only [espHistory, Option.bind_eq_some_iff] at h
      obtain ⟨s1, h1, h2⟩ := h
      rcases espHistory_up xs h2 hu with h3 | h3
      · rcases (espHappen_lights h1).2.2.2.2.1 h3 with h4 | h4
        · exact .inl h4
        · exact .inr (h4 ▸ List.mem_cons_self ..)
      · exact .inr (List.mem_cons_of_mem _ h3)

/-- **C163, what holds.** A light is started for every address the station is given, and for nothing else; at that time the station is
connected. (Missing: that there is only one.) -/
theorem C163_lights_partial {xs : List Happens} {s : Station} (h : espHistory station0 xs = some s) :
    s.lights = xs.count .address ∧
      ∀ ys zs, xs = ys ++ .address :: zs → ∃ s1, espHistory station0 ys = some s1 ∧ s1.link = .up ∧ Happens.joined ∈ ys := by
  refine ⟨by have := espHistory_lights xs h; simpa [station0] using this, ?_⟩
  rintro ys zs rfl
  have hpre : ∀ (ys : List Happens) (s0 : Station), espHistory s0 (ys ++ .address :: zs) = some s →
      ∃ s1, espHistory s0 ys = some s1 ∧ ∃ s2, espHappen s1 .address = some s2 := by
    intro ys
    induction ys with
    | nil =>
      intro s0 h
      simp only [List.nil_append, espHistory, Option.bind_eq_some_iff] at h
      obtain ⟨s2, h2, _⟩ := h
      exact ⟨s0, rfl, s2, h2⟩
    | cons y ys ih =>
      intro s0 h
      simp only [List.cons_append, espHistory, Option.bind_eq_some_iff] at h
      obtain ⟨s1, h1, h2⟩ := h
      obtain ⟨s3, h3, h4⟩ := ih s1 h2
      exact ⟨s3, by simp only [espHistory, h1, Option.bind_some]; exact h3, h4⟩
  obtain ⟨s1, h1, s2, h2⟩ := hpre ys station0 h
  have hu := (espHappen_lights h2).2.1 rfl
  refine ⟨s1, h1, hu, ?_⟩
  rcases espHistory_up ys h1 hu with h3 | h3
  · cases h3
  · exact h3

example : ∃ s, espHistory station0 [.started, .other 0, .joined, .address] = some s ∧ s.lights = 1 ∧ s.link = .up := ⟨_, rfl, rfl, rfl⟩

/-- **C163, violated part.** Whenever the station is connected, another address starts another light beside those that run: there are histories
with any number of them. -/
theorem C163_once_violated :
    (∀ s : Station, s.link = .up → ∃ s', espHappen s .address = some s' ∧ s'.link = .up ∧ s'.lights = s.lights + 1) ∧
    ∀ k, ∃ xs s, espHistory station0 xs = some s ∧ s.lights = k ∧ s.link = .up ∧ Happens.lost ∉ xs := by
  have h1 : ∀ s : Station, s.link = .up → ∃ s', espHappen s .address = some s' ∧ s'.link = .up ∧ s'.lights = s.lights + 1 := by
    intro s hs
    exact ⟨{ s with lights := s.lights + 1 }, by simp [espHappen, hs, gotIpHandler, espPerform], hs, rfl⟩
  refine ⟨h1, ?_⟩
  intro k
  induction k with
  | zero => exact ⟨[.started, .joined], _, rfl, rfl, rfl, by simp⟩
  | succ k ih =>
    obtain ⟨xs, s, a1, a2, a3, a4⟩ := ih
    obtain ⟨s', b1, b2, b3⟩ := h1 s a3
    exact ⟨xs ++ [.address], s', by rw [espHistory_append xs _ a1]; simp [espHistory, b1], by omega, b2, by simp [a4]⟩

theorem espHistory_dead : ∀ (xs : List Happens) {s s' : Station}, espHistory s xs = some s' → s.started = true → s.link = .idle →
    s'.started = true ∧ s'.link = .idle ∧ s'.lights = s.lights
  | [], s, s', h, h1, h2 => by simp only [espHistory, Option.some.injEq] at h; subst h; exact ⟨h1, h2, rfl⟩
  | x :: xs, s, s', h, g1, g2 => by
      simp only [espHistory, Option.bind_eq_some_iff] at h
      obtain ⟨s1, h1, h2⟩ := h
      obtain ⟨a1, a2, a3, a4, _, a6, _⟩ := espHappen_lights h1
      have hx : x ≠ .address := by intro hx; rw [g2] at a2; exact absurd (a2 hx) (by decide)
      have hy : x ≠ .started := by intro hx; rw [g1] at a6; exact absurd (a6 hx) (by decide)
      have hl : s1.link = .idle := by
        cases hc : s1.link with
        | idle => rfl
        | trying => rcases a4 (by rw [hc]; decide) with h | h; exact absurd g2 h; exact absurd h hy
        | up => rcases a4 (by rw [hc]; decide) with h | h; exact absurd g2 h; exact absurd h hy
      obtain ⟨b1, b2, b3⟩ := espHistory_dead xs h2 (by rw [a3, g1]; rfl) hl
      exact ⟨b1, b2, by rw [b3, a1, if_neg hx]; omega⟩

theorem espHistory_started : ∀ (xs : List Happens) {s s' : Station}, espHistory s xs = some s' → (s.link ≠ .idle → s.started = true) →
    (s'.link ≠ .idle → s'.started = true)
  | [], s, s', h, hs => by simp only [espHistory, Option.some.injEq] at h; subst h; exact hs
  | x :: xs, s, s', h, hs => by
      simp only [espHistory, Option.bind_eq_some_iff] at h
      obtain ⟨s1, h1, h2⟩ := h
      obtain ⟨_, _, a3, a4, _⟩ := espHappen_lights h1
      refine espHistory_started xs h2 fun hl => ?_
      rw [a3]
      rcases a4 hl with h | h
      · rw [hs h]; rfl
      · simp [h]

/-- **C163, violated part.** If the station ever fails to join the network or loses it, it never joins again, and no light is started any more,
whatever happens. -/
theorem C163_reconnect_violated {xs ys : List Happens} {s : Station} (h : espHistory station0 (xs ++ .lost :: ys) = some s) :
    s.link = .idle ∧ Happens.joined ∉ ys ∧ Happens.address ∉ ys ∧ s.lights = xs.count .address := by
  have hsplit : ∃ s1, espHistory station0 xs = some s1 ∧ espHistory s1 (.lost :: ys) = some s := by
    have : ∀ (xs : List Happens) (s0 : Station), espHistory s0 (xs ++ .lost :: ys) = some s →
        ∃ s1, espHistory s0 xs = some s1 ∧ espHistory s1 (.lost :: ys) = some s := by
      intro xs
      induction xs with
      | nil => intro s0 h; exact ⟨s0, rfl, h⟩
      | cons x xs ih =>
        intro s0 h
        simp only [List.cons_append] at h
        unfold espHistory at h
        rw [Option.bind_eq_some_iff] at h
        obtain ⟨s1, h1, h2⟩ := h
        obtain ⟨s3, h3, h4⟩ := ih s1 h2
        exact ⟨s3, by unfold espHistory; rw [h1]; exact h3, h4⟩
    exact this xs station0 h
  obtain ⟨s1, h1, h2⟩ := hsplit
  unfold espHistory at h2
  rw [Option.bind_eq_some_iff] at h2
  obtain ⟨s2, h3, h4⟩ := h2
  obtain ⟨a1, _, a3, _, _, _, a7⟩ := espHappen_lights h3
  obtain ⟨l1, l2⟩ := a7 rfl
  have hst : s2.started = true := by
    rw [a3, espHistory_started xs h1 (by intro h; exact absurd rfl h) l2]; rfl
  obtain ⟨d1, d2, d3⟩ := espHistory_dead ys h4 hst l1
  have hn : ∀ (ys : List Happens) (s2 : Station), s2.started = true → s2.link = .idle → espHistory s2 ys = some s →
      Happens.joined ∉ ys ∧ Happens.address ∉ ys := by
    intro ys
    induction ys with
    | nil => intro _ _ _ _; simp
    | cons y ys ih =>
      intro s2 g1 g2 h
      unfold espHistory at h
      rw [Option.bind_eq_some_iff] at h
      obtain ⟨s3, h5, h6⟩ := h
      have hone : espHistory s2 [y] = some s3 := by simp [espHistory, h5]
      obtain ⟨e1, e2, _⟩ := espHistory_dead [y] hone g1 g2
      obtain ⟨f1, f2⟩ := ih s3 e1 e2 h6
      have hj : y ≠ .joined := by
        rintro rfl
        simp [espHappen, g2] at h5
      have ha : y ≠ .address := by
        rintro rfl
        simp [espHappen, g2] at h5
      exact ⟨by simp [f1, Ne.symm hj], by simp [f2, Ne.symm ha]⟩
  obtain ⟨n1, n2⟩ := hn ys s2 hst l1 h4
  refine ⟨d2, n1, n2, ?_⟩
  have hc := espHistory_lights xs h1
  rw [d3, a1, hc]
  simp [station0]

/-- a light that ran and lost its network -/
example : ∃ s, espHistory station0 ([.started, .joined, .address] ++ .lost :: [.other 1]) = some s := ⟨_, rfl⟩

end Uecho.Props
