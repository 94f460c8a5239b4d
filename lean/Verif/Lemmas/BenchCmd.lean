import Verif.Lemmas.SearchCmd
import Verif.Spec.BenchCmd
/-! # Lemmas about `Model/BenchCmd.lean`, and about when the commands end -/
namespace Uecho.Lemmas
open Uecho Uecho.Spec Uecho.SearchCmd Uecho.BenchCmd Uecho.Props

/-! ## When the walks end -/

/-- Posts are counted; without a post, and after the `K`-th, the nodes stay as they are. -/
def Ticks (K : Nat) (s s' : St) : Prop := s.posts ≤ s'.posts ∧ (s'.posts = s.posts ∨ K ≤ s.posts → s'.c.nodes = s.c.nodes)

theorem Ticks.refl (K : Nat) (s : St) : Ticks K s s := ⟨Nat.le_refl _, fun _ => rfl⟩

theorem Ticks.trans {K : Nat} {a b c : St} (h : Ticks K a b) (g : Ticks K b c) : Ticks K a c := by
  refine ⟨Nat.le_trans h.1 g.1, fun hx => ?_⟩
  have h1 := h.1
  have h2 := g.1
  rw [g.2 (by omega), h.2 (by omega)]

/-- Either there are fewer posts left before the `K`-th, or the nodes are the same. -/
theorem Ticks.cases {K : Nat} {s s' : St} (h : Ticks K s s') : K - s'.posts < K - s.posts ∨ (K - s'.posts ≤ K - s.posts ∧ s'.c.nodes = s.c.nodes) := by
  have := h.1
  by_cases hx : s'.posts = s.posts ∨ K ≤ s.posts
  · exact .inr ⟨by omega, h.2 hx⟩
  · exact .inl (by omega)

theorem post_ticks {e : Endian} {db : Db} {w : Nat → List Arrival} {K : Nat} (hK : ∀ k, K ≤ k → w k = []) {s s' : St} {addr : Option String} {req : Message}
    {res : Option Message} (h : post e db w s addr req = .ok (s', res)) : Ticks K s s' := by
  unfold post at h
  rw [Res.bind_eq_ok] at h
  obtain ⟨⟨c, h1, ev, ok⟩, hp, h⟩ := h
  have hc : c.nodes = s.c.nodes := by
    unfold Ctrl.postBegin at hp
    simp only at hp
    split at hp
    · cases hp
    · simp only [Res.bind_eq_ok, Res.pure_eq, Res.ok.injEq, Prod.mk.injEq] at hp
      obtain ⟨_, _, hp, _⟩ := hp
      rw [← hp]
  cases ok with
  | false =>
    simp only [Bool.false_eq_true, if_false, Res.pure_eq, Res.ok.injEq, Prod.mk.injEq] at h
    rw [← h.1]
    exact ⟨Nat.le_succ _, fun _ => hc⟩
  | true =>
    simp only [if_true, Res.bind_eq_ok, Res.pure_eq, Res.ok.injEq, Prod.mk.injEq, Nat.add_sub_cancel] at h
    obtain ⟨⟨c2, h2, b⟩, ha, h, _⟩ := h
    subst h
    refine ⟨Nat.le_succ _, fun hx => ?_⟩
    simp only at hx
    rw [hK s.posts (by omega)] at ha
    cases ha
    exact hc

/-- One round of the loop over the properties: it is over, or goes on with the next property. -/
theorem askProps_step {e : Endian} {db : Db} (hdb : DbCodes db) (hnm : Named db) {w : Nat → List Arrival} {K : Nat} (hK : ∀ k, K ≤ k → w k = [])
    {i j : Nat} {a : String} {x : Byte × Byte × Byte} (l : Nat) {s : St} (hf : Fit e db s.c) (hat : At s.c i j a x) :
    (∀ fuel, askProps e db w (fuel + 1) i j l s = .ok (some s)) ∨
    ((∃ o, objAt s.c i j = some o ∧ l < o.props.length) ∧ ∃ s1, Fit e db s1.c ∧ Grew s.c s1.c ∧ Ticks K s s1 ∧
      ∀ fuel, askProps e db w (fuel + 1) i j l s = askProps e db w fuel i j (l + 1) s1) := by
  obtain ⟨r, hr, _⟩ := askProps_spec hdb hnm w i j a x 1 l s hf hat
  obtain ⟨n, o, h1, h2, h3, h4⟩ := hat
  have ho : objAt s.c i j = some o := by unfold objAt; rw [h1]; exact h3
  rw [askProps, ho] at hr
  simp only at hr
  cases hp : o.props[l]? with
  | none => left; intro fuel; rw [askProps, ho]; simp only [hp]
  | some p =>
    right
    refine ⟨⟨o, ho, (List.getElem?_eq_some_iff.1 hp).1⟩, ?_⟩
    by_cases hq : p.isReadRequired = true
    · simp only [hp, if_pos hq, Res.bind_eq_ok] at hr
      obtain ⟨m, m1, ⟨s1, res⟩, p1, d, hd, hr⟩ := hr
      obtain ⟨m', m1', m2, m3⟩ := readRequest_spec e x p.code
      rw [getCode_ofNat, h4] at m1
      rw [m1', Res.ok.injEq] at m1
      subst m1
      obtain ⟨s2, res2, y, q1, q2, q3, _⟩ := post_spec (q := False) (w := w) (fun h => h.elim) hf m2 m3 (a := a)
      have hadr : (s.c.nodes[i]?).bind (·.address) = some a := by rw [h1]; exact h2
      rw [hadr, q1] at p1
      cases p1
      cases hn : (objAt s1.c i j).bind (fun o => (o.props[l]?).bind (·.name)) with
      | none => rw [hn] at hr; cases hr
      | some nm =>
        refine ⟨{ s1 with out := s1.out ++ [.property j l p.code d nm] }, q2, q3, ?_, fun fuel => ?_⟩
        · exact (post_ticks hK q1 : Ticks K s s1)
        rw [askProps, ho]
        simp only [hp, if_pos hq]
        rw [getCode_ofNat, h4, m1']
        simp only [Res.bind_ok, hadr, q1, hd, hn]
    · refine ⟨s, hf, .refl _, .refl _ _, fun fuel => ?_⟩
      rw [askProps, ho]
      simp only [hp, if_neg hq]

theorem askProps_ends {e : Endian} {db : Db} (hdb : DbCodes db) (hnm : Named db) {w : Nat → List Arrival} {K : Nat} (hK : ∀ k, K ≤ k → w k = [])
    {i j : Nat} {a : String} {x : Byte × Byte × Byte} : ∀ (d m l : Nat) (s : St), K - s.posts ≤ d → (∀ o, objAt s.c i j = some o → o.props.length ≤ l + m) →
      Fit e db s.c → At s.c i j a x →
      ∃ s' N, (∀ fuel, N ≤ fuel → askProps e db w fuel i j l s = .ok (some s')) ∧ Fit e db s'.c ∧ Grew s.c s'.c ∧ Ticks K s s' := by
  intro d
  induction d using Nat.strongRecOn with
  | _ d ihd =>
  intro m
  induction m with
  | zero =>
    intro l s hd hm hf hat
    rcases askProps_step hdb hnm hK l hf hat with h | ⟨⟨o, ho, hl⟩, _⟩
    · exact ⟨s, 1, fun fuel hfu => by obtain ⟨f, rfl⟩ := Nat.exists_eq_add_of_le' hfu; exact h f, hf, .refl _, .refl _ _⟩
    · have := hm o ho; omega
  | succ m ih =>
    intro l s hd hm hf hat
    rcases askProps_step hdb hnm hK l hf hat with h | ⟨⟨o, ho, hl⟩, s1, f1, g1, t1, h⟩
    · exact ⟨s, 1, fun fuel hfu => by obtain ⟨f, rfl⟩ := Nat.exists_eq_add_of_le' hfu; exact h f, hf, .refl _, .refl _ _⟩
    · have hnext : ∃ s' N, (∀ fuel, N ≤ fuel → askProps e db w fuel i j (l + 1) s1 = .ok (some s')) ∧ Fit e db s'.c ∧ Grew s1.c s'.c ∧ Ticks K s1 s' := by
        rcases t1.cases with hc | ⟨hc, hn⟩
        · obtain ⟨n1, o1, a1, _, a3, _⟩ := hat.grew g1
          exact ihd (K - s1.posts) (by omega) o1.props.length (l + 1) s1 (Nat.le_refl _) (fun o2 ho2 => by
            unfold objAt at ho2; rw [a1] at ho2; simp only [Option.bind_some, a3] at ho2; cases ho2; omega) f1 (hat.grew g1)
        · refine ih (l + 1) s1 (by omega) (fun o2 ho2 => ?_) f1 (hat.grew g1)
          unfold objAt at ho2
          rw [hn] at ho2
          have := hm o2 ho2
          omega
      obtain ⟨s', N, k1, k2, k3, k4⟩ := hnext
      refine ⟨s', N + 1, fun fuel hfu => ?_, k2, g1.trans k3, t1.trans k4⟩
      obtain ⟨f, rfl⟩ := Nat.exists_eq_add_of_le' (show 1 ≤ fuel by omega)
      rw [h f]
      exact k1 f (by omega)

theorem askObjs_ends {e : Endian} {db : Db} (hdb : DbCodes db) (hnm : Named db) {w : Nat → List Arrival} {K : Nat} (hK : ∀ k, K ≤ k → w k = [])
    {i : Nat} {a : String} : ∀ (d m j : Nat) (s : St), K - s.posts ≤ d → (∀ n, s.c.nodes[i]? = some n → n.objs.length ≤ j + m) →
      Fit e db s.c → (∃ n, s.c.nodes[i]? = some n ∧ n.address = some a) →
      ∃ s' N, (∀ rounds fuel, N ≤ rounds → N ≤ fuel → askObjs e db w rounds fuel i j s = .ok (some s')) ∧ Fit e db s'.c ∧ Grew s.c s'.c ∧ Ticks K s s' := by
  intro d
  induction d using Nat.strongRecOn with
  | _ d ihd =>
  intro m
  induction m with
  | zero =>
    intro j s hd hm hf ⟨n, hn, ha⟩
    refine ⟨s, 1, fun rounds fuel _ hfu => ?_, hf, .refl _, .refl _ _⟩
    obtain ⟨f, rfl⟩ := Nat.exists_eq_add_of_le' hfu
    have : objAt s.c i j = none := by
      unfold objAt; rw [hn]; exact List.getElem?_eq_none (by have := hm n hn; omega)
    rw [askObjs, this]
  | succ m ih =>
    intro j s hd hm hf ⟨n, hn, ha⟩
    cases ho : n.objs[j]? with
    | none =>
      refine ⟨s, 1, fun rounds fuel _ hfu => ?_, hf, .refl _, .refl _ _⟩
      obtain ⟨f, rfl⟩ := Nat.exists_eq_add_of_le' hfu
      have : objAt s.c i j = none := by unfold objAt; rw [hn]; exact ho
      rw [askObjs, this]
    | some o =>
      have hoa : objAt s.c i j = some o := by unfold objAt; rw [hn]; exact ho
      have hat : At s.c i j a (objEoj o) := ⟨n, o, hn, ha, ho, rfl⟩
      obtain ⟨s1, N1, p1, f1, g1, t1⟩ := askProps_ends hdb hnm hK (K - s.posts) o.props.length 0
        { s with out := s.out ++ [.object j o.getCode o.name] } (Nat.le_refl _) (fun o2 h2 => by
          have : objAt s.c i j = some o2 := h2
          rw [hoa] at this; cases this; omega) hf hat
      have t1' : Ticks K s s1 := t1
      obtain ⟨n1, b1, b2, _⟩ := g1 i n hn
      have hnext : ∃ s' N, (∀ rounds fuel, N ≤ rounds → N ≤ fuel → askObjs e db w rounds fuel i (j + 1) s1 = .ok (some s')) ∧ Fit e db s'.c ∧
          Grew s1.c s'.c ∧ Ticks K s1 s' := by
        rcases t1'.cases with hc | ⟨hc, hnn⟩
        · exact ihd (K - s1.posts) (by omega) n1.objs.length (j + 1) s1 (Nat.le_refl _) (fun n2 h2 => by
            rw [b1] at h2; cases h2; omega) f1 ⟨n1, b1, b2.trans ha⟩
        · refine ih (j + 1) s1 (by omega) (fun n2 h2 => ?_) f1 ⟨n1, b1, b2.trans ha⟩
          rw [hnn] at h2
          have := hm n2 h2
          omega
      obtain ⟨s', N, k1, k2, k3, k4⟩ := hnext
      refine ⟨s', N + N1 + 1, fun rounds fuel hr hfu => ?_, k2, Grew.trans g1 k3, t1'.trans k4⟩
      obtain ⟨f, rfl⟩ := Nat.exists_eq_add_of_le' (show 1 ≤ fuel by omega)
      rw [askObjs, hoa]
      simp only [p1 rounds (by omega), Res.bind_ok]
      exact k1 rounds f (by omega) (by omega)

theorem benchNodes_ends {e : Endian} {db : Db} (hdb : DbCodes db) (hnm : Named db) {w : Nat → List Arrival} {K : Nat} (hK : ∀ k, K ≤ k → w k = []) :
    ∀ (d m i : Nat) (b : BSt), K - b.s.posts ≤ d → b.s.c.nodes.length ≤ i + m → Fit e db b.s.c →
      ∃ b' N, (∀ rounds fuel, N ≤ rounds → N ≤ fuel → benchNodes e db w rounds fuel i b = .ok (some b')) ∧ Fit e db b'.s.c := by
  intro d
  induction d using Nat.strongRecOn with
  | _ d ihd =>
  intro m
  induction m with
  | zero =>
    intro i b hd hm hf
    refine ⟨b, 1, fun rounds fuel _ hfu => ?_, hf⟩
    obtain ⟨f, rfl⟩ := Nat.exists_eq_add_of_le' hfu
    rw [benchNodes, List.getElem?_eq_none (by omega)]
  | succ m ih =>
    intro i b hd hm hf
    cases hn : b.s.c.nodes[i]? with
    | none =>
      refine ⟨b, 1, fun rounds fuel _ hfu => ?_, hf⟩
      obtain ⟨f, rfl⟩ := Nat.exists_eq_add_of_le' hfu
      rw [benchNodes, hn]
    | some n =>
      obtain ⟨a, ha⟩ := Option.ne_none_iff_exists'.1 ((reach_cinv hf.reach).addr n (List.mem_of_getElem? hn))
      obtain ⟨s1, N1, p1, f1, g1, t1⟩ := askObjs_ends hdb hnm hK (K - b.s.posts) n.objs.length 0 b.s (Nat.le_refl _) (fun n2 h2 => by
        rw [hn] at h2; cases h2; omega) hf ⟨n, hn, ha⟩
      have hnext : ∃ b' N, (∀ rounds fuel, N ≤ rounds → N ≤ fuel → benchNodes e db w rounds fuel (i + 1) ⟨s1, b.heads ++ [n.address]⟩ = .ok (some b')) ∧
          Fit e db b'.s.c := by
        rcases t1.cases with hc | ⟨hc, hnn⟩
        · exact ihd (K - s1.posts) (by omega) s1.c.nodes.length (i + 1) ⟨s1, b.heads ++ [n.address]⟩ (Nat.le_refl _) (by simp only; omega) f1
        · exact ih (i + 1) ⟨s1, b.heads ++ [n.address]⟩ (by simp only; omega) (by simp only [hnn]; omega) f1
      obtain ⟨b', N, k1, k2⟩ := hnext
      refine ⟨b', N + N1 + 1, fun rounds fuel hr hfu => ?_, k2⟩
      obtain ⟨f, rfl⟩ := Nat.exists_eq_add_of_le' (show 1 ≤ fuel by omega)
      rw [benchNodes, hn]
      simp only [p1 rounds rounds (by omega) (by omega), Res.bind_ok]
      exact k1 rounds f (by omega) (by omega)

theorem passes_end {e : Endian} {db : Db} (hdb : DbCodes db) (hnm : Named db) {w : Nat → List Arrival} {K : Nat} (hK : ∀ k, K ≤ k → w k = []) :
    ∀ (n : Nat) (b : BSt), Fit e db b.s.c → ∃ b' N, ∀ rounds, N ≤ rounds → passes e db w rounds n b = .ok (some b') := by
  intro n
  induction n with
  | zero => intro b _; exact ⟨b, 0, fun _ _ => rfl⟩
  | succ n ih =>
    intro b hf
    obtain ⟨b1, N1, k1, f1⟩ := benchNodes_ends hdb hnm hK (K - b.s.posts) b.s.c.nodes.length 0 b (Nat.le_refl _) (by omega) hf
    obtain ⟨b2, N2, k2⟩ := ih b1 f1
    refine ⟨b2, N1 + N2, fun rounds hr => ?_⟩
    rw [passes, k1 rounds rounds (by omega) (by omega)]
    exact k2 rounds (by omega)

theorem maker_ticks {e : Endian} {db : Db} {ms : List Std.Manufacture} {w : Nat → List Arrival} {K : Nat} (hK : ∀ k, K ≤ k → w k = []) {s s' : St}
    {addr nm : Option String} (h : maker e db ms w s addr = .ok (s', nm)) : Ticks K s s' := by
  unfold maker at h
  simp only [Res.bind_eq_ok] at h
  obtain ⟨req, _, ⟨s1, res⟩, hp, h⟩ := h
  have ht := post_ticks hK hp
  suffices s' = s1 by rw [this]; exact ht
  cases res with
  | none => simp at h; exact h.1.symm
  | some m =>
    simp only at h
    split at h
    · rw [Res.bind_eq_ok] at h
      obtain ⟨p, _, h⟩ := h
      cases p with
      | none => simp at h; exact h.1.symm
      | some p => simp only [Res.bind_eq_ok, Res.pure_eq, Res.ok.injEq, Prod.mk.injEq] at h; obtain ⟨_, _, h, _⟩ := h; exact h.symm
    · simp at h; exact h.1.symm

theorem askNodes_ends {e : Endian} {db : Db} (hdb : DbCodes db) (hnm : Named db) (ms : List Std.Manufacture) {w : Nat → List Arrival} {K : Nat}
    (hK : ∀ k, K ≤ k → w k = []) (hw : ∀ k, ∀ a ∈ w k, ShortOne a.data) :
    ∀ (d m i : Nat) (s : St), K - s.posts ≤ d → s.c.nodes.length ≤ i + m → Fit e db s.c →
      ∃ s' N, ∀ rounds fuel, N ≤ rounds → N ≤ fuel → askNodes e db ms w rounds fuel i s = .ok (some s') := by
  intro d
  induction d using Nat.strongRecOn with
  | _ d ihd =>
  intro m
  induction m with
  | zero =>
    intro i s hd hm hf
    refine ⟨s, 1, fun rounds fuel _ hfu => ?_⟩
    obtain ⟨f, rfl⟩ := Nat.exists_eq_add_of_le' hfu
    rw [askNodes, List.getElem?_eq_none (by omega)]
  | succ m ih =>
    intro i s hd hm hf
    cases hn : s.c.nodes[i]? with
    | none =>
      refine ⟨s, 1, fun rounds fuel _ hfu => ?_⟩
      obtain ⟨f, rfl⟩ := Nat.exists_eq_add_of_le' hfu
      rw [askNodes, hn]
    | some n =>
      obtain ⟨a, ha⟩ := Option.ne_none_iff_exists'.1 ((reach_cinv hf.reach).addr n (List.mem_of_getElem? hn))
      obtain ⟨k1, k2⟩ := maker_spec (q := True) ms (fun _ => hw) hf a
      obtain ⟨⟨s0, nm⟩, hmk⟩ := k1 trivial
      obtain ⟨f0, g0, _⟩ := k2 s0 nm hmk
      have t0 := maker_ticks hK hmk
      obtain ⟨n0, b1, b2, _⟩ := g0 i n hn
      have b1' : s0.c.nodes[i]? = some n0 := b1
      obtain ⟨s1, N1, p1, f1, g1, t1⟩ := askObjs_ends hdb hnm hK (K - s0.posts) n0.objs.length 0
        { s0 with out := s0.out ++ [.node (some a) nm] } (Nat.le_refl _) (fun n2 h2 => by
          have : s0.c.nodes[i]? = some n2 := h2
          rw [b1'] at this; cases this; omega) f0 ⟨n0, b1', b2.trans ha⟩
      have t1' : Ticks K s s1 := t0.trans t1
      have hnext : ∃ s' N, ∀ rounds fuel, N ≤ rounds → N ≤ fuel → askNodes e db ms w rounds fuel (i + 1) s1 = .ok (some s') := by
        rcases t1'.cases with hc | ⟨hc, hnn⟩
        · exact ihd (K - s1.posts) (by omega) s1.c.nodes.length (i + 1) s1 (Nat.le_refl _) (by omega) f1
        · exact ih (i + 1) s1 (by omega) (by rw [hnn]; omega) f1
      obtain ⟨s', N, q1⟩ := hnext
      refine ⟨s', N + N1 + 1, fun rounds fuel hr hfu => ?_⟩
      obtain ⟨f, rfl⟩ := Nat.exists_eq_add_of_le' (show 1 ≤ fuel by omega)
      rw [askNodes, hn]
      simp only [ha, hmk, Res.bind_ok, p1 rounds rounds (by omega) (by omega)]
      exact q1 rounds f (by omega) (by omega)

/-! ## What is asked -/

theorem benchNodes_spec {e : Endian} {db : Db} (hdb : DbCodes db) (hnm : Named db) (w : Nat → List Arrival) (rounds : Nat) :
    ∀ (fuel i : Nat) (b : BSt), Fit e db b.s.c → ∃ r, benchNodes e db w rounds fuel i b = .ok r ∧
      ∀ b', r = some b' → Fit e db b'.s.c ∧ ∃ vs asks, Seg db b.s b'.s asks (vs.flatMap (·.2)) ∧
        Mostly asks (vs.flatMap (benchQuestions db)) ∧ Visits b.s.c b'.s.c i vs ∧ b'.heads = b.heads ++ vs.map (·.1) := by
  intro fuel
  induction fuel with
  | zero => intro i b _; exact ⟨none, rfl, by simp⟩
  | succ fuel ih =>
    intro i b hf
    rw [benchNodes]
    cases hn : b.s.c.nodes[i]? with
    | none =>
      have hl := List.getElem?_eq_none_iff.1 hn
      refine ⟨some b, rfl, fun b' hs => ?_⟩
      cases hs
      refine ⟨hf, [], [], .refl _ _, .refl _, ⟨by simp; omega, fun k n h => ?_, by simp⟩, by simp⟩
      rw [List.getElem?_eq_none (by omega)] at h
      cases h
    | some n =>
      obtain ⟨a, ha⟩ := Option.ne_none_iff_exists'.1 ((reach_cinv hf.reach).addr n (List.mem_of_getElem? hn))
      obtain ⟨r1, k1, k2⟩ := askObjs_spec hdb hnm w rounds i a rounds 0 b.s hf ⟨n, hn, ha⟩
      simp only [k1, Res.bind_ok]
      cases r1 with
      | none => exact ⟨none, rfl, by simp⟩
      | some s1 =>
        obtain ⟨f1, n', asks, c1, c2, c3⟩ := k2 s1 rfl
        rw [List.drop_zero] at c2 c3
        obtain ⟨n1, m1, m2, m3⟩ := c2.1 i n hn
        rw [c1] at m1; cases m1
        obtain ⟨r, d1, d2⟩ := ih (i + 1) ⟨s1, b.heads ++ [n.address]⟩ f1
        refine ⟨r, d1, fun b' hs => ?_⟩
        obtain ⟨f2, vs, asks', g1, g2, ⟨v1, v2, v3⟩, g4⟩ := d2 b' hs
        simp only at g1 v2 g4
        obtain ⟨n3, e1, e2, e3⟩ := g1.1 i n' c1
        have hlen := (List.getElem?_eq_some_iff.1 e1).1
        refine ⟨f2, (some a, eojs n') :: vs, asks ++ asks', ?_, ?_, ⟨by simp only [List.length_cons]; omega, ?_, ?_⟩, ?_⟩
        · rw [flat_one]; exact c2.trans g1
        · rw [flat_one]; exact c3.append g2
        · intro k n0 hk
          cases k with
          | zero =>
            rw [Nat.add_zero, hn] at hk
            cases hk
            exact ⟨_, by rw [ha]; rfl, m3⟩
          | succ k =>
            rw [show i + (k + 1) = i + 1 + k by omega] at hk
            obtain ⟨n4, x1, x2, x3⟩ := c2.1 (i + 1 + k) n0 hk
            obtain ⟨os, y1, y2⟩ := v2 k n4 x1
            exact ⟨os, by rw [List.getElem?_cons_succ, y1, x2], x3.trans y2⟩
        · intro k v hk
          cases k with
          | zero =>
            simp only [List.getElem?_cons_zero, Option.some.injEq] at hk
            subst hk
            exact ⟨n3, e1, e2.trans (m2.trans ha), e3⟩
          | succ k =>
            rw [List.getElem?_cons_succ] at hk
            obtain ⟨n4, x1, x2⟩ := v3 k v hk
            exact ⟨n4, by rw [show i + (k + 1) = i + 1 + k by omega]; exact x1, x2⟩
        · rw [g4, ha, List.append_assoc]; rfl

theorem passes_spec {e : Endian} {db : Db} (hdb : DbCodes db) (hnm : Named db) (w : Nat → List Arrival) (rounds : Nat) :
    ∀ (n : Nat) (b : BSt), Fit e db b.s.c → ∃ r, passes e db w rounds n b = .ok r ∧
      ∀ b', r = some b' → ∃ (vss : List (List (Option String × List (Byte × Byte × Byte)))) (asks : List Ask), vss.length = n ∧ (∀ vs ∈ vss, Covers b.s.c b'.s.c vs) ∧
        Seg db b.s b'.s asks (vss.flatMap fun vs => vs.flatMap (·.2)) ∧
        Mostly asks (vss.flatMap fun vs => vs.flatMap (benchQuestions db)) ∧ b'.heads = b.heads ++ vss.flatMap fun vs => vs.map (·.1) := by
  intro n
  induction n with
  | zero =>
    intro b _
    refine ⟨some b, rfl, fun b' hs => ?_⟩
    cases hs
    exact ⟨[], [], rfl, by simp, .refl _ _, .refl _, by simp⟩
  | succ n ih =>
    intro b hf
    obtain ⟨r1, k1, k2⟩ := benchNodes_spec hdb hnm w rounds rounds 0 b hf
    rw [passes, k1]
    simp only [Res.bind_ok]
    cases r1 with
    | none => exact ⟨none, rfl, by simp⟩
    | some b1 =>
      obtain ⟨f1, vs, asks, g1, g2, ⟨_, v2, v3⟩, g4⟩ := k2 b1 rfl
      obtain ⟨r, d1, d2⟩ := ih b1 f1
      refine ⟨r, d1, fun b' hs => ?_⟩
      obtain ⟨vss, asks', e1, e2, e3, e4, e5⟩ := d2 b' hs
      simp only [Nat.zero_add] at v2 v3
      refine ⟨vs :: vss, asks ++ asks', by simp [e1], ?_, ?_, ?_, ?_⟩
      · intro vs' hv
        rcases List.mem_cons.1 hv with rfl | hv
        · refine ⟨v2, fun i v hi => ?_⟩
          obtain ⟨n1, x1, x2, x3⟩ := v3 i v hi
          obtain ⟨n2, y1, y2, y3⟩ := e3.1 i n1 x1
          exact ⟨n2, y1, y2.trans x2, x3.trans y3⟩
        · obtain ⟨z1, z2⟩ := e2 vs' hv
          refine ⟨fun i n0 hi => ?_, z2⟩
          obtain ⟨n1, x1, x2, x3⟩ := g1.1 i n0 hi
          obtain ⟨os, y1, y2⟩ := z1 i n1 x1
          exact ⟨os, by rw [y1, x2], x3.trans y2⟩
      · rw [flat_one]; exact g1.trans e3
      · rw [flat_one]; exact g2.append e4
      · rw [e5, g4, flat_one, List.append_assoc]

theorem repeats_of_nonneg {v : CInt} (h : 0 ≤ v.toInt) : repeats v = v.toInt.toNat := by
  unfold repeats
  have h1 : (v.signExtend 64).toInt = v.toInt := BitVec.toInt_signExtend_of_le (by omega)
  have h2 := BitVec.toInt_eq_toNat_bmod (v.signExtend 64)
  have h3 : (v.signExtend 64).toInt = ((v.signExtend 64).toNat : Int) := by
    rw [BitVec.toInt_eq_msb_cond] at h1 ⊢
    split
    · rename_i hm
      rw [if_pos hm] at h1
      have := (v.signExtend 64).isLt
      omega
    · rfl
  omega

theorem repeats_of_neg {v : CInt} (h : v.toInt < 0) : (repeats v : Int) = 2 ^ 64 + v.toInt := by
  unfold repeats
  have h1 : (v.signExtend 64).toInt = v.toInt := BitVec.toInt_signExtend_of_le (by omega)
  rw [BitVec.toInt_eq_msb_cond] at h1
  split at h1
  · omega
  · omega

end Uecho.Lemmas
