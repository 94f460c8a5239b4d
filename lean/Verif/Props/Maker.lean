import Verif.Props.NodeProfile
/-! # C139 Setting the maker of a node -/
namespace Uecho.Lemmas
open Uecho Uecho.Spec

theorem annEff_append (e : Endian) : ∀ (a b : List Property) (t : BitVec 32),
    annEff e t (a ++ b) = annEff e t a ++ annEff e (iterT a.length t) b
  | [], _, _ => rfl
  | p :: a, b, t => by
      simp only [List.cons_append, annEff, List.length_cons, iterT, annEff_append e a b]

theorem iterT_append (a b : Nat) : ∀ t, iterT (a + b) t = iterT b (iterT a t) := by
  induction a with
  | zero => intro t; simp [iterT]
  | succ a ih => intro t; rw [Nat.succ_add]; simp only [iterT]; exact ih _

theorem flatMap_eq_of {α β : Type} {f g : α → List β} : ∀ {l : List α}, (∀ x ∈ l, f x = g x) → l.flatMap f = l.flatMap g
  | [], _ => rfl
  | x :: l, h => by
      rw [List.flatMap_cons, List.flatMap_cons, h x (by simp), flatMap_eq_of fun y hy => h y (by simp [hy])]

theorem destObj_isSome_congr {n n' : Node} (h : n'.objs.map objEoj = n.objs.map objEoj) (x : Byte × Byte × Byte) :
    (destObj n' x).isSome = (destObj n x).isSome := by
  have key : ∀ n : Node, (destObj n x).isSome = true ↔ x ∈ n.objs.map objEoj := by
    intro n
    unfold destObj
    rw [List.find?_isSome]
    simp
  rw [Bool.eq_iff_iff, key, key, h]

theorem maker_run (e : Endian) (v : CInt) (bs : List Byte) (hbs : integer2byte v 3 = .ok bs) :
    ∀ (is : List Nat) (n : Node), is.Nodup → (∀ i ∈ is, i < n.objs.length) →
    ∃ objs', objs'.map objEoj = n.objs.map objEoj ∧
      (∀ j, objs'[j]? = if j ∈ is then (n.objs[j]?).map (fun o => (o.setPropertyData 0x8A#8 bs).1) else n.objs[j]?) ∧
      let ps := is.flatMap fun i => match n.objs[i]? with
        | some o => if o.hasNode then (o.setPropertyData 0x8A#8 bs).2 else []
        | none => []
      Node.setManufacturerCode e v is n = .ok ({ n with objs := objs', lastTid := iterT ps.length n.lastTid },
        if (destObj n profileEoj).isSome then annEff e n.lastTid ps else []) := by
  have hset : ∀ o : Obj, o.setManufacturerCode v = .ok (o.setPropertyData 0x8A#8 bs) := by
    intro o
    simp [Obj.setManufacturerCode, Obj.setPropertyIntegerData, PropertyList.setIntegerData, hbs, Obj.setPropertyData]
  intro is
  induction is with
  | nil => intro n _ _; exact ⟨n.objs, rfl, by simp, by simp [Node.setManufacturerCode, iterT, annEff]⟩
  | cons i is ih =>
    intro n hnd hlt
    rw [List.nodup_cons] at hnd
    have hi : i < n.objs.length := hlt i (by simp)
    obtain ⟨o, ho⟩ : ∃ o, n.objs[i]? = some o := ⟨n.objs[i], List.getElem?_eq_getElem hi⟩
    let o1 := (o.setPropertyData 0x8A#8 bs).1
    let a1 := (o.setPropertyData 0x8A#8 bs).2
    have hnode : o1.hasNode = o.hasNode := rfl
    let ps1 := if o.hasNode then a1 else []
    let n1 : Node := { n with objs := n.objs.set i o1, lastTid := iterT ps1.length n.lastTid }
    have heoj : n1.objs.map objEoj = n.objs.map objEoj := by
      apply List.ext_getElem?
      intro j
      simp only [n1, List.getElem?_map, List.getElem?_set]
      by_cases hj : i = j
      · subst hj; rw [if_pos rfl, if_pos hi, ho]; rfl
      · simp [hj]
    have h1 : n.onObj e i (fun o => o.setManufacturerCode v) =
        .ok (n1, if (destObj n profileEoj).isSome then annEff e n.lastTid ps1 else []) := by
      simp only [Node.onObj, ho, hset, Res.bind_ok, announceAll_eq]
      have hd : (destObj { n with objs := n.objs.set i o1 } profileEoj).isSome = (destObj n profileEoj).isSome :=
        destObj_isSome_congr (n := n) (n' := { n with objs := n.objs.set i o1 }) heoj _
      by_cases hn : o.hasNode
      · have : (o.setPropertyData 0x8A#8 bs).1.hasNode = true := hn
        simp only [this, if_true]
        rw [show (o.setPropertyData 0x8A#8 bs).1 = o1 from rfl, hd]
        simp [n1, ps1, hn, a1]
      · have : (o.setPropertyData 0x8A#8 bs).1.hasNode = false := by
          show o.hasNode = false
          simpa using hn
        simp [this, n1, ps1, hn, iterT, annEff, o1]
    obtain ⟨objs', k1, k2, k3⟩ := ih n1 hnd.2 (by
      intro j hj
      simp only [n1, List.length_set]
      exact hlt j (by simp [hj]))
    refine ⟨objs', k1.trans heoj, ?_, ?_⟩
    · intro j
      rw [k2]
      by_cases hj : j ∈ is
      · have hij : i ≠ j := fun h => hnd.1 (h ▸ hj)
        simp [hj, n1, List.getElem?_set, hij]
      · by_cases hij : i = j
        · subst hij
          rw [if_neg hj, if_pos (by simp), ho]
          show (n.objs.set i o1)[i]? = _
          rw [List.getElem?_set, if_pos rfl, if_pos hi]; rfl
        · simp [hj, n1, List.getElem?_set, hij, Ne.symm hij]
    · have hps : (is.flatMap fun i => match n1.objs[i]? with
          | some o => if o.hasNode then (o.setPropertyData 0x8A#8 bs).2 else []
          | none => []) = is.flatMap fun i => match n.objs[i]? with
          | some o => if o.hasNode then (o.setPropertyData 0x8A#8 bs).2 else []
          | none => [] := by
        apply flatMap_eq_of
        intro j hj
        have hij : i ≠ j := fun h => hnd.1 (h ▸ hj)
        simp [n1, List.getElem?_set, hij]
      simp only [hps] at k3
      simp only [Node.setManufacturerCode, h1, Res.bind_ok, k3, List.flatMap_cons, ho]
      rw [destObj_isSome_congr heoj]
      simp only [n1, List.length_append, iterT_append, annEff_append]
      by_cases hp : (destObj n profileEoj).isSome <;> simp [hp, ps1, a1]

end Uecho.Lemmas

namespace Uecho.Props
open Uecho Uecho.Spec Uecho.Lemmas

/-- The object belongs to a node, and has a property for the code of its maker that is announced when it changes. -/
def AnnouncesMaker (o : Obj) : Prop := o.hasNode = true ∧ ∃ p, o.getProperty 0x8A#8 = some p ∧ CanAnnounce p ∧ p.hasParent = true

open Classical in
/-- **C139.** Setting the code of the maker of a node writes it, three bytes and most significant first, to every object of the node, and
changes no other property. If the node has a profile, one announcement of the code is sent for each object that announces it, with
consecutive transaction ids, and nothing else. -/
theorem C139_node_maker (e : Endian) (v : CInt) (n : Node) :
    ∃ n' eff bs, Node.setManufacturerCode e v (List.range n.objs.length) n = .ok (n', eff) ∧
      bs.length = 3 ∧ beValue bs = v.toNat % 2 ^ 24 ∧
      n'.objs.length = n.objs.length ∧
      (∀ (i : Nat) (o : Obj), n.objs[i]? = some o → ∃ o', n'.objs[i]? = some o' ∧ objEoj o' = objEoj o ∧ dataOf o' 0x8A#8 = some bs ∧
        ∀ c, c ≠ 0x8A#8 → o'.getProperty c = o.getProperty c) ∧
      ∃ (k : Nat) (ts : List (Byte × Byte)), k = (n.objs.filter fun o => AnnouncesMaker o).length ∧
        ts.map (tidNat e) = tidSeq k n.lastTid.toNat ∧
        eff = if (destObj n profileEoj).isSome then
          ts.map fun t => sends none ⟨t, profileEoj, profileEoj, 0x73, .plain [(0x8A#8, bs)]⟩ else [] := by
  obtain ⟨a, b, c, hbs, ha, hb, hc⟩ := integer2byte_three v
  obtain ⟨objs', h1, h2, h3⟩ := maker_run e v _ hbs (List.range n.objs.length) n List.nodup_range (by simp)
  have hann : ∀ o : Obj, (AnnouncesMaker o → (if o.hasNode then (o.setPropertyData 0x8A#8 [a, b, c]).2 else []).map (fun p => (p.code, p.data)) =
        [(0x8A#8, [a, b, c])]) ∧
      (¬ AnnouncesMaker o → (if o.hasNode then (o.setPropertyData 0x8A#8 [a, b, c]).2 else []) = []) := by
    intro o
    have e1 : (o.setPropertyData 0x8A#8 [a, b, c]).2 = PropertyList.ann ((target o.props 0x8A#8).setData [a, b, c]) := by
      unfold Obj.setPropertyData PropertyList.setData PropertyList.getByCode target
      cases PropertyList.find o.props 0x8A#8 <;> rfl
    rw [e1, ann_setData_eq]
    cases hg : o.getProperty 0x8A#8 with
    | none =>
      have hnot : ¬ AnnouncesMaker o := by rintro ⟨-, p, hp, -⟩; rw [hg] at hp; cases hp
      refine ⟨fun h => absurd h hnot, fun _ => ?_⟩
      rw [target_none hg]
      have : ¬ ([a, b, c] ≠ [] ∧ CanAnnounce (Property.new.setCode 0x8A#8) ∧ (Property.new.setCode 0x8A#8).hasParent = true) := by
        rintro ⟨-, -, h⟩; cases h
      rw [if_neg this]; simp
    | some p =>
      rw [target_some hg]
      have hcode : p.code = 0x8A#8 := by
        have := List.find?_some hg
        simpa using this
      by_cases hA : AnnouncesMaker o
      · refine ⟨fun _ => ?_, fun h => absurd hA h⟩
        obtain ⟨q1, p', hp', q2, q3⟩ := hA
        rw [hg] at hp'; cases hp'
        simp [q1, q2, q3, hcode]
      · refine ⟨fun h => absurd h hA, fun _ => ?_⟩
        by_cases hn : o.hasNode
        · rw [if_pos hn, if_neg]
          rintro ⟨-, q2, q3⟩
          exact hA ⟨hn, p, hg, q2, q3⟩
        · simp [hn]
  generalize hps : ((List.range n.objs.length).flatMap fun i => match n.objs[i]? with
        | some o => if o.hasNode then (o.setPropertyData 0x8A#8 [a, b, c]).2 else []
        | none => []) = ps at h3
  have hps' : ps = n.objs.flatMap fun o => if o.hasNode then (o.setPropertyData 0x8A#8 [a, b, c]).2 else [] := by
    rw [← hps]
    have : n.objs = (List.range n.objs.length).filterMap fun i => n.objs[i]? := by
      clear hps h3 h2 h1 hann
      induction n.objs with
      | nil => rfl
      | cons o l ih =>
        rw [List.length_cons, List.range_succ_eq_map, List.filterMap_cons]
        simp only [List.getElem?_cons_zero, List.filterMap_map]
        congr 1
    conv => rhs; rw [this]
    generalize List.range n.objs.length = is
    induction is with
    | nil => rfl
    | cons i is ih =>
      rw [List.flatMap_cons, ih, List.filterMap_cons]
      cases n.objs[i]? with
      | none => simp
      | some o => simp
  obtain ⟨ts, t1, t2⟩ := annEff_zip e ps n.lastTid
  have hmap : ps.map (fun p => (p.code, p.data)) = List.replicate ps.length (0x8A#8, [a, b, c]) := by
    rw [List.eq_replicate_iff]
    refine ⟨by simp, ?_⟩
    rw [hps']
    intro x hx
    obtain ⟨p, hp, rfl⟩ := List.mem_map.mp hx
    obtain ⟨o, -, hp⟩ := List.mem_flatMap.mp hp
    by_cases hA : AnnouncesMaker o
    · have : (p.code, p.data) ∈ (if o.hasNode then (o.setPropertyData 0x8A#8 [a, b, c]).2 else []).map (fun p => (p.code, p.data)) :=
        List.mem_map_of_mem hp
      rw [(hann o).1 hA] at this
      simpa using this
    · rw [(hann o).2 hA] at hp; cases hp
  refine ⟨_, _, [a, b, c], h3, rfl, ?_, ?_, ?_, ps.length, ts, ?_, t1, ?_⟩
  · simp only [beValue, List.foldl_cons, List.foldl_nil]
    omega
  · have := congrArg List.length h1
    simpa using this
  · intro i o ho
    have hi : i < n.objs.length := (List.getElem?_eq_some_iff.mp ho).1
    refine ⟨(o.setPropertyData 0x8A#8 [a, b, c]).1, ?_, rfl, ?_, ?_⟩
    · show objs'[i]? = _
      rw [h2, if_pos (List.mem_range.mpr hi), ho]; rfl
    · rw [dataOf_dat, dat_set, if_pos rfl]
    · intro x hx
      rw [setPropertyData_get, if_neg hx]
  · rw [hps']
    clear hmap t1 t2 hps hps' h3 h2 h1
    induction n.objs with
    | nil => rfl
    | cons o l ih =>
      rw [List.flatMap_cons, List.length_append, ih, List.filter_cons]
      by_cases hA : AnnouncesMaker o
      · have := congrArg List.length ((hann o).1 hA)
        simp only [List.length_map, List.length_cons, List.length_nil] at this
        rw [this]; simp [hA]; omega
      · rw [(hann o).2 hA]; simp [hA]
  · have hl : ts.length = ps.length := by
      have := congrArg List.length t1
      simpa [tidSeq_length] using this
    rw [t2, hmap, ← hl]
    congr 1
    clear hl t1 t2
    induction ts with
    | nil => rfl
    | cons t ts ih =>
      rw [List.length_cons, List.replicate_succ, List.zipWith_cons_cons, List.map_cons, ih]


example : AnnouncesMaker { Obj.new with hasNode := true, props := [{ Property.new with code := 0x8A#8, attr := 0x04#32, hasParent := true }] } :=
  ⟨rfl, _, rfl, .inl (by decide), rfl⟩

/-- Of a node with a profile and a device that announces its maker, one announcement leaves. -/
example : ∃ n' eff, Node.setManufacturerCode .little 0x123456#32 (List.range 2)
      { yNode with objs := yNode.objs.map fun o => if objEoj o = profileEoj then o else
        { o with props := [{ Property.new with code := 0x8A#8, attr := 0x04#32, hasParent := true }] } } = .ok (n', eff) ∧ eff.length = 1 :=
  ⟨_, _, by with_unfolding_all rfl, by with_unfolding_all rfl⟩

end Uecho.Props
