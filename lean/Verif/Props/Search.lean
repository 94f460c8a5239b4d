import Verif.Props.Controller
import Verif.Lemmas.PropertyMap
/-!
# C69: searching again, and nodes with many instances

`C69_search_discovers_partial` (Props/Controller) is about senders the controller does not know yet and at most 84
instances. Here: what a search adds to a node that is known already, and what happens from 85 instances on.
-/
namespace Uecho.Props
open Uecho Uecho.Spec Uecho.Lemmas

/-- The answer of a node to a search: a read response with its instance list. -/
theorem search_answer {e : Endian} {db : Db} {n0 n n' : Node} {o p : Obj} {eff0 eff : List Effect}
    (hreach : NodeReach e db n0) (hadd : n0.addObject e o = .ok (n, eff0, true))
    (hic : (instances n).length < 16777216) (hcc : (nodeClasses n).length < 65536) (hn : HandlersSet n)
    (hp : destObj n profileEoj = some p) (hacc : ∀ q, accepts p.observers 0x62 0xD6 q [] = true)
    (t : Byte × Byte) (loc : Option String) (a : String)
    (hrecv : n.receive e loc (some a) (encode (searchFrame t (0x0E, 0xF0, 0x01) 0x62)) = .ok (n', eff)) :
    Outcome (searchFrame t (0x0E, 0xF0, 0x01) 0x62) a eff
      (some ⟨t, (0x0E, 0xF0, 0x01), (0x0E, 0xF0, 0x01), 0x72, .plain [(0xD6, instanceListData (instances n))]⟩) := by
  obtain ⟨p', hp', _, _, _, hd6, _⟩ := C28_profile_describes_node hreach hadd hic hcc
  rw [hp] at hp'; cases hp'
  have hf : (searchFrame t (0x0E, 0xF0, 0x01) 0x62).WF := by
    refine ⟨show ¬ IsSetGet 0x62 by decide, by simp, ?_⟩
    intro q hq; simp only [List.mem_singleton] at hq; subst hq; simp
  have hreq : IsRequestEsv (searchFrame t (0x0E, 0xF0, 0x01) 0x62).esv := show IsRequestEsv 0x62 by decide
  have hdest : destObj n (searchFrame t (0x0E, 0xF0, 0x01) 0x62).deoj = some p := hp
  rw [← List.append_nil (encode _)] at hrecv
  have hout := (receive_outcome hf hn hdest hreq hrecv).1
  have hnode : p.hasNode = true := (reach_inv (NodeReach.addObject o hreach hadd)).node p (destObj_mem hp)
  unfold dataOf at hd6
  cases hq : p.getProperty 0xD6 with
  | none => rw [hq] at hd6; simp at hd6
  | some q =>
    rw [hq] at hd6
    simp only [Option.map_some, Option.some.injEq] at hd6
    have hall : AllGranted p (searchFrame t (0x0E, 0xF0, 0x01) 0x62) := by
      unfold AllGranted searchFrame
      simp only
      rw [if_neg (by decide)]
      intro x hx
      simp only [List.mem_singleton] at hx; subst hx
      simp only [granted, hq, hacc]
    have hone : AtMostOneEach (searchFrame t (0x0E, 0xF0, 0x01) 0x62) := by
      unfold AtMostOneEach searchFrame; simp
    have hesv : outEsv p (searchFrame t (0x0E, 0xF0, 0x01) 0x62) = some 0x72 := by
      simp only [outEsv, (allAccepted_iff hf).2 ⟨hone, hall⟩, responseEsv_true hreq]
      rfl
    simp only [hnode, if_true, hesv, Option.map_some] at hout
    have hbody : outBody p (searchFrame t (0x0E, 0xF0, 0x01) 0x62) =
        .plain [(0xD6, instanceListData (instances n))] := by
      simp only [outBody, searchFrame]
      rw [runRes_read (by decide)]
      simp only [readSection, List.map_cons, List.map_nil, hq, hacc, if_true, hd6]
    unfold respFrame at hout
    rw [hbody] at hout
    exact hout

theorem listedCodes_instances {xs : List (Byte × Byte × Byte)} (h : xs.length ≤ 255) :
    listedCodes (instanceListData xs) = xs := by
  unfold listedCodes instanceListData
  rw [List.drop_succ_cons, List.drop_zero, List.take_of_length_le h, triples_flat]

/-- **C69** (partial: at most 84 instances). Searching again: if the controller knows the node already, it keeps every
object it has of the node and gets exactly those instances of the node that it does not have, after them, in the order of the node. -/
theorem C69_search_again_partial {e e2 : Endian} {db db2 : Db} {n0 n n' : Node} {o p : Obj} {eff0 eff : List Effect}
    (hreach : NodeReach e db n0) (hadd : n0.addObject e o = .ok (n, eff0, true))
    (hic : (instances n).length ≤ 84) (hcc : (nodeClasses n).length < 65536) (hn : HandlersSet n)
    (hp : destObj n profileEoj = some p) (hacc : ∀ q, accepts p.observers 0x62 0xD6 q [] = true)
    (t : Byte × Byte) (loc : Option String) (a b : String)
    (hrecv : n.receive e loc (some a) (encode (searchFrame t (0x0E, 0xF0, 0x01) 0x62)) = .ok (n', eff)) :
    ∃ r : Frame, r.tid = t ∧ sends (some a) r ∈ eff ∧
      ∀ {c c' : Ctrl} {h h' : Heap} {ev : List CEvent} (orc : Oracle) (loc2 : Option String) (k : Node),
        CtrlReach e2 db2 c → c.getNode (some b) = some k →
        c.receive e2 db2 orc h loc2 (some b) (encode r) = .ok (c', h', ev) →
        ∃ m, c'.getNode (some b) = some m ∧ eojs m = eojs k ++ (instances n).filter (· ∉ eojs k) := by
  obtain ⟨pre, h1, _⟩ := search_answer hreach hadd (by omega) hcc hn hp hacc t loc a hrecv
  refine ⟨_, rfl, by rw [h1]; simp; exact .inr rfl, ?_⟩
  intro c c' h h' ev orc loc2 k hc hk hrc
  have hlen := instanceListData_length (instances n)
  rw [← List.append_nil (encode _)] at hrc
  obtain ⟨⟨m, hm1, hm2⟩, _⟩ := C52_listed_instances hc orc loc2 b _ (instanceListData (instances n)) (by
    refine ⟨show ¬ IsSetGet 0x72 by decide, by simp, ?_⟩
    intro x hx
    simp only [List.mem_singleton] at hx; subst hx
    simp only; rw [hlen]; omega) ⟨.inl rfl, rfl⟩ (by simp [instanceListData]) _ hrc
  rw [hk] at hm2
  refine ⟨m, hm1, ?_⟩
  rw [hm2.1, listedCodes_instances (by omega)]
  have hnd : (instances n).Nodup := by
    have := (reach_inv (NodeReach.addObject o hreach hadd)).codes
    exact List.Nodup.sublist List.filter_sublist this
  rw [firsts_of_nodup hnd]

theorem triples_length : ∀ l : List Byte, 3 * (triples l).length ≤ l.length
  | [] => by simp [triples]
  | [_] => by simp [triples]
  | [_, _] => by simp [triples]
  | a :: b :: c :: rest => by
      simp only [triples, List.length_cons]
      have := triples_length rest
      omega

theorem firsts_length {α : Type} [DecidableEq α] : ∀ l : List α, (firsts l).length ≤ l.length
  | [] => by simp [firsts]
  | x :: xs => by
      simp only [firsts, List.length_cons]
      have h1 := List.length_filter_le (fun y => decide (y ≠ x)) (firsts xs)
      have h2 := firsts_length xs
      omega

/-- The bytes of a frame whose one property has too much data are those of a frame whose data is cut. -/
theorem encode_cut (t : Byte × Byte) (s d : Byte × Byte × Byte) (v c : Byte) (x : List Byte) :
    encode ⟨t, s, d, v, .plain [(c, x)]⟩ =
      encode ⟨t, s, d, v, .plain [(c, x.take (x.length % 256))]⟩ ++ x.drop (x.length % 256) := by
  have h1 : (x.take (x.length % 256)).length = x.length % 256 := by
    rw [List.length_take]; have := Nat.mod_le x.length 256; omega
  have h2 : BitVec.ofNat 8 (x.take (x.length % 256)).length = BitVec.ofNat 8 x.length := by
    rw [h1]; apply BitVec.eq_of_toNat_eq; simp
  simp only [encode, encodeBody, encodeSection, encodeProp, List.flatMap_cons, List.flatMap_nil, List.append_nil, h2]
  simp [List.take_append_drop]

/-- **C69 violated.** From 85 instances on, a controller that does not know the node yet does not learn all
its instances from the answer to its search (which is sent with all of them, but with the length of the
list modulo 256): there is an instance that the controller does not list for the address. -/
theorem C69_many_instances_violated {e e2 : Endian} {db db2 : Db} {n0 n n' : Node} {o p : Obj} {eff0 eff : List Effect}
    (hreach : NodeReach e db n0) (hadd : n0.addObject e o = .ok (n, eff0, true))
    (hic : 85 ≤ (instances n).length) (hic2 : (instances n).length < 16777216)
    (hcc : (nodeClasses n).length < 65536) (hn : HandlersSet n)
    (hp : destObj n profileEoj = some p) (hacc : ∀ q, accepts p.observers 0x62 0xD6 q [] = true)
    (t : Byte × Byte) (loc : Option String) (a b : String)
    (hrecv : n.receive e loc (some a) (encode (searchFrame t (0x0E, 0xF0, 0x01) 0x62)) = .ok (n', eff)) :
    ∃ bytes : List Byte, .send (some a) (bytes.map some) ∈ eff ∧ (∀ to y, .send to y ∈ eff → y = bytes.map some) ∧
      ∀ {c c' : Ctrl} {h h' : Heap} {ev : List CEvent} (orc : Oracle) (loc2 : Option String),
        CtrlReach e2 db2 c → c.getNode (some b) = none →
        c.receive e2 db2 orc h loc2 (some b) bytes = .ok (c', h', ev) →
        ∃ x ∈ instances n, ∀ m, c'.getNode (some b) = some m → x ∉ eojs m := by
  obtain ⟨pre, h1, hpre⟩ := search_answer hreach hadd hic2 hcc hn hp hacc t loc a hrecv
  refine ⟨_, by rw [h1]; simp only [List.mem_append, List.mem_singleton]; exact .inr rfl, ?_, ?_⟩
  · intro to y hy
    rw [h1] at hy
    rcases List.mem_append.1 hy with hy | hy
    · rcases hpre _ hy with h | ⟨_, h⟩ | ⟨h, _⟩
      · cases h
      · cases h
      · exact absurd h (show ¬ IsWriteEsv 0x62 by decide)
    · simp only [List.mem_singleton, sends, Effect.send.injEq] at hy
      exact hy.2
  intro c c' h h' ev orc loc2 hc hnone hrc
  have hnd : (instances n).Nodup := by
    have := (reach_inv (NodeReach.addObject o hreach hadd)).codes
    exact List.Nodup.sublist List.filter_sublist this
  have hprof : profileEoj ∉ instances n := fun hx => by
    have := (List.mem_filter.1 hx).2
    simp [profileEoj] at this
  rw [encode_cut] at hrc
  generalize hD : (instanceListData (instances n)).take ((instanceListData (instances n)).length % 256) = D at hrc
  have hDlen : D.length ≤ 255 := by
    rw [← hD, List.length_take]; omega
  have hwf : Frame.WF ⟨t, (0x0E, 0xF0, 0x01), (0x0E, 0xF0, 0x01), 0x72, .plain [(0xD6, D)]⟩ := by
    refine ⟨show ¬ IsSetGet 0x72 by decide, by simp, ?_⟩
    intro x hx
    simp only [List.mem_singleton] at hx; subst hx
    exact hDlen
  have hsa : SearchAnswer ⟨t, (0x0E, 0xF0, 0x01), (0x0E, 0xF0, 0x01), 0x72, .plain [(0xD6, D)]⟩ D := ⟨.inl rfl, rfl⟩
  by_cases hD0 : D = []
  · obtain ⟨n1, ns, st, _, hc', hseen, _⟩ := recv_seen e2 db2 orc (reach_cinv hc) hwf hrc
    have hsame : ns = c.nodes := by
      cases hseen with
      | ignored => rfl
      | known k1 k2 =>
        have hk := k1.2
        simp only [Body.plain.injEq, List.cons.injEq, Prod.mk.injEq, true_and, and_true] at hk
        exact absurd (hk.symm.trans hD0) k2
      | added k1 k2 =>
        have hk := k1.2
        simp only [Body.plain.injEq, List.cons.injEq, Prod.mk.injEq, true_and, and_true] at hk
        exact absurd (hk.symm.trans hD0) k2
      | report k1 => exact absurd hsa (k1 _)
    obtain ⟨x, xs, hx⟩ : ∃ x xs, instances n = x :: xs := by
      cases hi : instances n with
      | nil => rw [hi] at hic; simp at hic
      | cons x xs => exact ⟨x, xs, rfl⟩
    refine ⟨x, by rw [hx]; simp, fun m hm => ?_⟩
    rw [hc', hsame] at hm
    have : c.getNode (some b) = some m := hm
    rw [hnone] at this; cases this
  · obtain ⟨⟨m, hm1, hm2⟩, _⟩ := C52_listed_instances hc orc loc2 b _ D hwf hsa hD0 _ hrc
    rw [hnone] at hm2
    simp only at hm2
    generalize hF : (firsts (listedCodes D)).filter (· ≠ profileEoj) = F at hm2
    have hFlen : F.length ≤ 84 := by
      have q1 : F.length ≤ (firsts (listedCodes D)).length := by rw [← hF]; exact List.length_filter_le _ _
      have q2 := firsts_length (listedCodes D)
      have q3 := triples_length (D.drop 1)
      have q4 : listedCodes D = triples (D.drop 1) := rfl
      rw [List.length_drop] at q3
      rw [q4] at q1 q2
      omega
    suffices ¬ ∀ x ∈ instances n, x ∈ F by
      obtain ⟨x, hx⟩ := Classical.not_forall.1 this
      obtain ⟨hx1, hx2⟩ := Classical.not_imp.1 hx
      refine ⟨x, hx1, fun m' hm' => ?_⟩
      rw [hm1] at hm'; cases hm'
      rw [hm2, List.mem_cons]
      rintro (rfl | hx3)
      · exact hprof hx1
      · exact hx2 hx3
    intro hall
    have := nodup_length_le hnd hall
    omega

/-! ### A node with many instances (non-vacuity) -/

/-- The `i`-th device of the example. -/
def manyDevice (i : Nat) : Obj := { yDevice with ins := BitVec.ofNat 8 (i + 1) }

/-- Devices 0x013001, 0x013002, … -/
def manyCodes (k : Nat) : List (Byte × Byte × Byte) := (List.range k).map fun i => (0x01, 0x30, BitVec.ofNat 8 (i + 1))

theorem many_step {k : Nat} (hk : k < 200) {n : Node} (hr : NodeReach .little [] n)
    (hc : eojs n = profileEoj :: manyCodes k) (ho : ∀ o ∈ n.objs, o.observers = []) :
    ∃ n' eff, n.addObject .little (manyDevice k) = .ok (n', eff, true) ∧
      eojs n' = profileEoj :: manyCodes (k + 1) ∧ ∀ o ∈ n'.objs, o.observers = [] := by
  have hobj : objEoj (manyDevice k) = (0x01, 0x30, BitVec.ofNat 8 (k + 1)) := rfl
  have hfresh : ∀ y ∈ n.objs, objEoj y ≠ objEoj (manyDevice k) := by
    intro y hy he
    have hm : objEoj y ∈ eojs n := List.mem_map_of_mem hy
    rw [hc, he, hobj, List.mem_cons] at hm
    rcases hm with hm | hm
    · exact absurd hm (by intro h; injection h with h _; exact absurd h (by decide))
    · obtain ⟨i, hi, hx⟩ := List.mem_map.1 hm
      rw [List.mem_range] at hi
      injection hx with _ hx; injection hx with _ hx
      have := congrArg BitVec.toNat hx
      simp only [BitVec.toNat_ofNat] at this
      omega
  have hadd := addObject_new .little hfresh
  have hinv := appended_inv (reach_inv hr) hfresh
  have hdest : ∃ p, destObj (appended n (manyDevice k)) profileEoj = some p := by
    cases hd : destObj (appended n (manyDevice k)) profileEoj with
    | some p => exact ⟨p, rfl⟩
    | none =>
      unfold destObj at hd
      rw [List.find?_eq_none] at hd
      have hm : profileEoj ∈ eojs n := by rw [hc]; simp
      obtain ⟨y, hy, he⟩ := List.mem_map.1 hm
      exact absurd (by simpa using he) (hd y (List.mem_append_left _ hy))
  obtain ⟨p, hp⟩ := hdest
  obtain ⟨i, p', eff, t, h1, _, h3, h4, _⟩ := updateProfile_some .little hp (hinv.node p (destObj_mem hp))
  rw [h4] at hadd
  refine ⟨_, eff, hadd, ?_, ?_⟩
  · have hids := (addObject_ids .little hadd)
    rcases hids with ⟨_, _, h, _⟩ | ⟨_, hids⟩
    · cases h
    · unfold eojs
      rw [hids.eojs]
      show eojs (appended n (manyDevice k)) = _
      have h5 : eojs (appended n (manyDevice k)) = eojs n ++ [objEoj (manyDevice k)] := by
        simp [eojs, appended]; rfl
      rw [h5, hc, hobj]
      simp [manyCodes, List.range_succ]
  · intro o ho'
    rcases List.mem_or_eq_of_mem_set ho' with h | h
    · rcases List.mem_append.1 h with h | h
      · exact ho o h
      · simp only [List.mem_singleton] at h; subst h; rfl
    · subst h
      have hpo : p.observers = [] := by
        rcases List.mem_append.1 (destObj_mem hp) with h | h
        · exact ho p h
        · simp only [List.mem_singleton] at h; subst h; rfl
      rw [h3]; exact hpo

theorem many_devices (k : Nat) (hk : k ≤ 200) : ∃ n, NodeReach .little [] n ∧ eojs n = profileEoj :: manyCodes k ∧
    ∀ o ∈ n.objs, o.observers = [] := by
  induction k with
  | zero =>
    refine ⟨yNode0, yNode0_reach, by with_unfolding_all rfl, ?_⟩
    have h3 : yNode0.objs.map (·.observers) = [[]] := by with_unfolding_all rfl
    intro o ho
    have := List.mem_map_of_mem (f := fun o : Obj => o.observers) ho
    rw [h3] at this; simpa using this
  | succ k ih =>
    obtain ⟨n, h1, h2, h3⟩ := ih (by omega)
    obtain ⟨n', eff, h4, h5, h6⟩ := many_step (by omega) h1 h2 h3
    exact ⟨n', .addObject _ h1 h4, h5, h6⟩

/-- non-vacuity: nodes with 84, 85, …, 200 instances meet the hypotheses of the theorems above, and handling the search is
defined -/
example (k : Nat) (h1 : 1 ≤ k) (h2 : k ≤ 200) : ∃ n0 n n' o p eff0 eff, NodeReach .little [] n0 ∧
    n0.addObject .little o = .ok (n, eff0, true) ∧ (instances n).length = k ∧ (nodeClasses n).length < 65536 ∧
    HandlersSet n ∧ destObj n profileEoj = some p ∧ (∀ q, accepts p.observers 0x62 0xD6 q [] = true) ∧
    n.receive .little none (some "10.0.0.9") (encode (searchFrame (1, 0) (0x0E, 0xF0, 0x01) 0x62)) = .ok (n', eff) := by
  obtain ⟨k, rfl⟩ : ∃ j, k = j + 1 := ⟨k - 1, by omega⟩
  obtain ⟨n0, hr, hc, ho⟩ := many_devices k (by omega)
  obtain ⟨n, eff0, hadd, hc', ho'⟩ := many_step (by omega) hr hc ho
  have hset : HandlersSet n := by
    intro o ho'' x hx
    rw [ho' o ho''] at hx; simp at hx
  have hlen : n.objs.length = k + 2 := by
    have := congrArg List.length hc'
    simpa [eojs, manyCodes] using this
  have hinst : instances n = manyCodes (k + 1) := by
    show (eojs n).filter _ = _
    rw [hc', List.filter_cons]
    have : manyCodes (k + 1) = (manyCodes (k + 1)).filter fun x => x.1 ≠ 0x0E := by
      symm; rw [List.filter_eq_self]
      intro x hx
      obtain ⟨i, _, rfl⟩ := List.mem_map.1 hx
      rfl
    rw [← this]; simp [profileEoj]
  have hcl : (nodeClasses n).length < 65536 := by
    have := firsts_length (n.objs.map fun o => (o.grp, o.cls))
    unfold nodeClasses
    rw [List.length_map, hlen] at this
    omega
  obtain ⟨n', eff, hrec⟩ := C66_receive_safe_partial .little n none "10.0.0.9"
    (encode (searchFrame (1, 0) (0x0E, 0xF0, 0x01) 0x62)) hset
  cases hd : destObj n profileEoj with
  | none =>
    unfold destObj at hd
    rw [List.find?_eq_none] at hd
    have hm : profileEoj ∈ eojs n := by rw [hc']; simp
    obtain ⟨y, hy, he⟩ := List.mem_map.1 hm
    exact absurd (by simpa using he) (hd y hy)
  | some p =>
    refine ⟨n0, n, n', _, p, eff0, eff, hr, hadd, by rw [hinst]; simp [manyCodes], hcl, hset, hd, ?_, hrec⟩
    intro q
    rw [ho' p (destObj_mem hd)]; rfl

end Uecho.Props
