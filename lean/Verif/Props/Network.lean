import Verif.Lemmas.Listing
import Verif.Spec.StdTable
/-!
# C101, C102: what a controller believes about a node

A node and a controller on one network (`Spec.World`): datagrams of the node reach the controller late, never or several times, and
everybody else may send anything to both of them.
-/
namespace Uecho.Props
open Uecho Uecho.Spec Uecho.Lemmas

/-- The standard database has no data. -/
theorem stdDb_blank : Blank stdDb := by
  intro s hs
  unfold stdDb Std.database at hs
  obtain ⟨c, _, rfl⟩ := List.mem_map.1 hs
  unfold Std.StdClass.new
  have key : ∀ (rs : List Std.StdRow) (ps : List Property), (∀ p ∈ ps, p.data = []) →
      ∀ p ∈ rs.foldl (fun ps r => PropertyList.add ps (r.new.setParent true)) ps, p.data = [] := by
    intro rs
    induction rs with
    | nil => intro ps h; exact h
    | cons r rs ih =>
      intro ps h
      rw [List.foldl_cons]
      refine ih _ fun p hp => ?_
      unfold PropertyList.add at hp
      rcases List.mem_append.1 hp with hp | hp
      · exact h p (List.mem_of_mem_eraseP hp)
      · rw [List.mem_singleton.1 hp]; rfl
  exact key _ _ (by simp)

/-! ## a network -/

/-- a device with one property, which can be read and is announced -/
def wDev : Obj :=
  { Obj.new with
    grp := 0x01, cls := 0x30, ins := 0x01,
    props := [{ Property.new with code := 0xB0, attr := 0x51, data := [0x40], hasParent := true }] }
def wX : Byte × Byte × Byte := (0x01, 0x30, 0x01)
def wNode : Res (Node × List Effect) → Node
  | .ok (n, _) => n
  | .ub => yNode
def wEff : Res (Node × List Effect) → List Effect
  | .ok (_, l) => l
  | .ub => []
/-- somebody reads a property -/
def wRead (x : Byte × Byte × Byte) (k : Byte) : Act :=
  .receive ⟨none, "10.0.0.9", encode ⟨(0, 7), (0x0E, 0xF0, 0x01), x, 0x62, .plain [(k, [])]⟩⟩
/-- the device gets a new value, which the node announces -/
def wSet : Act := .edit 1 fun o => .ok (o.setPropertyData 0xB0 [0x41])
def wRun (n : Node) (x : Act) : Res (Node × List Effect) := x.run .little [] n
def wBytes : List Effect → List Byte
  | .send _ bs :: _ => bs.filterMap id
  | _ => []
/-- the controller hears what the node sent -/
def wHear (c : Ctrl) (l : List Effect) : Res (Ctrl × Heap × List CEvent) :=
  c.receive .little [] kOrc kHeap none (some "10.0.0.2") (wBytes l)

def w1 : Node := wNode (wRun yNode0 (.addObject wDev))
def r2 := wRun w1 (wRead profileEoj 0xD6)
def r3 := wRun (wNode r2) (wRead wX 0xB0)
def r4 := wRun (wNode r3) wSet
def c0 : Ctrl := Ctrl.new yNode none
def c2 : Ctrl := kGet (wHear c0 (wEff r2))
def c3 : Ctrl := kGet (wHear c2 (wEff r3))
def c4 : Ctrl := kGet (wHear c3 (wEff r4))
theorem world3 {ok : Node → Act → Prop} (h1 : ok yNode0 (.addObject wDev)) (h2 : ok w1 (wRead profileEoj 0xD6))
    (h3 : ok (wNode r2) (wRead wX 0xB0)) :
    World .little [] "10.0.0.2" ok [wNode r3, wNode r2, w1, yNode0] (wEff r2 ++ wEff r3) (wNode r3) c3 := by
  have g0 : World .little [] "10.0.0.2" ok [yNode0] [] yNode0 c0 :=
    .init (eff := []) (fun _ => 0) (fun _ => 0) 0 none (by with_unfolding_all rfl) yNode_reach
  have g1 : World .little [] "10.0.0.2" ok [w1, yNode0] ([] ++ []) w1 c0 :=
    .act (.addObject wDev) g0 trivial h1 (by with_unfolding_all rfl)
  have g2 : World .little [] "10.0.0.2" ok [wNode r2, w1, yNode0] (([] ++ []) ++ wEff r2) (wNode r2) c0 :=
    .act (wRead profileEoj 0xD6) g1 (by intro o ho x hx; revert x hx; revert o ho; with_unfolding_all decide) h2
      (by with_unfolding_all rfl)
  have g2 : World .little [] "10.0.0.2" ok [wNode r2, w1, yNode0] (wEff r2) (wNode r2) c0 := g2
  have k2 : World .little [] "10.0.0.2" ok [wNode r2, w1, yNode0] (wEff r2) (wNode r2) c2 :=
    .hear (h := kHeap) (h' := kHeap) (ev := []) kOrc none (some "10.0.0.9") (wBytes (wEff r2)) g2 (by with_unfolding_all decide)
      (by with_unfolding_all rfl)
  have g3 : World .little [] "10.0.0.2" ok [wNode r3, wNode r2, w1, yNode0] (wEff r2 ++ wEff r3) (wNode r3) c2 :=
    .act (wRead wX 0xB0) k2 (by intro o ho x hx; revert x hx; revert o ho; with_unfolding_all decide) h3
      (by with_unfolding_all rfl)
  exact .hear (h := kHeap) (h' := kHeap) (ev := []) kOrc none (some "10.0.0.9") (wBytes (wEff r3)) g3 (by with_unfolding_all decide)
      (by with_unfolding_all rfl)

theorem wFits : ∀ p ∈ [wNode r3, wNode r2, w1, yNode0], Fits p := by
  intro p hp o ho q hq
  revert q hq; revert o ho; revert p hp
  with_unfolding_all decide

/-! ## C101 -/

/-- **C101.** In every history of a node and a controller, whatever is lost, late, doubled or sent by others: what the controller
shows as the value of a property of a device of the node is empty or was the value of this property of this
device at some moment. Excepted are the property maps (see C53) and the node profile object. -/
theorem C101_shown_was_held_partial {e : Endian} {db : Db} (hdb : Blank db) {a : String} {ok : Node → Act → Prop}
    {past : List Node} {sent : List Effect} {n : Node} {c : Ctrl} (h : World e db a ok past sent n c)
    (hfit : ∀ p ∈ past, Fits p) (x : Byte × Byte × Byte) (hx : x ≠ profileEoj) (k : Byte) (hk : ¬ IsMapCode k) (d : List Byte)
    (hs : shown c a x k = some d) (hd : d ≠ []) : ∃ p ∈ past, value p x k = some d := by
  unfold shown at hs
  cases hg : c.getNode (some a) with
  | none => rw [hg] at hs; cases hs
  | some m =>
    rw [hg] at hs
    have hm := (getNode_iff (reach_cinv (world_reach h)) a m).1 hg
    simp only [Option.bind_some, value] at hs
    cases ho : destObj m x with
    | none => rw [ho] at hs; cases hs
    | some o =>
      rw [ho] at hs
      have hc := destObj_code ho
      have := world_cache hdb h hfit m hm.1 hm.2 o (destObj_mem ho) (by rw [hc]; exact hx) k d hk hs
      rw [hc] at this
      rcases this with h | h
      · exact absurd h hd
      · exact h

/-- non-vacuity: the controller has listed the device and shows the value it read; the standard database will do for `db` -/
example : World .little [] "10.0.0.2" (fun _ _ => True) [wNode r3, wNode r2, w1, yNode0] (wEff r2 ++ wEff r3) (wNode r3) c3 ∧
    (∀ p ∈ [wNode r3, wNode r2, w1, yNode0], Fits p) ∧ Blank [] ∧ Blank stdDb ∧
    shown c3 "10.0.0.2" wX 0xB0 = some [0x40] :=
  ⟨world3 trivial trivial trivial, wFits, (by intro s hs; cases hs), stdDb_blank, by with_unfolding_all rfl⟩

/-- **C101 violated.** What a node announces about its devices never reaches what the controller shows for them: whatever a node
sends otherwise than as an answer to a datagram, the controller shows for every known device what it showed before. -/
theorem C101_announcements_lost_violated {e : Endian} {db : Db} {a : String} {ok : Node → Act → Prop}
    {past : List Node} {sent : List Effect} {n n' : Node} {c c' : Ctrl} (hw : World e db a ok past sent n c)
    {x : Act} (hs : x.Sane e n) (hx : ∀ g, x ≠ .receive g) {eff : List Effect} (hrun : x.run e db n = .ok (n', eff))
    {to : Option String} {d : List Byte} (hd : .send to (d.map some) ∈ eff) {orc : Oracle} {h h' : Heap} {loc : Option String}
    {ev : List CEvent} (hr : c.receive e db orc h loc (some a) d = .ok (c', h', ev))
    (y : Byte × Byte × Byte) (hy : y ≠ profileEoj) (m : Node) (hm : c.getNode (some a) = some m) (hk : y ∈ eojs m) (k : Byte) :
    shown c' a y k = shown c a y k := by
  have hi := reach_cinv (world_reach hw)
  obtain ⟨f0, h1, h2⟩ := act_profile hs hx hrun to _ hd
  have hde : d = encode f0 := (List.map_inj_right (fun _ _ h => Option.some.inj h)).1 h1
  cases hdec : decode d with
  | none =>
    rw [receive_bad e db orc c h loc a hdec] at hr
    simp only [Res.ok.injEq, Prod.mk.injEq] at hr
    rw [← hr.1]
  | some z =>
    obtain ⟨f, r⟩ := z
    obtain ⟨hdf, hf⟩ := decode_sound hdec
    have hseoj : f.seoj = profileEoj := by
      rw [hde] at hdf
      rw [← encode_seoj hdf]; exact h2
    rw [hdf] at hr
    obtain ⟨n1, ns, st, _, rfl, hseen, _⟩ := recv_seen e db orc hi hf hr
    obtain ⟨o, ho, hoy⟩ := List.mem_map.1 hk
    have hmem := (getNode_iff hi a m).1 hm
    have hdest : destObj m y = some o := by
      rw [← hoy]; exact nodup_dest (hi.node m hmem.1).inv.codes ho
    unfold shown
    cases hseen with
    | ignored => rfl
    | @known l i n0 n2 _ _ g1 g2 g3 g4 g5 _ _ g6 =>
      rw [hm] at g1
      cases g1
      rw [getNode_set hi g2 g3 g4 g5, hm]
      simp only [Option.bind_some, value]
      rw [hdest, ← hoy, nodup_dest g4.inv.codes (g6 o ho (by rw [hoy]; exact hy))]
    | added _ _ g1 => rw [hm] at g1; cases g1
    | @report i n0 n2 u _ _ g1 g2 g3 g4 g5 _ g6 g7 =>
      rw [hm] at g1
      cases g1
      rw [getNode_set hi g2 g3 g4 g5, hm]
      simp only [Option.bind_some, value]
      by_cases hcase : Reports f.esv ∧ (destObj m f.seoj).isSome
      · obtain ⟨o1, ho1⟩ := Option.isSome_iff_exists.1 hcase.2
        obtain ⟨j, o2, t, k1, k2, k3, k4⟩ := g7 hcase.1 o1 ho1
        have hc1 := destObj_code ho1
        rw [k3, (destObj_update k1 (by rw [k4.eoj]; exact hc1) hc1 k2).2 y (by rw [hseoj]; exact hy)]
      · rw [(g6 hcase).1]

/-- **C101 violated.** The announced value of a device is shown as a value of the node profile, which never had a property with
this code, and the old value is shown for the device. -/
theorem C101_announcement_misfiled_violated : ∃ past sent n c, World .little [] "10.0.0.2" (fun _ _ => True) past sent n c ∧
    (∀ p ∈ past, Fits p) ∧ value n wX 0xB0 = some [0x41] ∧ shown c "10.0.0.2" wX 0xB0 = some [0x40] ∧
    shown c "10.0.0.2" profileEoj 0xB0 = some [0x41] ∧ ∀ p ∈ past, value p profileEoj 0xB0 = none := by
  have g4 : World .little [] "10.0.0.2" (fun _ _ => True) [wNode r4, wNode r3, wNode r2, w1, yNode0]
      (wEff r2 ++ wEff r3 ++ wEff r4) (wNode r4) c3 :=
    .act wSet (world3 trivial trivial trivial) trivial trivial (by with_unfolding_all rfl)
  refine ⟨_, _, _, c4, .hear (h := kHeap) (h' := kHeap) (ev := []) kOrc none none (wBytes (wEff r4)) g4
    (by with_unfolding_all decide) (by with_unfolding_all rfl), ?_, by with_unfolding_all rfl, by with_unfolding_all rfl,
    by with_unfolding_all rfl, by with_unfolding_all decide⟩
  intro p hp o ho q hq
  revert q hq; revert o ho; revert p hp
  with_unfolding_all decide

/-- non-vacuity of the first violation: `wSet` is such an act, and `wX` a known device -/
example : (∀ g, wSet ≠ .receive g) ∧ wSet.Sane .little (wNode r3) ∧ wRun (wNode r3) wSet = .ok (wNode r4, wEff r4) ∧
    .send none ((wBytes (wEff r4)).map some) ∈ wEff r4 ∧ (c3.getNode (some "10.0.0.2")).map eojs = some [profileEoj, wX] :=
  ⟨(by intro g h; cases h), trivial, by with_unfolding_all rfl, by with_unfolding_all decide, by with_unfolding_all rfl⟩

/-! ## C102 -/

/-- **C102.** In every such history in which the application leaves alone what the library keeps for it (`Spec.Plain`): every object
but the profile that the controller lists for the node was an object of the node at some moment. -/
theorem C102_listed_existed_partial {e : Endian} {db : Db} (hdb : Blank db) {a : String}
    {past : List Node} {sent : List Effect} {n : Node} {c : Ctrl} (h : World e db a Plain past sent n c)
    (hfit : ∀ p ∈ past, Fits p) (m : Node) (hm : c.getNode (some a) = some m) (x : Byte × Byte × Byte) (hx : x ∈ eojs m)
    (hne : x ≠ profileEoj) : ∃ p ∈ past, x ∈ eojs p := by
  have hm := (getNode_iff (reach_cinv (world_reach h)) a m).1 hm
  obtain ⟨p, hp, hi⟩ := world_list hdb h hfit m hm.1 hm.2 x hx hne
  exact ⟨p, hp, (List.mem_filter.1 hi).1⟩

/-- non-vacuity: the history above is one -/
example : World .little [] "10.0.0.2" Plain [wNode r3, wNode r2, w1, yNode0] (wEff r2 ++ wEff r3) (wNode r3) c3 ∧
    (c3.getNode (some "10.0.0.2")).map eojs = some [profileEoj, wX] := by
  refine ⟨world3 (.inr ?_) ?_ ?_, by with_unfolding_all rfl⟩
  · intro d hd
    have : dataOf wDev 0xD6 = none := by with_unfolding_all rfl
    rw [this] at hd; cases hd
  · rintro x ⟨f, rest, hf, hb, _, hw⟩
    have h1 := decode_complete (r := []) (f := ⟨(0, 7), (0x0E, 0xF0, 0x01), profileEoj, 0x62, .plain [(0xD6, [])]⟩) (by decide)
    rw [List.append_nil] at h1
    rw [show encode _ = encode f ++ rest from hb, decode_complete hf] at h1
    simp only [Option.some.injEq, Prod.mk.injEq] at h1
    rw [h1.1] at hw
    exact absurd hw (by with_unfolding_all decide)
  · rintro x ⟨f, rest, hf, hb, _, hw⟩
    have h1 := decode_complete (r := []) (f := ⟨(0, 7), (0x0E, 0xF0, 0x01), wX, 0x62, .plain [(0xB0, [])]⟩) (by decide)
    rw [List.append_nil] at h1
    rw [show encode _ = encode f ++ rest from hb, decode_complete hf] at h1
    simp only [Option.some.injEq, Prod.mk.injEq] at h1
    rw [h1.1] at hw
    exact absurd hw (by with_unfolding_all decide)

/-- a device with a property 0xD6 of its own -/
def wDev6 : Obj := { wDev with props := [{ Property.new with code := 0xD6, attr := 0x51, data := [1, 0x02, 0x90, 0x05], hasParent := true }] }
def v1 : Node := wNode (wRun yNode0 (.addObject wDev6))
def v2 := wRun v1 (wRead wX 0xD6)

/-- **C102 violated.** Somebody reads property 0xD6 of a device that happens to have one, and the answer makes the controller list an
object that has never existed. -/
theorem C102_phantom_violated : ∃ past sent n c m, World .little [] "10.0.0.2" (fun _ _ => True) past sent n c ∧
    (∀ p ∈ past, Fits p) ∧ c.getNode (some "10.0.0.2") = some m ∧ (0x02, 0x90, 0x05) ∈ eojs m ∧
    ∀ p ∈ past, (0x02, 0x90, 0x05) ∉ eojs p := by
  have g0 : World .little [] "10.0.0.2" (fun _ _ => True) [yNode0] [] yNode0 c0 :=
    .init (eff := []) (fun _ => 0) (fun _ => 0) 0 none (by with_unfolding_all rfl) yNode_reach
  have g1 : World .little [] "10.0.0.2" (fun _ _ => True) [v1, yNode0] ([] ++ []) v1 c0 :=
    .act (.addObject wDev6) g0 trivial trivial (by with_unfolding_all rfl)
  have g2 : World .little [] "10.0.0.2" (fun _ _ => True) [wNode v2, v1, yNode0] (([] ++ []) ++ wEff v2) (wNode v2) c0 :=
    .act (wRead wX 0xD6) g1 (by intro o ho x hx; revert x hx; revert o ho; with_unfolding_all decide) trivial
      (by with_unfolding_all rfl)
  have hsome : ((kGet (wHear c0 (wEff v2))).getNode (some "10.0.0.2")).map eojs = some [profileEoj, (0x02, 0x90, 0x05)] := by
    with_unfolding_all rfl
  obtain ⟨m, hm, he⟩ := Option.map_eq_some_iff.1 hsome
  refine ⟨_, _, _, kGet (wHear c0 (wEff v2)), m, .hear (h := kHeap) (h' := kHeap) (ev := []) kOrc none (some "10.0.0.9")
    (wBytes (wEff v2)) g2 (by with_unfolding_all decide) (by with_unfolding_all rfl), ?_, hm, by rw [he]; decide,
    by with_unfolding_all decide⟩
  intro p hp o ho q hq
  revert q hq; revert o ho; revert p hp
  with_unfolding_all decide

end Uecho.Props
