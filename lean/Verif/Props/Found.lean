import Verif.Lemmas.Found
import Verif.Props.Controller
import Verif.Spec.StdTable
/-!
# C150: what a controller knows about the objects it found

Specification: `Spec.Found`.
-/
namespace Uecho.Props
open Uecho Uecho.Spec Uecho.Lemmas

/-- The standard database names every class and every property, and no class has a code twice. -/
theorem stdDb_codes : DbCodes stdDb ∧ ∀ d ∈ stdDb, d.name ≠ none ∧ ∀ p ∈ d.props, p.name ≠ none := by
  have key : ∀ (rs : List Std.StdRow) (ps : List Property), (ps.map (·.code)).Nodup → (∀ p ∈ ps, p.name ≠ none) →
      ((rs.foldl (fun ps r => PropertyList.add ps (r.new.setParent true)) ps).map (·.code)).Nodup ∧
      ∀ p ∈ rs.foldl (fun ps r => PropertyList.add ps (r.new.setParent true)) ps, p.name ≠ none := by
    intro rs
    induction rs with
    | nil => intro ps h1 h2; exact ⟨h1, h2⟩
    | cons r rs ih =>
      intro ps h1 h2
      rw [List.foldl_cons]
      refine ih _ (uniq_add h1 _) fun p hp => ?_
      unfold PropertyList.add at hp
      rcases List.mem_append.1 hp with hp | hp
      · exact h2 p (List.mem_of_mem_eraseP hp)
      · rw [List.mem_singleton.1 hp]; simp [Property.setParent, Std.StdRow.new]
  constructor
  · intro d hd
    unfold stdDb Std.database at hd
    obtain ⟨c, _, rfl⟩ := List.mem_map.1 hd
    exact (key _ _ (by simp) (by simp)).1
  · intro d hd
    unfold stdDb Std.database at hd
    obtain ⟨c, _, rfl⟩ := List.mem_map.1 hd
    exact ⟨by simp [Std.StdClass.new], (key _ _ (by simp) (by simp)).2⟩

/-- **C150.** Whatever a controller received, each object of each node it found has the standard properties of its class, in their order and
with their codes, names and attributes (but for the attributes of the property maps); what comes after them has no name and is not
required in any way. Its name is that of the class, or else that of the super class. -/
theorem C150_standard_partial {e : Endian} {db : Db} {c : Ctrl} (hc : CtrlReach e db c) (hdb : DbCodes db) (n : Node) (hn : n ∈ c.nodes)
    (o : Obj) (ho : o ∈ n.objs) :
    Knows (standardProps db o.grp o.cls) o.props ∧ o.name = (className db o.grp o.cls).or (className db 0 0) :=
  reach_known hdb hc n hn o ho

/-- **C150.** With the standard database of the library: whatever an object that a controller found is required to have has a name. -/
theorem C150_required_named {e : Endian} {c : Ctrl} (hc : CtrlReach e stdDb c) (n : Node) (hn : n ∈ c.nodes) (o : Obj) (ho : o ∈ n.objs)
    (p : Property) (hp : p ∈ o.props) (hr : hasBit p.attr 4 ∨ hasBit p.attr 5 ∨ hasBit p.attr 6) : p.name ≠ none := by
  have h := (C150_standard_partial hc stdDb_codes.1 n hn o ho).1
  have hstd : ∀ q ∈ standardProps stdDb o.grp o.cls, q.name ≠ none := by
    have hcl : ∀ g k, ∀ q ∈ classProps stdDb g k, q.name ≠ none := by
      intro g k q hq
      unfold classProps at hq
      split at hq
      · cases hq
      · rename_i d hd; exact (stdDb_codes.2 d (List.mem_of_find?_eq_some hd)).2 q hq
    intro q hq
    unfold standardProps at hq
    rcases List.mem_append.1 hq with hq | hq
    · exact hcl _ _ q hq
    · exact hcl _ _ q (List.mem_filter.1 hq).1
  generalize o.props = ps at h hp
  generalize standardProps stdDb o.grp o.cls = qs at h hstd
  induction h with
  | rest h =>
    obtain ⟨_, h1, h2, h3⟩ := h p hp
    rcases hr with hr | hr | hr
    · exact absurd hr h1
    · exact absurd hr h2
    · exact absurd hr h3
  | cons h1 _ ih =>
    rcases List.mem_cons.1 hp with rfl | hp
    · rw [h1.2.1]; exact hstd _ (by simp)
    · exact ih hp (fun q hq => hstd q (by simp [hq]))

/-! ## a controller with the standard database -/

/-- an illuminance sensor and something unknown say that they are there -/
def fList : Frame := ⟨(0, 1), (0x0E, 0xF0, 0x01), (0x0E, 0xF0, 0x01), 0x72, .plain [(0xD6, [2, 0x00, 0xD0, 0x01, 0x05, 0x01, 0x01])]⟩
def fStart : Res (Node × List Effect) := Node.new .little stdDb (fun _ => 0) (fun _ => 0) 0
def fRecv (n : Node) : Res (Ctrl × Heap × List CEvent) :=
  (Ctrl.new n none).receive .little stdDb kOrc kHeap none (some "10.0.0.2") (encode fList)
/-- what the controller knows about the sensor's map of properties that can be written -/
def fMap : Option (List (Option String × CInt × Nat)) :=
  match fStart with
  | .ub => none
  | .ok (n, _) =>
    match fRecv n with
    | .ub => none
    | .ok (c, _) => some (c.nodes.flatMap fun n => (n.objs.filter fun o => o.grp == 0x00#8 && o.cls == 0xD0#8).flatMap fun o =>
        (o.props.filter fun p => p.code == 0x9E#8).map fun p => (p.name, p.attr, o.props.length))

theorem fMap_eq : fMap = some [(some "Set property map", 1#32, 26)] := by decide +kernel

/-- **C150 violated: the maps.** The standard says that the map of the properties that can be written is to be read of every object; a
controller that found an illuminance sensor knows it as a property that need not be. -/
theorem C150_maps_violated : ∃ c n o p, CtrlReach .little stdDb c ∧ n ∈ c.nodes ∧ o ∈ n.objs ∧ o.grp = 0x00 ∧ o.cls = 0xD0 ∧
    p ∈ o.props ∧ p.code = 0x9E ∧ ¬ hasBit p.attr 4 ∧
    ∃ q ∈ standardProps stdDb 0x00 0xD0, q.code = 0x9E ∧ hasBit q.attr 4 := by
  have hm := fMap_eq
  unfold fMap at hm
  cases h1 : fStart with
  | ub => rw [h1] at hm; cases hm
  | ok r =>
    obtain ⟨n0, eff⟩ := r
    rw [h1] at hm
    simp only at hm
    cases h2 : fRecv n0 with
    | ub => rw [h2] at hm; cases hm
    | ok r =>
      obtain ⟨c, h, ev⟩ := r
      rw [h2] at hm
      simp only [Option.some.injEq] at hm
      have hx := hm ▸ List.mem_singleton.2 rfl
      obtain ⟨n, hn, hx⟩ := List.mem_flatMap.1 hx
      obtain ⟨o, ho, hx⟩ := List.mem_flatMap.1 hx
      obtain ⟨p, hp, hx⟩ := List.mem_map.1 hx
      rw [List.mem_filter] at ho hp
      simp only [Bool.and_eq_true, beq_iff_eq] at ho hp
      simp only [Prod.mk.injEq] at hx
      refine ⟨c, n, o, p, .receive kOrc none "10.0.0.2" _ (.new none (.new _ _ _ h1)) h2, hn, ho.1, ho.2.1, ho.2.2, hp.1, hp.2, ?_, ?_⟩
      · rw [hx.2.1]; unfold hasBit; decide
      · have : ((standardProps stdDb 0x00 0xD0).any fun q => q.code == 0x9E#8 && q.attr.getLsbD 4) = true := by decide +kernel
        obtain ⟨q, hq, hb⟩ := List.any_eq_true.1 this
        simp only [Bool.and_eq_true, beq_iff_eq] at hb
        exact ⟨q, hq, hb.1, hb.2⟩

/-- non-vacuity of the two theorems above: the controller, its node and the sensor just shown; the sensor has 26 properties, among them eight
that have to be read -/
example : (standardProps stdDb 0x00 0xD0).length = 26 ∧ ((standardProps stdDb 0x00 0xD0).filter fun q => q.attr.getLsbD 4).length = 8 ∧
    className stdDb 0x00 0xD0 = some "Illuminance sensor" := by decide +kernel

/-- **C150 violated: unknown classes.** An object of a class that the standard database does not have is called "Super class". -/
theorem C150_unknown_violated {e : Endian} {c : Ctrl} (hc : CtrlReach e stdDb c) (n : Node) (hn : n ∈ c.nodes) (o : Obj) (ho : o ∈ n.objs)
    (hk : ∀ d ∈ stdDb, ¬ (d.grp = o.grp ∧ d.cls = o.cls)) : o.name = some "Super class" := by
  rw [(C150_standard_partial hc stdDb_codes.1 n hn o ho).2]
  have h1 : className stdDb o.grp o.cls = none := by
    unfold className
    rw [List.find?_eq_none.2]
    · rfl
    · intro d hd; simpa using hk d hd
  have h2 : className stdDb 0 0 = some "Super class" := by decide +kernel
  rw [h1, h2]; rfl

/-- non-vacuity: the controller above found such an object -/
example : (match fStart with
    | .ub => false
    | .ok (n, _) => match fRecv n with
      | .ub => false
      | .ok (c, _) => c.nodes.any fun n => n.objs.any fun o => stdDb.all (fun d => !(d.grp == o.grp && d.cls == o.cls)) && o.name == some "Super class") = true := by
  decide +kernel

end Uecho.Props
