import Verif.Lemmas.HeapApp
import Verif.Lemmas.PropertyMap
import Verif.Spec.ControllerApi
/-! # C108–C111: memory of objects, nodes and controllers -/
namespace Uecho.Props
open Uecho Uecho.Spec Uecho.Lemmas Uecho.Lemmas.Blocks Uecho.Heap

/-- **C108**: whatever an application does with objects, nodes and controllers, in any order, by the rules of use in `Spec/HeapApp`, and whatever
datagrams arrive in between, whatever the operating system answers: no freed block is used or freed again, and the blocks allocated are
those that were allocated before and exactly those of what the application still holds. -/
theorem C108_histories_memory_safe (e : Env) (db : HDb) (l : List Step) (m0 : Mem) (h : Sound m0) (before : List Nat)
    (hdb : m0.live.Perm (dbF db ++ before)) :
    ∃ w m, steps e db l .empty m0 = .ok (w, m) ∧ Sound m ∧ m.live.Perm (dbF db ++ w.blocks ++ before) := by
  obtain ⟨w, m, e1, o, _⟩ := steps_triple e db l empty_ok before m0 ⟨by simpa [App.blocks, App.empty, Held.blocks, Held.empty] using hdb, h⟩
  exact ⟨w, m, e1, o.2, o.1⟩

/-- What a history has left, and that everything is as it should be. -/
theorem reach {e : Env} {db : HDb} {l : List Step} {m0 : Mem} (h : Sound m0) {before : List Nat} (hdb : m0.live.Perm (dbF db ++ before))
    {w : App} {m : Mem} (hr : steps e db l .empty m0 = .ok (w, m)) : AppOk w ∧ Owns (dbF db ++ w.blocks) before m := by
  obtain ⟨w', m', e1, o, ok⟩ := steps_triple e db l empty_ok before m0 ⟨by simpa [App.blocks, App.empty, Held.blocks, Held.empty] using hdb, h⟩
  rw [hr] at e1
  cases e1
  exact ⟨ok, o⟩

/-- **C109**: after any history the application can delete everything it holds, in any state it is in, and then the heap is as it was. -/
theorem C109_no_leak (e : Env) (db : HDb) (l : List Step) (m0 : Mem) (h : Sound m0) (before : List Nat) (hdb : m0.live.Perm (dbF db ++ before))
    (w : App) (m : Mem) (hr : steps e db l .empty m0 = .ok (w, m)) :
    ∃ m', steps e db w.closing w m = .ok (.empty, m') ∧ m'.live.Perm m0.live := by
  obtain ⟨ok, o⟩ := reach h hdb hr
  obtain ⟨w', m', e1, o', rfl⟩ := closing_triple e db ok before m o
  exact ⟨m', e1, o'.1.trans (by simpa [App.blocks, App.empty, Held.blocks, Held.empty] using hdb.symm)⟩

/-- **C110**: whatever datagrams a node gets, and however many, the memory that is allocated grows by no more than two blocks for each property
of the node. -/
theorem C110_node_memory_bounded (e : Env) (db : HDb) (l : List Step) (m0 : Mem) (h : Sound m0) (before : List Nat)
    (hdb : m0.live.Perm (dbF db ++ before)) (w : App) (m : Mem) (hr : steps e db l .empty m0 = .ok (w, m))
    (k : Nat) (n : HNode) (others : List (Nat × HNode)) (hk : pick k w.nodes = some (n, others)) (ds : List (List Byte × String)) :
    ∃ w' m', steps e db (ds.map fun d => .nodeRecv k d.1 d.2) w m = .ok (w', m') ∧
      m'.live.length ≤ m.live.length + 2 * (n.objs.map fun o => o.props.length).sum := by
  obtain ⟨ok, o⟩ := reach h hdb hr
  obtain ⟨w', m', e1, o', hb⟩ := datagrams_triple e db k ds ok hk before m o
  refine ⟨w', m', e1, ?_⟩
  have h1 := o.1.length_eq
  have h2 := o'.1.length_eq
  simp only [List.length_append] at h1 h2
  omega

/-- **C111**, what holds: a controller that was made at any point of a history, and waits for no response, has after any number of datagrams no more
than one node for each address that sent one, however many came from it. -/
theorem C111_one_node_per_address_partial (e : Env) (db : HDb) (l : List Step) (m0 : Mem) (h : Sound m0) (before : List Nat)
    (hdb : m0.live.Perm (dbF db ++ before)) (w : App) (m : Mem) (hr : steps e db l .empty m0 = .ok (w, m)) (k : Nat)
    (hk : unused k w.ctrls = true) (id : List Byte) (ds : List (List Byte × String × List Byte)) :
    ∃ w' m' c others, ∃ as : List String, steps e db (.ctrlNew k id :: ds.map fun d => .ctrlRecv k d.1 d.2.1 d.2.2) w m = .ok (w', m') ∧
      pick k w'.ctrls = some (c, others) ∧ c.nodes.map (fun n => n.addr.val.map (·.2)) = as.map some ∧ as.Nodup ∧
      ∀ a ∈ as, a ∈ ds.map (·.2.1) := by
  obtain ⟨ok, o⟩ := reach h hdb hr
  obtain ⟨w', m', e1, _, c, l', as, h1, h2, h3, h4⟩ := fresh_triple e db k id ds ok hk before m o
  exact ⟨w', m', c, l', as, e1, h1, h2.addrs.2.1, h2.addrs.2.2, h3⟩

/-- **C111** fails: nothing limits what a controller stores. Whoever can send datagrams with many source addresses makes it allocate at least one
block for each of them, whatever is in the datagram besides a list of instances that is not empty. -/
theorem C111_controller_memory_violated (e : Env) (db : HDb) (l : List Step) (m0 : Mem) (h : Sound m0) (before : List Nat)
    (hdb : m0.live.Perm (dbF db ++ before)) (w : App) (m : Mem) (hr : steps e db l .empty m0 = .ok (w, m)) (k : Nat)
    (hk : unused k w.ctrls = true) (id : List Byte) (f : Frame) (hf : f.WF) (x : Byte) (d : List Byte) (ha : SearchAnswer f (x :: d))
    (as : List String) (hn : as.Nodup) :
    ∃ w' m', steps e db (.ctrlNew k id :: as.map fun a => .ctrlRecv k (encode f) a id) w m = .ok (w', m') ∧ as.length ≤ m'.live.length := by
  obtain ⟨ok, o⟩ := reach h hdb hr
  obtain ⟨w', m', e1, o', c, l', as', h1, h2, h3, h4⟩ := fresh_triple e db k id (as.map fun a => (encode f, a, id)) ok hk before m o
  rw [List.map_map] at e1
  refine ⟨w', m', e1, ?_⟩
  have hsub : ∀ a ∈ as, a ∈ as' := fun a ha' => h4 (encode f, a, id) (List.mem_map.2 ⟨a, ha', rfl⟩) ⟨f, [], x, d, by simp, hf, ha⟩
  have n1 : as.length ≤ as'.length := nodup_length_le hn hsub
  have n2 := congrArg List.length h2.addrs.2.1
  have n3 := ctrl_blocks h1
  have n4 := o'.1.length_eq
  simp only [List.length_map, List.length_append] at n2 n4
  omega

/-! ### The rules of use are needed -/

/-- `uecho_node_delete` frees the objects of the node before it stops the threads of its server: a message that is handled in between reads freed
memory, whatever the message and the node. -/
theorem C108_delete_running_node_violated (n : HNode) (m : Mem) (h : Sound m) (before : List Nat) (hm : m.live.Perm (nodeF n ++ before)) :
    ∃ m', nodeDrop n m = .ok ((), m') ∧ ∀ e msg, nodeHandle e n msg m' = .ub := by
  obtain ⟨_, m', e1, o, _⟩ := nodeDrop_triple n before m ⟨hm, h⟩
  refine ⟨m', e1, fun e msg => ?_⟩
  have hd : (nodeF n ++ before).Nodup := hm.nodup h.1
  have hl : n.olist ∉ m'.live := by
    intro hin
    have hin := o.1.mem_iff.1 hin
    simp only [nodeF] at hd
    have c := List.nodup_iff_count.1 hd n.olist
    have c' := List.count_pos_iff.2 hin
    simp only [List.count_append, List.count_cons, List.count_nil, beq_self_eq_true, if_true] at c c'
    omega
  have hu : touchObjs n m' = .ub := by
    simp only [touchObjs, touch]
    by_cases hs : n.self ∈ m'.live
    · simp [bind_run, use, hs, hl]
    · simp [bind_run, bind_ub, use, hs]
  by_cases hs : msg.self ∈ m'.live
  · simp [nodeHandle, bind_run, bind_ub, use, hs, hu]
  · simp [nodeHandle, bind_run, bind_ub, use, hs]

/-- A handler that sets a handler for its own request (for example to remove itself) frees the list node of the loop that has called it. -/
theorem C108_handler_replaces_itself_violated (o : HObj) (x : HObs) (pre post : List HObs) (m : Mem) (h : Sound m)
    (hx : splitBy (fun y => x.esv == y.esv && x.code == y.code) o.obs = some (pre, x, post)) :
    notifyOne x (fun o => objSetHandler o x.esv x.code) o m = .ub := by
  by_cases hs : x.self ∈ m.live
  · simp only [notifyOne, objSetHandler, bind_run, bind_ub, hx]
    rcases touch_or (o.self :: o.mgr :: o.olist :: o.obs.map HObs.self) m with t | t
    · have h1 : x.self ≠ m.next := Nat.ne_of_lt (h.2 _ hs)
      have h2 : x.self ∉ m.live.erase x.self := fun hin => ((List.Nodup.mem_erase_iff h.1).1 hin).1 rfl
      simp [t, use, free, hs, malloc, pure_run, bind_run, bind_ub, h1, h2]
    · simp [t, use, hs]
  · simp [notifyOne, bind_run, bind_ub, use, hs]

/-- A handler that adds a property with the code of the request frees the property that is about to be written. -/
theorem C108_handler_replaces_property_violated (o : HObj) (p q : HProp) (pre post : List HProp) (m : Mem) (h : Sound m) (before : List Nat)
    (hm : m.live.Perm (objF o ++ propF q ++ before)) (hp : splitBy (fun y => y.code == q.code) o.props = some (pre, p, post)) :
    ∃ o' m', objAddProperty o q m = .ok (o', m') ∧ use p.self m' = .ub := by
  obtain ⟨o', m', e1, ow, -⟩ := replace_triple o p q pre post hp before m ⟨hm, h⟩
  refine ⟨o', m', e1, ?_⟩
  obtain ⟨e, -⟩ := splitBy_eq hp
  have hd : (objF o ++ propF q ++ before).Nodup := hm.nodup h.1
  have hl : p.self ∉ m'.live := by
    intro hin
    have hin := ow.1.mem_iff.1 hin
    have c := List.nodup_iff_count.1 hd p.self
    have c' := List.count_pos_iff.2 hin
    simp only [objF, e, propsF_append, propsF_cons] at c c'
    have c2 : 0 < List.count p.self (propF p) := List.count_pos_iff.2 (by simp [propF])
    simp only [List.count_append] at c c'
    omega
  simp [use, hl]

/-- Nothing works: no interfaces, no sockets, no memory for handlers. -/
def deadEnv : Env := ⟨fun _ => false, fun _ => [], fun _ => none, fun _ => []⟩

/-- One interface, everything works, and handlers write `31` into the operation status. -/
def liveEnv : Env := ⟨fun _ => true, fun _ => ["192.168.0.1"], fun _ => some "192.168.0.1", fun _ => [(0x80, [0x31])]⟩

/-- An empty database, in the first two blocks. -/
def db0 : HDb := ⟨0, 1, []⟩
def heap0 : Mem := ⟨[0, 1], 2⟩

/-- A notification of the instances, with one object `029101`; and a write request `31` to the operation status of that object. -/
def announcement : List Byte := [0x10, 0x81, 0, 1, 0x0E, 0xF0, 1, 0x0E, 0xF0, 1, 0x73, 1, 0xD6, 4, 1, 2, 0x91, 1]
def writeOn : List Byte := [0x10, 0x81, 0, 1, 5, 0xFF, 1, 2, 0x91, 1, 0x61, 1, 0x80, 1, 0x30]

/-- A post that could not be sent leaves its two pointers in the controller; the next datagram after the messages are deleted reads them. -/
def failedPost : H (HCtrl × Option (HMsg × HMsg)) := do
  let c ← ctrlNew deadEnv db0 [1]
  let r ← ctrlReceive deadEnv db0 [1] announcement "192.168.0.2" (c, none)
  let q ← msgNew
  let s ← msgNew
  let p ← ctrlPost deadEnv db0 [1] r.1 "192.168.0.2" q s []
  msgDelete p.2.1
  msgDelete p.2.2
  ctrlReceive deadEnv db0 [1] announcement "192.168.0.2" (p.1, none)

theorem C108_failed_post_violated : failedPost heap0 = .ub := by decide +kernel

/-- The same property added twice to an object: it deletes its own entry, and the object is left with freed memory. -/
def addTwice : H Unit := do
  let o ← objNew
  let p ← propNew
  let o ← objAddProperty o p
  let o ← objAddProperty o p
  objDelete o

theorem C108_added_twice_violated : addTwice heap0 = .ub := by decide +kernel

/-- An object whose properties were cleared gets a code again: the caches of the maps are gone but their sizes are not, and the maps are copied from NULL. -/
def codeAfterClear : H HObj := do
  let o ← objNew
  let o ← objSetCode silent db0 o 2 0x91 1
  let o ← objSetCode silent db0 o 2 0x91 1
  let o ← objClear o
  objSetCode silent db0 o 2 0x91 1

theorem C108_code_after_clear_violated : codeAfterClear heap0 = .ub := by decide +kernel

/-! ### A history -/

/-- A node with an object and a handler, started; a write request reaches it; a controller is started, hears of a node and posts a message, and another
node announces itself meanwhile. -/
def history : List Step :=
  [.nodeNew 0 [1], .objNew 0, .obj (.loose 0) (.setCode 2 0x91 1), .obj (.loose 0) (.setProp 0x80 0x35), .obj (.loose 0) (.handler 0x61 0x80),
   .nodeAdd 0 0, .nodeStart 0, .nodeRecv 0 writeOn "192.168.0.2", .ctrlNew 0 [1], .ctrlStart 0, .ctrlRecv 0 announcement "192.168.0.2" [1],
   .basic (.msgNew 0), .basic (.msgNew 1), .ctrlPost 0 "192.168.0.2" 0 1 [(announcement, "192.168.0.3")] [1], .nodeStop 0]

example : Sound heap0 := by unfold Sound; decide +kernel
example : heap0.live.Perm (dbF db0 ++ []) := .refl _
/-- Everything in the history takes place: the node has its profile and the object, the controller has met two nodes. -/
example : (match steps liveEnv db0 history .empty heap0 with
    | .ok (w, m) => (w.nodes.map fun x => x.2.objs.length, w.ctrls.map fun x => x.2.nodes.length, w.held.msgs.length, m.live.length)
    | .ub => ([], [], 0, 0)) = ([2], [2], 2, 246) := by decide +kernel
/-- When everything is deleted the heap is as it was. -/
example : (match steps liveEnv db0 history .empty heap0 with
    | .ok (w, m) => match steps liveEnv db0 w.closing w m with
      | .ok (w', m') => (w'.blocks, m'.live)
      | .ub => ([], [])
    | .ub => ([], [])) = ([], [0, 1]) := by decide +kernel
/-- A frame that announces instances, as C111 asks for. -/
example : announcement = encode ⟨(0, 1), (0x0E, 0xF0, 1), (0x0E, 0xF0, 1), 0x73, .plain [(0xD6, [1, 2, 0x91, 1])]⟩ := by decide +kernel
example : SearchAnswer ⟨(0, 1), (0x0E, 0xF0, 1), (0x0E, 0xF0, 1), 0x73, .plain [(0xD6, [1, 2, 0x91, 1])]⟩ [1, 2, 0x91, 1] := ⟨.inr (.inl rfl), rfl⟩

end Uecho.Props
