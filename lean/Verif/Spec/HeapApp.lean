import Verif.Spec.HeapNode
/-!
# What an application does with objects, nodes and controllers

A history is a list of steps: calls of the application, and datagrams that reach a node or a controller. The application names what it
holds by numbers, as in `Spec/Heap`; an object that belongs to a node is named by its place. A step that is not possible (a name that is not in use,
an object that is not there) does nothing.

Rules of use, beside those of `Spec/Heap` (each is needed: see `Props/HeapApp`):
* an object that was added to a node, and a property that was added to an object, belong to it;
* `uecho_object_setcode` and `uecho_object_setproperty` are called only while the maps of the object can be rebuilt (`mapsSafe`, `setSafe`), and a
  controller gets datagrams only while this is so for the objects of its nodes;
* the two messages of a post are different, and while a controller has stored pointers to them they are not deleted if datagrams still come.
-/
namespace Uecho.Spec
open Uecho Uecho.Heap

/-- Where an object is. -/
inductive Place where
  | loose (h : Nat)
  | ofNode (h : Nat) (code : Byte × Byte × Byte)
  | ofCtrl (h : Nat) (code : Byte × Byte × Byte)
  | remote (h : Nat) (addr : String) (code : Byte × Byte × Byte)

/-- A call on an object. -/
inductive ObjCall where
  | setCode (g c i : Byte)
  | setGroup (g : Byte)
  | setClass (c : Byte)
  | setProp (code : Byte) (attr : CInt)
  | setData (code : Byte) (d : List Byte)
  | setInteger (code : Byte) (v : CInt) (size : Nat)
  | setAttr (code : Byte) (attr : CInt)
  | get (code : Byte)
  | handler (esv code : Byte)
  | clear

/-- A step of a history. -/
inductive Step where
  | basic (c : Call)
  | objNew (h : Nat)
  | deviceNew (h : Nat)
  | obj (p : Place) (c : ObjCall)
  | addProp (p : Place) (h : Nat)
  | objDelete (h : Nat)
  | nodeNew (h : Nat) (id : List Byte)
  | nodeAdd (h o : Nat)
  | nodeSet (h : Nat) (code : Byte × Byte × Byte)
  | nodeAddr (h : Nat) (v : Option String)
  | nodeStart (h : Nat)
  | nodeStop (h : Nat)
  | nodeAnnounce (h : Nat)
  | nodeRecv (h : Nat) (d : List Byte) (src : String)
  | nodeClear (h : Nat)
  | nodeDelete (h : Nat)
  | ctrlNew (h : Nat) (id : List Byte)
  | ctrlStart (h : Nat)
  | ctrlStop (h : Nat)
  | ctrlSearch (h : Nat)
  | ctrlRecv (h : Nat) (d : List Byte) (src : String) (id : List Byte)
  | ctrlPost (h : Nat) (dst : String) (req res : Nat) (arrive : List (List Byte × String)) (id : List Byte)
  | ctrlDelete (h : Nat)

/-- What the application holds. -/
structure App where
  held : Held
  objs : List (Nat × HObj)
  nodes : List (Nat × HNode)
  ctrls : List (Nat × HCtrl)

/-- All the blocks of what the application holds. -/
def App.blocks (w : App) : List Nat :=
  w.held.blocks ++ w.objs.flatMap (fun x => objF x.2) ++ w.nodes.flatMap (fun x => nodeF x.2) ++ w.ctrls.flatMap (fun x => ctrlF x.2)

/-- It holds nothing. -/
def App.empty : App := ⟨.empty, [], [], []⟩

/-- Setting the property leaves maps that can be rebuilt. -/
def setSafe (o : HObj) (code : Byte) (attr : CInt) : Bool :=
  o.getSize == 0 || (attr &&& (Attr.read ||| Attr.readRequired) != 0) || o.props.any (fun p => p.code != code && p.val.isReadable)

/-- A call on an object. -/
def objCall (db : HDb) (c : ObjCall) (ann : Announcer) (o : HObj) : H HObj :=
  match c with
  | .setCode g c i => if mapsSafe o then objSetCode ann db o g c i else pure o
  | .setGroup g => objSetGroup db o g
  | .setClass c => objSetClass db o c
  | .setProp code attr => if setSafe o code attr then objSetProperty ann o code attr else pure o
  | .setData code d => objSetData ann o code d
  | .setInteger code v size => if 1 ≤ size ∧ size ≤ 4 then objSetInteger ann o code v size else pure o
  | .setAttr code attr => objSetAttr o code attr
  | .get code => do
      let r ← objGetData o code
      return r.1
  | .handler esv code => objSetHandler o esv code
  | .clear => objClear o

/-- The object of a node. -/
def nodeHas (n : HNode) (code : Byte × Byte × Byte) : Bool := n.objs.any fun o => o.is code

/-- There is an object at the place. -/
def App.has (w : App) : Place → Bool
  | .loose h => (pick h w.objs).isSome
  | .ofNode h code => (pick h w.nodes).any fun r => nodeHas r.1 code
  | .ofCtrl h code => (pick h w.ctrls).any fun r => nodeHas r.1.node code
  | .remote h addr code => (pick h w.ctrls).any fun r => (r.1.nodes.find? fun n => n.at addr).any fun n => nodeHas n code

/-- A function on the object at a place. -/
def onObj (e : Env) (w : App) (f : Announcer → HObj → H HObj) : Place → H App
  | .loose h =>
      match pick h w.objs with
      | none => pure w
      | some (o, l) => do
          let o ← f silent o
          return { w with objs := (h, o) :: l }
  | .ofNode h code =>
      match pick h w.nodes with
      | none => pure w
      | some (n, l) => do
          let n ← inNode e n code f
          return { w with nodes := (h, n) :: l }
  | .ofCtrl h code =>
      match pick h w.ctrls with
      | none => pure w
      | some (c, l) => do
          let n ← inNode e c.node code f
          return { w with ctrls := (h, { c with node := n }) :: l }
  | .remote h addr code =>
      match pick h w.ctrls with
      | none => pure w
      | some (c, l) => do
          let r ← findNode c addr
          match r with
          | none => pure w
          | some (pre, n, post) => do
              let n ← inNode e n code f
              return { w with ctrls := (h, { c with nodes := pre ++ n :: post }) :: l }

/-- A function on a node. -/
def onNode (w : App) (h : Nat) (f : HNode → H HNode) : H App :=
  match pick h w.nodes with
  | none => pure w
  | some (n, l) => do
      let n ← f n
      return { w with nodes := (h, n) :: l }

/-- A function on a controller. -/
def onCtrl (w : App) (h : Nat) (f : HCtrl → H HCtrl) : H App :=
  match pick h w.ctrls with
  | none => pure w
  | some (c, l) => do
      let c ← f c
      return { w with ctrls := (h, c) :: l }

/-- The maps of the objects of all the nodes of a controller can be rebuilt. -/
def ctrlSafe (c : HCtrl) : Bool := c.nodes.all fun n => n.objs.all mapsSafe

/-- A datagram for a controller. -/
def recvAt (e : Env) (db : HDb) (w : App) (h : Nat) (d : List Byte) (src : String) (id : List Byte) (c : HCtrl) (l : List (Nat × HCtrl)) : H App :=
  match c.post with
  | none => do
      let r ← ctrlReceive e db id d src (c, none)
      return { w with ctrls := (h, r.1) :: l }
  | some (a, b) =>
      match splitBy (fun x => x.2.self == a) w.held.msgs with
      | none => pure w
      | some (pre, q, post) =>
          match splitBy (fun x => x.2.self == b) (pre ++ post) with
          | none => pure w
          | some (pre', s, post') => do
              let r ← ctrlReceive e db id d src (c, some (q.2, s.2))
              match r.2 with
              | some (x, y) => pure { w with ctrls := (h, r.1) :: l, held := { w.held with msgs := (q.1, x) :: (s.1, y) :: (pre' ++ post') } }
              | none => undef

/-- One step. -/
def step (e : Env) (db : HDb) (w : App) : Step → H App
  | .basic c => do
      let s ← call w.held c
      return { w with held := s }
  | .objNew h => if unused h w.objs then do
      let o ← Heap.objNew
      return { w with objs := (h, o) :: w.objs }
      else pure w
  | .deviceNew h => if unused h w.objs then do
      let r ← Heap.deviceNew db
      match r with
      | none => pure w
      | some o => pure { w with objs := (h, o) :: w.objs }
      else pure w
  | .obj p c => onObj e w (objCall db c) p
  | .addProp p h => if w.has p then
      match pick h w.held.props with
      | none => pure w
      | some (q, l) => onObj e { w with held := { w.held with props := l } } (fun _ o => objAddProperty o q) p
      else pure w
  | .objDelete h =>
      match pick h w.objs with
      | none => pure w
      | some (o, l) => do
          Heap.objDelete o
          return { w with objs := l }
  | .nodeNew h id => if unused h w.nodes then do
      let n ← Heap.nodeNew e db id
      return { w with nodes := (h, n) :: w.nodes }
      else pure w
  | .nodeAdd h o =>
      match pick h w.nodes, pick o w.objs with
      | some (n, l), some (x, l') => do
          let r ← Heap.nodeAdd e n x
          match r.2 with
          | none => pure { w with nodes := (h, r.1) :: l, objs := l' }
          | some y => pure { w with nodes := (h, r.1) :: l, objs := (o, y) :: l' }
      | _, _ => pure w
  | .nodeSet h code => onNode w h fun n => nodeSetObject e db n code
  | .nodeAddr h v => onNode w h fun n => nodeSetAddr n v
  | .nodeStart h => onNode w h (Heap.nodeStart e)
  | .nodeStop h => onNode w h Heap.nodeStop
  | .nodeAnnounce h => onNode w h fun n => do
      let _ ← Heap.nodeAnnounce e n
      return n
  | .nodeRecv h d src => onNode w h fun n => receive e d src n (nodeHandle e)
  | .nodeClear h => onNode w h Heap.nodeClear
  | .nodeDelete h =>
      match pick h w.nodes with
      | none => pure w
      | some (n, l) => do
          Heap.nodeDelete n
          return { w with nodes := l }
  | .ctrlNew h id => if unused h w.ctrls then do
      let c ← Heap.ctrlNew e db id
      return { w with ctrls := (h, c) :: w.ctrls }
      else pure w
  | .ctrlStart h => onCtrl w h (Heap.ctrlStart e)
  | .ctrlStop h => onCtrl w h Heap.ctrlStop
  | .ctrlSearch h => onCtrl w h fun c => do
      let _ ← Heap.ctrlSearch e c
      return c
  | .ctrlRecv h d src id =>
      match pick h w.ctrls with
      | none => pure w
      | some (c, l) => if ctrlSafe c then recvAt e db w h d src id c l else pure w
  | .ctrlPost h dst req res arrive id =>
      match pick h w.ctrls with
      | none => pure w
      | some (c, l) =>
        match pick req w.held.msgs with
        | none => pure w
        | some (q, ms) =>
          match pick res ms with
          | none => pure w
          | some (s, ms) =>
              if ctrlSafe c then do
                let r ← Heap.ctrlPost e db id c dst q s arrive
                return { w with ctrls := (h, r.1) :: l, held := { w.held with msgs := (req, r.2.1) :: (res, r.2.2) :: ms } }
              else pure w
  | .ctrlDelete h =>
      match pick h w.ctrls with
      | none => pure w
      | some (c, l) => do
          Heap.ctrlDelete c
          return { w with ctrls := l }

/-- A history. -/
def steps (e : Env) (db : HDb) : List Step → App → H App
  | [], w => pure w
  | s :: l, w => do
      let w ← step e db w s
      steps e db l w

/-- The application deletes everything it holds. -/
def App.closing (w : App) : List Step :=
  w.held.props.map (fun x => .basic (.propDelete x.1)) ++ w.held.msgs.map (fun x => .basic (.msgDelete x.1)) ++
    w.objs.map (fun x => .objDelete x.1) ++ w.nodes.map (fun x => .nodeDelete x.1) ++ w.ctrls.map (fun x => .ctrlDelete x.1)

end Uecho.Spec
