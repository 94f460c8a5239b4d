import Verif.Model.Basic
/-!
# wrapper/objc/uEcho: which memory the Objective-C objects refer to

The objects of the wrapper hold pointers into memory of the C library. Memory that is freed together is one region: a message or property made by
`init`, a controller, the table of its nodes with their objects and properties, a message that arrived, and the response of a post. The wrapper is
compiled with reference counting (wrapper/objc/xcode/uEcho4ObjC.xcodeproj/project.pbxproj:327): an object is deallocated when the program lets
go of it, once, and is not used afterwards. What the calls do with the values is in the other files; here is only what they touch and free. Allocation
succeeds, pointers are not replaced with the setter of `cObject`, and the receiving threads do not run at the same time as other calls.
-/
namespace Uecho.ObjC
open Uecho

/-- What a region holds. -/
inductive Kind where
  | message
  | property
  | controller
  | table
  | arrived
  | response
deriving DecidableEq

structure Region where
  kind : Kind
  live : Bool
deriving DecidableEq

/-- An object of the wrapper: the region that its pointer is in, `isWeakObject` (wrapper/objc/uEcho/CGEchoMessage.m:17,
wrapper/objc/uEcho/CGEchoProperty.m:17; nodes and objects free nothing, wrapper/objc/uEcho/CGEchoNode.m:30-32,
wrapper/objc/uEcho/CGEchoObject.m:28-30), for a controller the region of its nodes, and whether the program still holds it. -/
structure Wrap where
  region : Nat
  weak : Bool
  table : Option Nat
  held : Bool
deriving DecidableEq

/-- Regions and objects, numbered in the order in which they were made. -/
structure St where
  regions : List Region
  wraps : List Wrap
deriving DecidableEq

/-- What a program can do. Objects are named by their numbers. -/
inductive Op where
  | newMessage
  | newProperty
  | newController
  /-- any call that reads or changes something: `code`, `addProperty`, `setData`, `search`, … -/
  | call (w : Nat)
  /-- one element of `properties`, `setproperties`, `getproperties` or `objects` -/
  | part (w : Nat)
  /-- one element of `nodes` -/
  | node (w : Nat)
  | start (w : Nat)
  /-- `postMessage` at controller `w` for node `n`, object `o` and message `m`; whether there is a response -/
  | post (w n o m : Nat) (ok : Bool)
  /-- the observer of controller `w` is called: the node and the message are objects that it may keep -/
  | arrives (w : Nat)
  /-- the call of the observer that made region `r` returns -/
  | returned (r : Nat)
  /-- the program lets go of an object -/
  | release (w : Nat)

/-- The object, if the program holds it. -/
def held (s : St) (w : Nat) : Option Wrap := s.wraps[w]?.filter (·.held)

/-- Reading or writing memory. -/
def touch (s : St) (r : Nat) : Res Unit :=
  match s.regions[r]? with
  | some ⟨_, true⟩ => .ok ()
  | _ => .ub

/-- `free` of the memory. -/
def free (s : St) (r : Nat) : Res St :=
  match s.regions[r]? with
  | some ⟨k, true⟩ => .ok { s with regions := s.regions.set r ⟨k, false⟩ }
  | _ => .ub

/-- Memory is allocated. -/
def alloc (s : St) (k : Kind) : St × Nat := ({ s with regions := s.regions ++ [⟨k, true⟩] }, s.regions.length)

/-- An object is made. -/
def wrap (s : St) (r : Nat) (weak : Bool) (table : Option Nat) : St := { s with wraps := s.wraps ++ [⟨r, weak, table, true⟩] }

/-- `init` of a message or property — wrapper/objc/uEcho/CGEchoMessage.m:21-28, wrapper/objc/uEcho/CGEchoProperty.m:20-30. -/
def newObject (s : St) (k : Kind) : St :=
  let (s, r) := alloc s k
  wrap s r false none

/-- `init` of a controller — wrapper/objc/uEcho/CGEchoController.m:22-35. -/
def newController (s : St) : St :=
  let (s, r) := alloc s .controller
  let (s, t) := alloc s .table
  wrap s r false (some t)

/-- A call — for example wrapper/objc/uEcho/CGEchoProperty.m:49-116. -/
def call (s : St) (w : Wrap) : Res St := do
  let _ ← touch s w.region
  return s

/-- An element of a list — wrapper/objc/uEcho/CGEchoMessage.m:46-86, wrapper/objc/uEcho/CGEchoNode.m:44-53,
wrapper/objc/uEcho/CGEchoObject.m:32-42: the pointer is into the same region, and is not freed. -/
def part (s : St) (w : Wrap) : Res St := do
  let _ ← touch s w.region
  return wrap s w.region true none

/-- `nodes` — wrapper/objc/uEcho/CGEchoController.m:44-54. -/
def node (s : St) (w : Wrap) : Res St :=
  match w.table with
  | none => .ok s
  | some t => do
      let _ ← touch s w.region
      let _ ← touch s t
      return wrap s t true none

/-- `start` — wrapper/objc/uEcho/CGEchoController.m:56-61; `uecho_controller_start` deletes the nodes (src/uecho/controller.c:122-133). -/
def start (s : St) (i : Nat) (w : Wrap) : Res St :=
  match w.table with
  | none => .ok s
  | some t => do
      let _ ← touch s w.region
      let s ← free s t
      let (s, t) := alloc s .table
      return { s with wraps := s.wraps.set i { w with table := some t } }

/-- `postMessage` — wrapper/objc/uEcho/CGEchoController.m:94-110. The object for the response is made with `initWithCObject`, which makes it weak
(wrapper/objc/uEcho/CGEchoMessage.m:30-37). The response is allocated before the others are used, which makes no difference. -/
def post (s : St) (w n o m : Wrap) (ok : Bool) : Res St := do
  let _ ← touch s w.region
  let _ ← touch s m.region
  let _ ← touch s o.region
  let _ ← touch s n.region
  let (s, r) := alloc s .response
  if ok then return wrap s r true none
  else free s r

/-- `CGEchoControllerObserver` — wrapper/objc/uEcho/CGEchoController.m:114-143: two weak objects, first that of the node. -/
def arrives (s : St) (w : Wrap) : Res St :=
  match w.table with
  | none => .ok s
  | some t => do
      let _ ← touch s w.region
      let (s, r) := alloc s .arrived
      return wrap (wrap s t true none) r true none

/-- The receiver deletes the message that it has parsed — src/uecho/frame/udp_server.c:182, src/uecho/frame/mcast_server.c:177. -/
def returned (s : St) (r : Nat) : Res St :=
  match s.regions[r]? with
  | some ⟨.arrived, true⟩ => free s r
  | _ => .ok s

/-- `dealloc` — wrapper/objc/uEcho/CGEchoMessage.m:39-44, wrapper/objc/uEcho/CGEchoProperty.m:41-46,
wrapper/objc/uEcho/CGEchoController.m:37-42. -/
def dealloc (s : St) (i : Nat) (w : Wrap) : Res St :=
  let s := { s with wraps := s.wraps.set i { w with held := false } }
  if w.weak then .ok s
  else do
    let s ← free s w.region
    match w.table with
    | none => return s
    | some t => free s t

/-- One step of a program. What it does with objects that it does not hold cannot be written, and is left out. -/
def step (s : St) : Op → Res St
  | .newMessage => .ok (newObject s .message)
  | .newProperty => .ok (newObject s .property)
  | .newController => .ok (newController s)
  | .call i => match held s i with
      | none => .ok s
      | some w => call s w
  | .part i => match held s i with
      | none => .ok s
      | some w => part s w
  | .node i => match held s i with
      | none => .ok s
      | some w => node s w
  | .start i => match held s i with
      | none => .ok s
      | some w => start s i w
  | .post i n o m ok => match held s i, held s n, held s o, held s m with
      | some w, some n, some o, some m => post s w n o m ok
      | _, _, _, _ => .ok s
  | .arrives i => match held s i with
      | none => .ok s
      | some w => arrives s w
  | .returned r => returned s r
  | .release i => match held s i with
      | none => .ok s
      | some w => dealloc s i w

/-- A program. -/
def run : List Op → St → Res St
  | [], s => .ok s
  | o :: os, s => do
      let s ← step s o
      run os s

end Uecho.ObjC
