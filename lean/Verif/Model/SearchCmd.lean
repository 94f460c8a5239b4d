import Verif.Model.Controller
import Verif.Model.Database
/-!
# examples/controller/uechosearch: the command that lists what was found

`uechosearch -v`, after the search: for each node its manufacturer, and for each of its objects the properties that have to be read.
Datagrams are handled while the command waits for a response, one at a time, and not between; every send succeeds. Pointers into the lists of
nodes, objects and properties are positions: none of these is removed or moved (C51, C150). `int` counters do not overflow. Options, the start
of the controller and the layout of what is printed are left out.
-/
namespace Uecho.SearchCmd
open Uecho

/-- A datagram that arrives. -/
structure Arrival where
  orc : Oracle
  loc : Option String
  sender : String
  data : List Byte

/-- What is printed. -/
inductive Line where
  | node (addr : Option String) (maker : Option String)
  | object (no : Nat) (code : CInt) (name : Option String)
  /-- `data` is `none` if there is no response -/
  | property (objNo propNo : Nat) (code : Byte) (data : Option (List (List Byte))) (name : String)
deriving DecidableEq

/-- The command: the controller, how many requests were posted, what these posts sent, and what was printed. -/
structure St where
  c : Ctrl
  posts : Nat
  sent : List CEvent
  out : List Line

/-- `create_readpropertymessagebycode` — examples/controller/uechosearch/uechosearch.c:27-35. -/
def readRequest (code : CInt) (epc : Byte) : Res Message := do
  let m ← (Message.new.setEsv Esv.readRequest).setDestinationObjectCode code
  m.setProperty epc []

/-- The datagrams that arrive while the command waits; whether it is woken. -/
def arrivals (e : Endian) (db : Db) : List Arrival → Ctrl → Heap → Res (Ctrl × Heap × Bool)
  | [], c, h => .ok (c, h, false)
  | a :: as, c, h => do
      let (c, h, ev) ← c.receive e db a.orc h a.loc (some a.sender) a.data
      let (c, h, woken) ← arrivals e db as c h
      return (c, h, decide (CEvent.signal ∈ ev) || woken)

/-- `uecho_controller_postmessage` with a new response message — src/uecho/controller.c:482-518: the response, if there is one. `w k` is what
arrives before the `k`-th post ends. -/
def post (e : Endian) (db : Db) (w : Nat → List Arrival) (s : St) (addr : Option String) (req : Message) : Res (St × Option Message) := do
  let (c, h, ev, ok) ← s.c.postBegin e (fun p => if p = 0 then some req else if p = 1 then some Message.new else none) addr 0 1 true
  let s := { s with c := c, posts := s.posts + 1, sent := s.sent ++ ev }
  if ok then
    let (c, h, woken) ← arrivals e db (w (s.posts - 1)) c h
    return ({ s with c := c.postEnd }, if woken then h 1 else none)
  else return (s, none)

/-- `get_nodemanufacturename` — examples/controller/uechosearch/uechosearch.c:51-78. -/
def maker (e : Endian) (db : Db) (ms : List Std.Manufacture) (w : Nat → List Arrival) (s : St) (addr : Option String) :
    Res (St × Option String) := do
  let req ← readRequest 0x0EF001#32 0x8A#8
  let (s, res) ← post e db w s addr req
  match res with
  | none => return (s, none)
  | some m =>
    if m.opc = 1#8 then
      match ← m.getProperty 0 with
      | none => return (s, none)
      | some p =>
        let code ← byte2integer p.data
        return (s, (Std.getManufacture ms code).map (·.name))
    else return (s, none)

/-- The object at a position. -/
def objAt (c : Ctrl) (i j : Nat) : Option Obj := (c.nodes[i]?).bind fun n => n.objs[j]?

/-- The data of a response — examples/controller/uechosearch/uechosearch.c:123-133. -/
def answer : Option Message → Res (Option (List (List Byte)))
  | none => .ok none
  | some m => do
      let ps ← Message.slots m.opc m.ep
      return some (ps.map (·.data))

/-- The loop over the properties — examples/controller/uechosearch/uechosearch.c:116-141, at property `l` of object `j` of node `i`. The name
is read after the post; a property without a name gives `printf("%s")` a null pointer. `none`: it has not ended after `fuel` rounds. -/
def askProps (e : Endian) (db : Db) (w : Nat → List Arrival) : Nat → Nat → Nat → Nat → St → Res (Option St)
  | 0, _, _, _, _ => .ok none
  | fuel + 1, i, j, l, s =>
    match objAt s.c i j with
    | none => .ub
    | some o =>
      match o.props[l]? with
      | none => .ok (some s)
      | some p =>
        if p.isReadRequired then do
          let req ← readRequest o.getCode p.code
          let (s, res) ← post e db w s ((s.c.nodes[i]?).bind (·.address)) req
          let data ← answer res
          match (objAt s.c i j).bind (fun o => (o.props[l]?).bind (·.name)) with
          | none => .ub
          | some name => askProps e db w fuel i j (l + 1) { s with out := s.out ++ [.property j l p.code data name] }
        else askProps e db w fuel i j (l + 1) s

/-- The loop over the objects — examples/controller/uechosearch/uechosearch.c:112-143. -/
def askObjs (e : Endian) (db : Db) (w : Nat → List Arrival) (rounds : Nat) : Nat → Nat → Nat → St → Res (Option St)
  | 0, _, _, _ => .ok none
  | fuel + 1, i, j, s =>
    match objAt s.c i j with
    | none => .ok (some s)
    | some o => do
        match ← askProps e db w rounds i j 0 { s with out := s.out ++ [.object j o.getCode o.name] } with
        | none => return none
        | some s => askObjs e db w rounds fuel i (j + 1) s

/-- The loop over the nodes — examples/controller/uechosearch/uechosearch.c:97-147, verbose. -/
def askNodes (e : Endian) (db : Db) (ms : List Std.Manufacture) (w : Nat → List Arrival) (rounds : Nat) : Nat → Nat → St → Res (Option St)
  | 0, _, _ => .ok none
  | fuel + 1, i, s =>
    match s.c.nodes[i]? with
    | none => .ok (some s)
    | some n => do
        let (s, name) ← maker e db ms w s n.address
        match ← askObjs e db w rounds rounds i 0 { s with out := s.out ++ [.node n.address name] } with
        | none => return none
        | some s => askNodes e db ms w rounds fuel (i + 1) s

/-- `print_founddevices` — examples/controller/uechosearch/uechosearch.c:80-148. -/
def run (e : Endian) (db : Db) (ms : List Std.Manufacture) (w : Nat → List Arrival) (rounds : Nat) (c : Ctrl) : Res (Option St) :=
  askNodes e db ms w rounds rounds 0 ⟨c, 0, [], []⟩

end Uecho.SearchCmd
