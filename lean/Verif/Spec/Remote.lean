import Verif.Spec.NodeApi
import Verif.Spec.PostApi
/-!
# Specification vocabulary for a controller and a remote node
-/
namespace Uecho.Spec
open Uecho

/-- A datagram that arrives: local address of the socket, address of the sender, bytes. -/
structure Datagram where
  loc : Option String
  sender : String
  bytes : List Byte

/-- A node receives datagrams, one after the other. -/
def receiveAll (e : Endian) : Node → List Datagram → Res Node
  | n, [] => .ok n
  | n, g :: gs => do
      let (n, _) ← n.receive e g.loc (some g.sender) g.bytes
      receiveAll e n gs

/-- The datagram is a request to write the property `k` of the object `x`. -/
def Overwrites (x : Byte × Byte × Byte) (k : Byte) (g : Datagram) : Prop :=
  ∃ f rest, f.WF ∧ g.bytes = encode f ++ rest ∧ f.deoj = x ∧ k ∈ codes (written f)

/-- The node has an object `x`, which belongs to it, with handlers `hs` and a property `k` with data `d`. -/
def Holds (n : Node) (x : Byte × Byte × Byte) (hs : List Observer) (k : Byte) (d : List Byte) : Prop :=
  ∃ o p, destObj n x = some o ∧ o.hasNode = true ∧ o.observers = hs ∧ o.getProperty k = some p ∧ p.data = d

/-- The post of thread `t`, which waits for the answer to its request `q`, receives the frame `r` from the address `b`: the parser
accepts the datagram, and after that and four steps of its own the post returns true with a response message that is this
frame and has this source address. -/
def PostReturns (e : Endian) (s : Post.Sys) (t : Nat) (j : Post.Job) (q : Message) (loc : Option String) (b : String) (r : Frame) : Prop :=
  ∃ m s1 s2 x, Message.new.parsePacket (encode r) loc (some b) = .ok (true, m) ∧
    Post.step e s (.deliver m) = .ok (some s1) ∧ Run e s1 (List.replicate 4 (.step t)) s2 ∧
    s2.log = s1.log ++ [.returned t j true (some q) (some x)] ∧ x.fromAddr = some b ∧ toFrame x = r

/-- The frames a node sends to one address. -/
def sentTo (a : String) (eff : List Effect) : List Effect := eff.filter fun x => match x with
  | .send (some b) _ => b == a
  | _ => false

end Uecho.Spec
