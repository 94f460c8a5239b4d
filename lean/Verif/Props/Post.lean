import Verif.Lemmas.PostExec
import Verif.Lemmas.PostTid
import Verif.Lemmas.PostLive
import Verif.Props.Controller
/-!
# Properties C45–C50, C73–C75: posts

Specification: `Spec.PostApi`. The interleavings are those of `Model/Post.lean`. `AtomicListener` is the
assumption that a receive thread is not interrupted while it handles a message.
-/
set_option linter.unusedSimpArgs false
namespace Uecho.Props
open Uecho Uecho.Spec Uecho.Lemmas Uecho.Post

/-! ## Schedules used in the examples -/

/-- a Get request -/
def reqM : Message := Message.new.setEsv 0x62
/-- a message with this TID, ESV and source -/
def ansM (tid : BitVec 32) (esv : Byte) (src : String) : Message :=
  ((Message.new.setTid .little tid).setEsv esv).setSourceAddress (some src)

theorem reqM_reach (e : Endian) : Reachable e reqM := .setEsv .new _
theorem ansM_reach (tid : BitVec 32) (esv : Byte) (src : String) : Reachable .little (ansM tid esv src) :=
  .setSrcAddr (.setEsv (.setTid .new _) _) _

def jobA : Job := ⟨0, 1, "10.0.0.2"⟩
def jobB : Job := ⟨2, 3, "10.0.0.3"⟩
/-- thread `t` does `n` steps -/
def steps (t n : Nat) : List Label := List.replicate n (.step t)
/-- the user makes two messages, thread `t` posts and has taken `n` steps -/
def posted (t : Nat) (j : Job) (n : Nat) : List Label :=
  [.store j.req reqM, .store j.res Message.new, .callPost t j] ++ steps t n

/-- the state after a schedule of the threads 0, 1, 2 -/
def after (ls : List Label) : Sys := (exec .little [0, 1, 2] (Sys.init none 0#32) ls).getD (Sys.init none 0#32)
/-- the schedule is possible -/
def possible (ls : List Label) : Bool := (exec .little [0, 1, 2] (Sys.init none 0#32) ls).isSome

theorem run_after {ls : List Label} (hp : possible ls = true)
    (hm : ∀ l ∈ ls, ∀ m ∈ labelMsg l, Reachable .little m) : RunFromNew .little ls (after ls) := by
  obtain ⟨s, hs⟩ := Option.isSome_iff_exists.1 hp
  have : after ls = s := by unfold after; rw [hs]; rfl
  rw [this]; exact run_exec [0, 1, 2] ls none 0#32 hm hs

/-! ## C50 -/

/-- **C50.** In every interleaving of any number of threads at most one post is between taking and releasing the lock,
and while it waits for its response (or is about to, or has just been woken) the request and response
objects the listener uses are its own. -/
theorem C50_serialised {e : Endian} {ls : List Label} {s : Sys} (h : RunFromNew e ls s) :
    (∀ t u j k, Inside s t j → Inside s u k → t = u ∧ j = k) ∧
    (∀ t j pc, s.thr t = .post j pc → pc = .send ∨ pc = .condWait ∨ pc = .waiting →
      s.postReq = some j.req ∧ s.postRes = some j.res) := by
  have hi := new_inv h
  refine ⟨?_, ?_⟩
  · rintro t u j k ⟨pc, h1, h2⟩ ⟨q, h3, h4⟩
    have a := hi.own t j pc h1 h2
    have b := hi.own u k q h3 h4
    rw [a] at b; cases b
    rw [h1] at h3; cases h3
    exact ⟨rfl, rfl⟩
  · rintro t j pc h1 (rfl | rfl | rfl)
    · exact ⟨hi.req t j _ h1 rfl, hi.res t j _ h1 rfl⟩
    · exact ⟨hi.req t j _ h1 rfl, hi.res t j _ h1 rfl⟩
    · exact ⟨hi.req t j _ h1 rfl, hi.res t j _ h1 rfl⟩

theorem run_after' {ls : List Label} (hp : possible ls = true) (ms : List Message)
    (hms : ls.flatMap labelMsg = ms) (hm : ∀ m ∈ ms, Reachable .little m) : RunFromNew .little ls (after ls) := by
  refine run_after hp fun l hl m h => hm m ?_
  rw [← hms]; exact List.mem_flatMap.2 ⟨l, hl, h⟩

/-- One post waits for its response while another one is blocked. -/
def twoPosts : List Label := posted 0 jobA 10 ++ posted 1 jobB 0
theorem user_msgs : ∀ m ∈ [reqM, Message.new, reqM, Message.new], Reachable .little m := by
  simp [reqM_reach, Reachable.new]
theorem twoPosts_run : RunFromNew .little twoPosts (after twoPosts) :=
  run_after' (by with_unfolding_all rfl) [reqM, Message.new, reqM, Message.new] rfl user_msgs
theorem twoPosts_waiting : Waiting (after twoPosts) 0 jobA :=
  ⟨by with_unfolding_all rfl, by with_unfolding_all decide⟩
example : (after twoPosts).thr 1 = .post jobB .lock ∧ sentTids (after twoPosts).log = [1] :=
  ⟨by with_unfolding_all rfl, by with_unfolding_all rfl⟩

/-! ## C45 -/

/-- **C45** (partial: the only senders are posts, and the listener is not interrupted). In every interleaving of any
number of posting threads the TIDs used are those following the counter's initial value, one after the
other; so up to 65535 of them are pairwise distinct. -/
theorem C45_posts_partial {e : Endian} {ls : List Label} {s : Sys} {req0 : Option Nat} {tid0 : BitVec 32}
    (h : Run e (Sys.init req0 tid0) ls s) (ha : AtomicListener ls) (ho : OnlyPosts ls) :
    sentTids s.log = tidSeq (sentTids s.log).length tid0.toNat ∧
    ((sentTids s.log).length ≤ 65535 → (sentTids s.log).Nodup) := by
  obtain ⟨z, hz⟩ := run_tinv h ha ho
  refine ⟨hz.seq, fun hl => ?_⟩
  rw [hz.seq]; exact tidSeq_nodup _ _ hl

/-- Two posts that both got to send. -/
def bothSent : List Label := posted 0 jobA 10 ++ posted 1 jobB 0 ++ [.timeout 0] ++ steps 0 3 ++ steps 1 10
example : (AtomicListener bothSent ∧ OnlyPosts bothSent) ∧ possible bothSent = true ∧
    sentTids (after bothSent).log = [1, 2] :=
  ⟨⟨by simp [AtomicListener, bothSent, posted, steps], by simp [OnlyPosts, bothSent, posted, steps]⟩,
   by with_unfolding_all rfl, by with_unfolding_all rfl⟩

/-- Two threads announcing at the same time. -/
def race : List Label := [.callSend 0, .callSend 1] ++ steps 0 2 ++ steps 1 2 ++ steps 0 3 ++ steps 1 3
/-- Two threads that send through one node at the same time can use the same TID: the counter is read, incremented and
stored without a lock. -/
theorem C45_race_violated : ∃ ls s, RunFromNew .little ls s ∧ ∃ t u v, t ≠ u ∧ s.log = [.sent t v true, .sent u v true] :=
  ⟨race, after race, run_after' (by with_unfolding_all rfl) [] rfl (by simp), 0, 1, 1#32, by decide,
    by with_unfolding_all rfl⟩

/-- So can a post and a thread that announces: the lock of the posts does not protect the counter. -/
def raceWithPost : List Label :=
  posted 0 jobA 5 ++ [.callSend 1] ++ steps 1 2 ++ steps 0 4 ++ steps 1 3
theorem C45_post_race_violated : ∃ ls s, RunFromNew .little ls s ∧ sentTids s.log = [1, 1] :=
  ⟨raceWithPost, after raceWithPost, run_after' (by with_unfolding_all rfl) [reqM, Message.new] rfl
    (by simp [reqM_reach, Reachable.new]), by with_unfolding_all rfl⟩

/-! ## C46 -/

/-- **C46** (partial: the listener is not interrupted and the condition variable does not wake up by itself). In every
interleaving, whenever a post returns true, the response object then holds a message with the TID of the
request and another ESV. -/
theorem C46_response_partial {e : Endian} {ls : List Label} {s : Sys} (h : RunFromNew e ls s) (ha : AtomicListener ls)
    (hs : NoSpurious ls) (t : Nat) (j : Job) (q a : Option Message) (hr : .returned t j true q a ∈ s.log) :
    ∃ q' a', q = some q' ∧ a = some a' ∧ Answers q' a' :=
  (new_sinv h ha hs).logged t j q a hr

/-- A post that is answered. -/
def answered : List Label := posted 0 jobA 10 ++ [.deliver (ansM 1 0x72 "10.0.0.2")] ++ steps 0 4
theorem answered_run : RunFromNew .little answered (after answered) :=
  run_after' (by with_unfolding_all rfl) [reqM, Message.new, ansM 1 0x72 "10.0.0.2"] rfl
    (by simp [reqM_reach, Reachable.new, ansM_reach])
example : (AtomicListener answered ∧ NoSpurious answered) ∧
    ∃ q a, (after answered).log.getLast? = some (.returned 0 jobA true (some q) (some a)) ∧ a.esv = 0x72 :=
  ⟨⟨by simp [AtomicListener, answered, posted, steps], by simp [NoSpurious, answered, posted, steps]⟩,
   _, _, by with_unfolding_all rfl, by with_unfolding_all rfl⟩

/-- The listener checks the message against one request and stores it into the response object of another one: the
first post (thread 0) times out in between. -/
def checkThenAct : List Label :=
  posted 0 jobA 10 ++ [.arrive 2 (ansM 1 0x72 "10.0.0.2")] ++ steps 2 4 ++ [.timeout 0] ++ steps 0 3 ++
  posted 1 jobB 10 ++ steps 2 3 ++ steps 1 4
/-- With the listener interleaved, a post can return true with the late response to another request, which has another
TID, as the only message ever received. -/
theorem C46_stale_response_violated : ∃ ls s, RunFromNew .little ls s ∧ NoSpurious ls ∧ NoSendFailure ls ∧
    ∃ t j q a, .returned t j true (some q) (some a) ∈ s.log ∧ ¬ Answers q a ∧ q.getTid .little = 2 ∧
      a.getTid .little = 1 := by
  refine ⟨checkThenAct, after checkThenAct, run_after' (by with_unfolding_all rfl)
    [reqM, Message.new, ansM 1 0x72 "10.0.0.2", reqM, Message.new] rfl (by simp [reqM_reach, Reachable.new, ansM_reach]),
    by simp [NoSpurious, checkThenAct, posted, steps], by simp [NoSendFailure, checkThenAct, posted, steps], 1, jobB,
    ((after checkThenAct).heap 2).getD Message.new, ((after checkThenAct).heap 3).getD Message.new, ?_, ?_, ?_, ?_⟩
  · refine List.mem_of_getLast? ?_
    with_unfolding_all rfl
  · with_unfolding_all decide
  · with_unfolding_all rfl
  · with_unfolding_all rfl

/-- a received message is one that calls can make -/
theorem reqMsg_reachable (e : Endian) {f : Frame} (hf : f.WF) (a : String) : Reachable e (reqMsg f (some a)) := by
  have h := parse_spec (m := Message.new) inv_new.toMsgWF (encode f ++ []) _ (Nat.le_refl _)
  rw [List.take_length, decode_complete hf] at h
  exact Reachable.setSrcAddr (Reachable.parse (e := e) .new _ _ _ (Nat.le_refl _) h) (some a)

/-- **C46** (partial: one datagram, handled without interruption). While a post waits for the answer to the request
`q`, a received frame is handed to it exactly if it has the TID of `q` and another ESV: then the response
object, and no other message, is overwritten, by the received message (`C74` says how much of it; the result is again what calls can
make), and the waiting thread is signalled; otherwise nothing happens. -/
theorem C46_delivery_partial {e : Endian} {db : Db} {c c' : Ctrl} {h h' : Heap} {ev : List CEvent} (orc : Oracle)
    (loc : Option String) (a : String) (f : Frame) (hf : f.WF) (rest : List Byte) {r p : Nat} {q old : Message}
    (h1 : c.postReq = some r) (h2 : c.postRes = some p) (h3 : h r = some q) (h4 : h p = some old)
    (h5 : Reachable e old)
    (hr : c.receive e db orc h loc (some a) (encode f ++ rest) = .ok (c', h', ev)) :
    (CEvent.signal ∈ ev ↔ f.tid = (q.tid0, q.tid1) ∧ f.esv ≠ q.esv) ∧
    (CEvent.signal ∉ ev → h' = h) ∧
    (CEvent.signal ∈ ev → (∀ x, x ≠ p → h' x = h x) ∧
      ∃ m, h' p = some m ∧ m.fromAddr = some a ∧ (toFrame m).tid = f.tid ∧ (toFrame m).seoj = f.seoj ∧
        (toFrame m).deoj = f.deoj ∧ (toFrame m).esv = f.esv ∧ (¬ IsSetGet f.esv → toFrame m = f) ∧ Reachable e m) := by
  obtain ⟨n1, eff, s2, ev3, g1, g2, g3, rfl, g5⟩ := (recv e db orc hf hr).more
  have hsig : CEvent.signal ∈ eff.map .node ++ (msgPart c ++ s2 ++ ev3) ↔ CEvent.signal ∈ s2 := by
    have a1 : CEvent.signal ∉ eff.map CEvent.node := by
      intro hm; obtain ⟨_, _, hm⟩ := List.mem_map.1 hm; cases hm
    have a2 : CEvent.signal ∉ msgPart c := by unfold msgPart; split <;> simp
    have a3 : CEvent.signal ∉ ev3 := by intro hm; obtain ⟨_, _, hm⟩ := g5 _ hm; cases hm
    simp [a1, a2, a3]
  have hans : q.isResponseMessage e (reqMsg f (some a)) = true ↔ f.tid = (q.tid0, q.tid1) ∧ f.esv ≠ q.esv := by
    rw [isResponse_iff]
    show f.tid.1 = q.tid0 ∧ f.tid.2 = q.tid1 ∧ f.esv ≠ q.esv ↔ _
    rw [Prod.ext_iff, and_assoc]
  rw [hsig]
  unfold Ctrl.servePost Ctrl.isWaiting Ctrl.handlePost at g3
  simp only [h1, h2, h3, h4, Option.isSome_some, Bool.and_self, if_true] at g3
  by_cases hm : q.isResponseMessage e (reqMsg f (some a)) = true
  · have hreq : Inv (reqMsg f (some a)) := by
      have := inv_parsed inv_new hf
      exact ⟨⟨this.ep, this.epSet, this.epGet⟩, this.ehd1, this.ehd2⟩
    have hset := setFrom_eq e (reachable_inv h5).toMsgWF hreq.toMsgWF
    have hreach := Reachable.set h5 (reqMsg_reachable e hf a) hset
    rw [if_pos hm, hset] at g3
    simp only [Res.bind_ok, Res.pure_eq, Res.ok.injEq, Prod.mk.injEq] at g3
    obtain ⟨rfl, rfl⟩ := g3
    refine ⟨by simp [hans.1 hm], by simp, fun _ => ⟨fun x hx => by simp [Heap.set, hx], _, if_pos rfl, rfl, rfl,
      rfl, rfl, rfl, ?_, hreach⟩⟩
    intro hsg
    have hb : ∃ ps, f.body = .plain ps := by
      cases hb : f.body with
      | plain ps => exact ⟨ps, rfl⟩
      | setGet s g => unfold Frame.WF at hf; rw [hb] at hf; exact absurd hf.1 hsg
    obtain ⟨ps, hb⟩ := hb
    unfold toFrame
    have hesv : (reqMsg f (some a)).esv = f.esv := rfl
    have hep : (reqMsg f (some a)).ep = ps.map mkProp := by
      show (match f.body with | .plain ps => ps.map mkProp | .setGet _ _ => []) = _
      rw [hb]
    simp only [hesv, if_neg hsg, view_copy, hep]
    have hv : view (ps.map mkProp) = ps := by
      unfold view
      rw [List.map_map]
      exact List.map_id'' (fun _ => rfl) ps
    rw [hv, ← hb]; rfl
  · rw [if_neg hm] at g3
    simp only [Res.ok.injEq, Prod.mk.injEq] at g3
    obtain ⟨rfl, rfl⟩ := g3
    have hno : CEvent.signal ∉ ([] : List CEvent) := by simp
    exact ⟨⟨fun h => absurd h hno, fun hh => absurd (hans.2 hh) hm⟩, fun _ => rfl, fun h => absurd h hno⟩

/-- The controller of the examples waiting for the answer to a Get request. -/
def kWaiting : Ctrl := { kCtrl with postReq := some 0, postRes := some 1 }
def kPostHeap (esv : Byte) : Heap := fun x =>
  if x = 0 then some { Message.new with tid0 := 0, tid1 := 1, esv := esv } else if x = 1 then some Message.new else none
def kAnswer : Frame := ⟨(0, 1), (0x02, 0x90, 0x01), (0x0E, 0xF0, 0x01), 0x72, .plain [(0x80, [0x30])]⟩
example : ∃ c' h' ev, kWaiting.receive .little [] kOrc (kPostHeap 0x62) none (some "10.0.0.2") (encode kAnswer) = .ok (c', h', ev) ∧
    CEvent.signal ∈ ev :=
  ⟨_, _, _, by with_unfolding_all rfl, by with_unfolding_all decide⟩

/-- The two models of the listener's post part agree: the uninterrupted run in `Model/Post.lean` does what
`Ctrl.servePost` in `Model/Controller.lean` does, and a signal wakes the first waiting thread. -/
theorem C46_listener_models_agree (e : Endian) (s : Sys) (c : Ctrl) (h1 : c.postReq = s.postReq) (h2 : c.postRes = s.postRes)
    (m : Message) : Post.deliver e s m = (do
      let (h, ev) ← Ctrl.servePost e c s.heap m
      return { s with heap := h, waiters := if CEvent.signal ∈ ev then s.waiters.tail else s.waiters,
                      log := s.log ++ [.arrived m] }) := by
  unfold Post.deliver Ctrl.servePost Ctrl.isWaiting Ctrl.handlePost
  rw [h1, h2]
  obtain ⟨mu, pr, ps, lt, hp, w, th, lg⟩ := s
  cases pr with
  | none => simp [recvStep, Sys.emit]
  | some r =>
    cases ps with
    | none => simp [recvStep, Sys.emit]
    | some p =>
      simp only [recvStep, Sys.emit, Option.isSome_some, if_true, Res.bind_ok, Bool.and_self]
      cases hr : hp r with
      | none => rfl
      | some q =>
        simp only [Res.bind_ok]
        by_cases hm : q.isResponseMessage e m = true
        · simp only [hm, if_true, Res.bind_ok]
          cases hps : hp p with
          | none => rfl
          | some old =>
            simp only
            cases Message.setFrom e old m with
            | ub => rfl
            | ok x => simp
        · simp [hm]

/-! ## C74 -/

/-- **C74 violated.** Of the response to a SetGet request only the header reaches the poster: whatever properties the
received frame had, the message handed over has none. -/
theorem C74_setget_response_violated {e : Endian} {db : Db} {c c' : Ctrl} {h h' : Heap} {ev : List CEvent} (orc : Oracle)
    (loc : Option String) (a : String) (f : Frame) (hf : f.WF) (hsg : IsSetGet f.esv) (rest : List Byte) {r p : Nat}
    {q old : Message} (h1 : c.postReq = some r) (h2 : c.postRes = some p) (h3 : h r = some q) (h4 : h p = some old)
    (h5 : Reachable e old) (hm : f.tid = (q.tid0, q.tid1) ∧ f.esv ≠ q.esv)
    (hr : c.receive e db orc h loc (some a) (encode f ++ rest) = .ok (c', h', ev)) :
    ∃ m, h' p = some m ∧ toFrame m = { f with body := .setGet [] [] } := by
  obtain ⟨n1, eff, s2, ev3, g1, g2, g3, rfl, g5⟩ := (recv e db orc hf hr).more
  have hans : q.isResponseMessage e (reqMsg f (some a)) = true := by
    rw [isResponse_iff]
    show f.tid.1 = q.tid0 ∧ f.tid.2 = q.tid1 ∧ f.esv ≠ q.esv
    exact ⟨congrArg Prod.fst hm.1, congrArg Prod.snd hm.1, hm.2⟩
  unfold Ctrl.servePost Ctrl.isWaiting Ctrl.handlePost at g3
  simp only [h1, h2, h3, h4, Option.isSome_some, Bool.and_self, if_true] at g3
  have hreq : Inv (reqMsg f (some a)) := by
    have := inv_parsed inv_new hf
    exact ⟨⟨this.ep, this.epSet, this.epGet⟩, this.ehd1, this.ehd2⟩
  rw [if_pos hans, setFrom_eq e (reachable_inv h5).toMsgWF hreq.toMsgWF] at g3
  simp only [Res.bind_ok, Res.pure_eq, Res.ok.injEq, Prod.mk.injEq] at g3
  obtain ⟨rfl, rfl⟩ := g3
  refine ⟨_, if_pos rfl, ?_⟩
  unfold toFrame
  have hesv : (reqMsg f (some a)).esv = f.esv := rfl
  simp only [hesv, if_pos hsg]
  rfl

/-- e.g. the answer 0x7E with the value of one property to the request 0x6E -/
def kSetGetAnswer : Frame :=
  ⟨(0, 1), (0x02, 0x90, 0x01), (0x0E, 0xF0, 0x01), 0x7E, .setGet [(0x80, [])] [(0x80, [0x30])]⟩
example : kSetGetAnswer.WF ∧ IsSetGet kSetGetAnswer.esv ∧
    ∃ c' h' ev, kWaiting.receive .little [] kOrc (kPostHeap 0x6E) none
      (some "10.0.0.2") (encode kSetGetAnswer) = .ok (c', h', ev) ∧ CEvent.signal ∈ ev :=
  ⟨by decide, by decide, _, _, _, by with_unfolding_all rfl, by with_unfolding_all decide⟩

/-! ## C48 -/

theorem run_trans {e : Endian} {s1 s2 s3 : Sys} {l1 l2 : List Label} (h1 : Run e s1 l1 s2) (h2 : Run e s2 l2 s3) :
    Run e s1 (l1 ++ l2) s3 := by
  induction h2 with
  | nil => rw [List.append_nil]; exact h1
  | snoc l _ hu hs ih => rw [← List.append_assoc]; exact .snoc l ih hu hs

theorem run_one {e : Endian} {s1 s2 : Sys} (t : Nat) (h : Post.step e s1 (.step t) = .ok (some s2)) :
    Run e s1 [.step t] s2 := by
  have := Run.snoc (.step t) (Run.nil (e := e) s1) trivial h
  simpa using this

/-- **C48** (partial: the post is already blocked in the wait when the message arrives, and the listener is not
interrupted). If then a message arrives with the TID of the request and another ESV, the post returns true in every
continuation in which it returns; its own next four steps make it return, with a copy of that message. -/
theorem C48_in_time_partial {e : Endian} {ls : List Label} {s : Sys} {t : Nat} {j : Job} {q m : Message}
    (h : RunFromNew e ls s) (ha : AtomicListener ls) (hw : Waiting s t j) (hq : s.heap j.req = some q)
    (hm : Reachable e m) (hans : Answers q m) :
    ∃ s1, Post.step e s (.deliver m) = .ok (some s1) ∧
      (∃ s2 a, Run e s1 (steps t 4) s2 ∧ s2.log = s1.log ++ [.returned t j true (some q) (some a)] ∧
        a.fromAddr = m.fromAddr ∧ (toFrame a).esv = m.esv ∧ (¬ IsSetGet m.esv → toFrame a = toFrame m)) ∧
      ∀ ls' s', Run e s1 ls' s' → ∃ new, s'.log = s1.log ++ new ∧ firstReturn t new ≠ some false := by
  have hp := new_inv h
  have hb : BInv e s := by obtain ⟨r, t0, h⟩ := h; exact run_binv (init_binv e r t0) h ha
  obtain ⟨hthr, hwt⟩ := hw
  have h1 := hp.req t j _ hthr rfl
  have h2 := hp.res t j _ hthr rfl
  obtain ⟨_, ⟨old, ho, hor⟩, hne⟩ := hb.live t j (jobOf_some.2 ⟨_, hthr⟩)
  have hsf := setFrom_eq e (reachable_inv hor).toMsgWF (reachable_inv hm).toMsgWF
  have htail : s.waiters.tail = [] := by
    have := hp.one
    match hl : s.waiters, this with
    | [], _ => rfl
    | [_], _ => rfl
    | _ :: _ :: _, this => simp at this
  generalize hres : ({ m with ep := m.ep.map Property.copy, opcSet := 0, epSet := [], opcGet := 0, epGet := [] } : Message)
    = res at hsf
  let s1 : Sys := { s.emit (.arrived m) with heap := s.heap.set j.res res, waiters := [] }
  have hd : Post.step e s (.deliver m) = .ok (some s1) := by
    simp only [Post.step, deliver_match e s m h1 h2 hq hans, ho, hsf, Res.bind_ok, Res.pure_eq, htail, s1]
  have hthr1 : s1.thr t = .post j .waiting := hthr
  refine ⟨s1, hd, ?_, ?_⟩
  · let a1 := s1.goto t (.post j (.clearReq true))
    let a2 := ({ a1 with postReq := none } : Sys).goto t (.post j (.clearRes true))
    let a3 := ({ a2 with postRes := none } : Sys).goto t (.post j (.unlock true))
    let a4 := (({ a3 with mutex := none } : Sys).emit (.returned t j true (a3.heap j.req) (a3.heap j.res))).goto t .idle
    have r1 : Run e s1 [.step t] a1 := run_one t (by
      simp only [Post.step, threadStep, hthr1, postStep]
      rw [if_neg (by simp [s1])])
    have r2 : Run e a1 [.step t] a2 := run_one t (by
      simp only [Post.step, threadStep, show a1.thr t = .post j (.clearReq true) from if_pos rfl, postStep]; rfl)
    have r3 : Run e a2 [.step t] a3 := run_one t (by
      simp only [Post.step, threadStep, show a2.thr t = .post j (.clearRes true) from if_pos rfl, postStep]; rfl)
    have r4 : Run e a3 [.step t] a4 := run_one t (by
      simp only [Post.step, threadStep, show a3.thr t = .post j (.unlock true) from if_pos rfl, postStep]; rfl)
    refine ⟨a4, res, run_trans (run_trans (run_trans r1 r2) r3) r4, ?_, ?_, ?_, ?_⟩
    · show s1.log ++ [.returned t j true (s.heap.set j.res res j.req) (s.heap.set j.res res j.res)] = _
      simp only [Heap.set, if_neg hne, if_true, hq]
    · rw [← hres]
    · rw [← hres]; rfl
    · intro hsg
      rw [← hres]
      simp only [toFrame, hsg, if_false, view_copy]
  · intro ls' s' hr
    have hwk : Woken t j s1.log s1 :=
      ⟨[], by simp, .inl ⟨rfl, .waiting, hthr1, fun hh => by cases hh⟩⟩
    obtain ⟨new, n1, n2⟩ := run_woken hwk hr
    refine ⟨new, n1, ?_⟩
    rcases n2 with ⟨n2, _⟩ | n2 <;> simp [n2]

example : ∃ q, (after twoPosts).heap jobA.req = some q ∧ Answers q (ansM 1 0x72 "10.0.0.2") ∧ AtomicListener twoPosts :=
  ⟨((after twoPosts).heap 0).getD reqM, by with_unfolding_all rfl, by with_unfolding_all decide,
    by simp [AtomicListener, twoPosts, posted, steps]⟩

/-- The response arrives after the request is sent and before the post has begun to wait. -/
def lostWakeup : List Label :=
  posted 0 jobA 9 ++ [.deliver (ansM 1 0x72 "10.0.0.2")] ++ steps 0 1 ++ [.timeout 0] ++ steps 0 3
/-- A response that arrives after the request was sent, and is stored, can go unnoticed: its signal comes before the wait
begins, the post waits until the time is over and returns false. -/
theorem C48_lost_wakeup_violated : ∃ ls s, RunFromNew .little ls s ∧ AtomicListener ls ∧ NoSendFailure ls ∧
    ∃ t j q m a, s.log = [.sent t (q.getTid .little) true, .arrived m, .returned t j false (some q) (some a)] ∧
      Answers q m ∧ Answers q a ∧ m.fromAddr = some j.dst :=
  ⟨lostWakeup, after lostWakeup, run_after' (by with_unfolding_all rfl) [reqM, Message.new, ansM 1 0x72 "10.0.0.2"] rfl
    (by simp [reqM_reach, Reachable.new, ansM_reach]),
    by simp [AtomicListener, lostWakeup, posted, steps], by simp [NoSendFailure, lostWakeup, posted, steps],
    0, jobA, ((after lostWakeup).heap 0).getD reqM, ansM 1 0x72 "10.0.0.2", ((after lostWakeup).heap 1).getD reqM,
    by with_unfolding_all rfl, by with_unfolding_all decide, by with_unfolding_all decide, rfl⟩

/-! ## C47 -/

/-- One post, waiting. -/
def onePost : List Label := posted 0 jobA 10
def sentA : Message := ((after onePost).heap 0).getD reqM
theorem onePost_run : RunFromNew .little onePost (after onePost) :=
  run_after' (by with_unfolding_all rfl) [reqM, Message.new] rfl (by simp [reqM_reach, Reachable.new])
theorem onePost_atomic : AtomicListener onePost := by simp [AtomicListener, onePost, posted, steps]
theorem onePost_waiting : Waiting (after onePost) 0 jobA :=
  ⟨by with_unfolding_all rfl, by with_unfolding_all decide⟩
theorem onePost_log : (after onePost).log = [.sent 0 1 true] := by with_unfolding_all rfl
theorem sentA_heap : (after onePost).heap jobA.req = some sentA := by with_unfolding_all rfl
theorem sentA_tid : sentA.getTid .little = 1 := by with_unfolding_all rfl
theorem sentA_esv : sentA.esv = 0x62 := by with_unfolding_all rfl

/-- Any message with the TID of the request and another ESV ends the wait with true, whoever sent it and whatever its ESV
is: in particular one from another address than the one the request was sent to, and one that is not a response
at all. -/
theorem C47_any_sender_violated (m : Message) (hm : Reachable .little m) (ht : m.getTid .little = 1)
    (he : m.esv ≠ 0x62) : ∃ ls s, RunFromNew .little ls s ∧ AtomicListener ls ∧ NoSpurious ls ∧ NoSendFailure ls ∧
      ∃ t j q a, s.log = [.sent t 1 true, .arrived m, .returned t j true q a] ∧ j.dst = "10.0.0.2" := by
  have hans : Answers sentA m := by
    have := (getTid_inj .little m sentA).1 (by rw [ht, sentA_tid])
    exact ⟨this.1, this.2, by rw [sentA_esv]; exact he⟩
  obtain ⟨s1, h1, ⟨s2, a, h2, h3, _⟩, _⟩ := C48_in_time_partial onePost_run onePost_atomic onePost_waiting
    sentA_heap hm hans
  obtain ⟨r0, t0, hr⟩ := onePost_run
  refine ⟨(onePost ++ [.deliver m]) ++ steps 0 4, s2, ⟨r0, t0, run_trans (.snoc (.deliver m) hr hm h1) h2⟩, ?_, ?_, ?_, 0, jobA,
    some sentA, some a, ?_, rfl⟩
  · simp [AtomicListener, onePost, posted, steps]
  · simp [NoSpurious, onePost, posted, steps]
  · simp [NoSendFailure, onePost, posted, steps]
  · rw [h3]
    simp only [Post.step, Res.bind_eq_ok, Res.pure_eq, Res.ok.injEq, Option.some.injEq] at h1
    obtain ⟨_, h1, rfl⟩ := h1
    rw [(deliver_frame h1).2.2.2.2.2.1]
    rw [onePost_log]; rfl

/-- e.g. a notification (ESV 0x73) from 10.0.0.9, while the request went to 10.0.0.2 -/
example : (ansM 1 0x73 "10.0.0.9").getTid .little = 1 ∧ (ansM 1 0x73 "10.0.0.9").esv ≠ 0x62 ∧
    (ansM 1 0x73 "10.0.0.9").fromAddr = some "10.0.0.9" ∧ Reachable .little (ansM 1 0x73 "10.0.0.9") :=
  ⟨by with_unfolding_all rfl, by decide, rfl, ansM_reach _ _ _⟩

/-- The wait has no predicate: a wake-up without a signal, which POSIX allows, makes the post return true although nothing
was received. -/
theorem C47_spurious_violated : ∃ ls s, RunFromNew .little ls s ∧ AtomicListener ls ∧
    ∃ t j q a, s.log = [.sent t 1 true, .returned t j true q a] :=
  ⟨posted 0 jobA 10 ++ [.spurious 0] ++ steps 0 3, after (posted 0 jobA 10 ++ [.spurious 0] ++ steps 0 3),
    run_after' (by with_unfolding_all rfl) [reqM, Message.new] rfl (by simp [reqM_reach, Reachable.new]),
    by simp [AtomicListener, posted, steps], 0, jobA, _, _, by with_unfolding_all rfl⟩

/-! ## C49 -/

/-- **C49** (partial: the socket accepts every request, and the listener is not interrupted). In every interleaving, handling
a message has defined behaviour and changes no message object but the response object of a post that has not
returned. -/
theorem C49_returned_untouched_partial {e : Endian} {ls : List Label} {s : Sys} (h : RunFromNew e ls s)
    (ha : AtomicListener ls) (hf : NoSendFailure ls) (m : Message) (hm : Reachable e m) :
    ∃ s1, Post.step e s (.deliver m) = .ok (some s1) ∧
      ∀ p, s1.heap p ≠ s.heap p → ∃ t j pc, s.thr t = .post j pc ∧ p = j.res := by
  have hp := new_inv h
  have hqi := new_qinv h hf
  have hb : BInv e s := by obtain ⟨r, t0, h⟩ := h; exact run_binv (init_binv e r t0) h ha
  cases h1 : s.postReq with
  | none => exact ⟨s.emit (.arrived m), by simp [Post.step, deliver_idle e s m (.inl h1)], fun p hp => absurd rfl hp⟩
  | some r =>
    cases h2 : s.postRes with
    | none => exact ⟨s.emit (.arrived m), by simp [Post.step, deliver_idle e s m (.inr h2)], fun p hp => absurd rfl hp⟩
    | some p =>
      obtain ⟨t, j, pc, hthr, ho, rfl⟩ := hqi.owner p h2
      obtain ⟨⟨q, hq, _⟩, ⟨old, hold, hor⟩, hne⟩ := hb.live t j (jobOf_some.2 ⟨_, hthr⟩)
      have hr : r = j.req := by
        cases pc with
        | clearRes b => have := hqi.cleared t j _ hthr rfl; rw [h1] at this; cases this
        | lock => cases ho
        | setReq => cases ho
        | setRes => cases ho
        | unlock b => cases ho
        | _ => have := hp.req t j _ hthr rfl; rw [h1] at this; exact Option.some.inj this
      subst hr
      by_cases hans : Answers q m
      · have hsf := setFrom_eq e (reachable_inv hor).toMsgWF (reachable_inv hm).toMsgWF
        refine ⟨_, by simp only [Post.step, deliver_match e s m h1 h2 hq hans, hold, hsf, Res.bind_ok, Res.pure_eq]; rfl, ?_⟩
        intro x hx
        refine ⟨t, j, pc, hthr, ?_⟩
        by_cases hxp : x = j.res
        · exact hxp
        · exact absurd (by simp only [Heap.set, if_neg hxp]) hx
      · exact ⟨s.emit (.arrived m), by simp [Post.step, deliver_nomatch e s m h1 h2 hq hans], fun p hp => absurd rfl hp⟩

example : RunFromNew .little twoPosts (after twoPosts) ∧ AtomicListener twoPosts ∧ NoSendFailure twoPosts :=
  ⟨twoPosts_run, by simp [AtomicListener, twoPosts, posted, steps], by simp [NoSendFailure, twoPosts, posted, steps]⟩

/-- The request could not be sent and the post returned false. -/
def refused : List Label := posted 0 jobA 8 ++ [.sendFail 0] ++ steps 0 1
theorem refused_run : RunFromNew .little refused (after refused) :=
  run_after' (by with_unfolding_all rfl) [reqM, Message.new] rfl (by simp [reqM_reach, Reachable.new])

theorem idle_after {ls : List Label} (hp : possible ls = true) (ms : List Message)
    (hms : ls.flatMap labelMsg = ms) (hm : ∀ m ∈ ms, Reachable .little m) (h0 : (after ls).thr 0 = .idle)
    (h1 : (after ls).thr 1 = .idle) (h2 : (after ls).thr 2 = .idle) (t : Nat) : (after ls).thr t = .idle := by
  obtain ⟨s, hs⟩ := Option.isSome_iff_exists.1 hp
  have ha : after ls = s := by unfold after; rw [hs]; rfl
  by_cases ht : t ∈ [0, 1, 2]
  · simp at ht
    rcases ht with rfl | rfl | rfl
    · exact h0
    · exact h1
    · exact h2
  · have := (exec_run ls (init_xinv .little [0, 1, 2] none 0#32)
      (fun l hl m h => hm m (by rw [← hms]; exact List.mem_flatMap.2 ⟨l, hl, h⟩)) hs (.nil _)).2
    rw [ha]; exact this.supp t ht

/-- After a post that failed to send has returned, with no thread in a post, an incoming message changes the response
object that was passed to it. -/
theorem C49_send_failure_violated : ∃ ls s, RunFromNew .little ls s ∧ AtomicListener ls ∧ (∀ t, s.thr t = .idle) ∧
    s.log = [.sent 0 1 false, .returned 0 jobA false (s.heap jobA.req) (s.heap jobA.res)] ∧
    ∃ m s1, Reachable .little m ∧ Post.step .little s (.deliver m) = .ok (some s1) ∧
      s1.heap jobA.res ≠ s.heap jobA.res := by
  refine ⟨refused, after refused, refused_run, by simp [AtomicListener, refused, posted, steps],
    idle_after (by with_unfolding_all rfl) [reqM, Message.new] rfl (by simp [reqM_reach, Reachable.new])
      (by with_unfolding_all rfl) (by with_unfolding_all rfl) (by with_unfolding_all rfl),
    by with_unfolding_all rfl, ansM 1 0x72 "10.0.0.2", after (refused ++ [.deliver (ansM 1 0x72 "10.0.0.2")]),
    ansM_reach _ _ _, by with_unfolding_all rfl, ?_⟩
  have h1 : (after refused).heap jobA.res = some Message.new := by with_unfolding_all rfl
  have h2 : ((after (refused ++ [.deliver (ansM 1 0x72 "10.0.0.2")])).heap jobA.res).map (·.esv) = some 0x72 := by
    with_unfolding_all rfl
  intro h
  rw [h, h1] at h2
  exact absurd h2 (by decide)

/-- … and if the user has deleted the two objects, any incoming message is a use after free. -/
theorem C49_use_after_free_violated : ∃ ls s, RunFromNew .little ls s ∧ AtomicListener ls ∧
    ∀ m, Post.step .little s (.deliver m) = .ub := by
  refine ⟨refused ++ [.free 0, .free 1], after (refused ++ [.free 0, .free 1]),
    run_after' (by with_unfolding_all rfl) [reqM, Message.new] rfl (by simp [reqM_reach, Reachable.new]),
    by simp [AtomicListener, refused, posted, steps], ?_⟩
  intro m
  have := deliver_freed .little (after (refused ++ [.free 0, .free 1])) m (r := 0) (p := 1) (by with_unfolding_all rfl)
    (by with_unfolding_all rfl) (by with_unfolding_all rfl)
  simp [Post.step, this]

/-- The post times out, returns and its objects are deleted while a receive thread is between loading the response
pointer and storing the message. -/
def lateStore : List Label :=
  posted 0 jobA 10 ++ [.arrive 2 (ansM 1 0x72 "10.0.0.2")] ++ steps 2 5 ++ [.timeout 0] ++ steps 0 3 ++ [.free 0, .free 1]
/-- The same without any send failure, when the listener is interrupted. -/
theorem C49_race_violated : ∃ ls s, RunFromNew .little ls s ∧ NoSendFailure ls ∧ NoSpurious ls ∧
    s.thr 0 = .idle ∧ Post.step .little s (.step 2) = .ub :=
  ⟨lateStore, after lateStore, run_after' (by with_unfolding_all rfl) [reqM, Message.new, ansM 1 0x72 "10.0.0.2"] rfl
    (by simp [reqM_reach, Reachable.new, ansM_reach]), by simp [NoSendFailure, lateStore, posted, steps],
    by simp [NoSpurious, lateStore, posted, steps], by with_unfolding_all rfl, by with_unfolding_all rfl⟩

/-! ## C73 -/

/-- **C73** (partial: the exact time is missing). The wait never lasts longer than the configured time, and the configured
time minus two seconds at least; for whole seconds, minus one second. Times in nanoseconds, `ticks` in
microseconds. -/
theorem C73_bounds_partial (now ticks : Nat) :
    condDeadline now ticks ≤ now + ticks * 1000 ∧ now + ticks * 1000 < condDeadline now ticks + 2000000000 ∧
    ∀ k, ticks = k * 1000000 → now + ticks * 1000 < condDeadline now ticks + 1000000000 := by
  unfold condDeadline
  refine ⟨?_, ?_, ?_⟩
  · omega
  · omega
  · rintro k rfl
    rw [Nat.mul_div_cancel _ (by omega : 0 < 1000000)]
    omega

/-- **C73 violated.** A waiting time of less than one second is no waiting time at all: the deadline is not in the
future. -/
theorem C73_short_wait_violated (now ticks : Nat) (h : ticks < 1000000) : condDeadline now ticks ≤ now := by
  unfold condDeadline
  rw [Nat.div_eq_of_lt h]
  omega

/-- half a second, at 10.75 s; and the default time, five seconds -/
example : condDeadline 10750000000 500000 = 10000000000 ∧ condDeadline 10750000000 5000000 = 15000000000 :=
  ⟨by decide, by decide⟩

/-! ## C75 -/

/-- **C75.** Posts do not deadlock: in every reachable state with a post that has not returned, some posting thread can take
a step, if need be by its wait timing out. -/
theorem C75_no_deadlock {e : Endian} {ls : List Label} {s : Sys} (h : RunFromNew e ls s) (hpost : ∃ t j pc, s.thr t = .post j pc) :
    ∃ t j pc l s1, s.thr t = .post j pc ∧ (l = .step t ∨ l = .timeout t) ∧ Post.step e s l = .ok (some s1) := by
  have hp := new_inv h
  have hb : LInv s := by obtain ⟨r, t0, h⟩ := h; exact run_linv (by intro t j hj; cases hj) h
  obtain ⟨t, j, pc, hthr⟩ := hpost
  cases hm : s.mutex with
  | none =>
    have : pc = .lock := by
      by_cases hpc : pc = .lock
      · exact hpc
      · have := hp.own t j pc hthr hpc; rw [hm] at this; cases this
    subst this
    exact ⟨t, j, _, .step t, _, hthr, .inl rfl, by simp only [Post.step, threadStep, hthr, postStep, if_pos hm]; rfl⟩
  | some u =>
    obtain ⟨k, q, hu, hq⟩ := hp.held u hm
    obtain ⟨m, hm1⟩ := Option.isSome_iff_exists.1 (hb u k (jobOf_some.2 ⟨q, hu⟩))
    cases q with
    | lock => exact absurd rfl hq
    | tid p =>
      cases p <;>
      exact ⟨u, k, _, .step u, _, hu, .inl rfl, by simp only [Post.step, threadStep, hu, postStep, tidStep]; rfl⟩
    | setTid v => exact ⟨u, k, _, .step u, _, hu, .inl rfl, by simp only [Post.step, threadStep, hu, postStep, hm1]; rfl⟩
    | send => exact ⟨u, k, _, .step u, _, hu, .inl rfl, by simp only [Post.step, threadStep, hu, postStep, hm1]; rfl⟩
    | waiting =>
      by_cases hw : u ∈ s.waiters
      · exact ⟨u, k, _, .timeout u, _, hu, .inr rfl, by simp only [Post.step, hu, if_pos hw]; rfl⟩
      · exact ⟨u, k, _, .step u, _, hu, .inl rfl, by simp only [Post.step, threadStep, hu, postStep, if_neg hw]; rfl⟩
    | _ => exact ⟨u, k, _, .step u, _, hu, .inl rfl, by simp only [Post.step, threadStep, hu, postStep]; rfl⟩

/-- a post after two others, the mutex being taken -/
example : ∃ t j pc, (after twoPosts).thr t = .post j pc := ⟨0, jobA, _, by with_unfolding_all rfl⟩

/-- **C75.** A post returns after at most 14 steps of its own (with the end of its wait), however they are interleaved with those of the receive
threads and of other posts: if the thread that called it has done 14 steps, it has returned. -/
theorem C75_post_returns {e : Endian} {s s' : Sys} {ls : List Label} {t : Nat} {j : Job} (ht : s.thr t = .post j .lock) (h : Run e s ls s')
    (hn : 14 ≤ (ls.filter fun l => match l with
      | .step u | .sendFail u | .timeout u | .spurious u => u == t
      | _ => false).length) :
    ∃ add ok req res, s'.log = s.log ++ add ∧ Ev.returned t j ok req res ∈ add := by
  obtain ⟨add, h1, h2⟩ := run_nearer h ht
  rcases h2 with ⟨pc', _, h3⟩ | ⟨ok, q, r, h3⟩
  · have hn : 14 ≤ (ls.filter (own t)).length := hn
    have : rank PostPc.lock = 14 := rfl
    have := rank_pos pc'
    omega
  · exact ⟨add, ok, q, r, h1, h3⟩

/-- A post that times out takes exactly 14 steps: after 13 it has not returned, and after 14 it has. -/
example : (after (posted 0 jobA 0)).thr 0 = .post jobA .lock ∧ (after (posted 0 jobA 10 ++ [.timeout 0] ++ steps 0 2)).thr 0 = .post jobA (.unlock false) ∧
    RunFromNew .little (posted 0 jobA 10 ++ [.timeout 0] ++ steps 0 3) (after (posted 0 jobA 10 ++ [.timeout 0] ++ steps 0 3)) ∧
    (after (posted 0 jobA 10 ++ [.timeout 0] ++ steps 0 3)).thr 0 = .idle :=
  ⟨by with_unfolding_all rfl, by with_unfolding_all rfl,
    run_after' (by with_unfolding_all rfl) [reqM, Message.new] (by with_unfolding_all rfl) (fun m hm => user_msgs m (by simp at hm ⊢; rcases hm with h | h <;> simp [h])),
    by with_unfolding_all rfl⟩

end Uecho.Props
