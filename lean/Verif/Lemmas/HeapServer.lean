import Verif.Lemmas.HeapFrame
/-! # Ownership of blocks: sockets and servers -/
namespace Uecho.Lemmas.Blocks
open Uecho Uecho.Spec Uecho.Heap

/-- A server has no socket that is not bound. -/
def SrvOk (s : HSrv) : Prop := ∀ k, s.sock = some k → k.bound = true

theorem sockNew_triple : Triple [] sockNew sockF (fun s => s.bound = false) := by
  unfold sockNew
  frame malloc_triple
  intro a _
  frame strNew_triple
  intro s _
  frame strSetValue_triple s (some "")
  intro s' _
  exact .pure (by fp) rfl

theorem sockClose_triple (s : HSock) : Triple (sockF s) (sockClose s) sockF (fun r => r.bound = false) := by
  unfold sockClose
  frame use_triple s.self
  intro _ _
  split
  · frame strSetValue_triple s.addr (some "")
    intro t _
    exact .pure (by fp) rfl
  next h => exact .pure (by fp) (by simpa using h)

theorem sockDelete_triple (s : HSock) : Triple (sockF s) (sockDelete s) (fun _ => []) (fun _ => True) := by
  unfold sockDelete
  frame sockClose_triple s
  intro r _
  frame strDelete_triple r.addr
  intro _ _
  exact (free_triple r.self).perm (by fp)

theorem sockSend_triple (e : Env) (s : HSock) (h : s.bound = true) : Triple (sockF s) (sockSend e s) (fun _ => sockF s) (fun _ => True) := by
  unfold sockSend
  frame use_triple s.self
  intro _ _
  frame strRead_triple s.addr
  intro _ _
  rw [if_pos h]
  refine .last ?_
  frame coin_triple e
  intro _ _
  exact .pure (by fp) trivial

theorem srvNew_triple : Triple [] srvNew srvF (fun s => s.sock = none ∧ s.thread = none) := by
  unfold srvNew
  frame malloc_triple
  intro a _
  frame malloc_triple
  intro m _
  frame malloc_triple
  intro l _
  exact .pure (by fp) ⟨rfl, rfl⟩

theorem srvClose_triple (s : HSrv) : Triple (srvF s) (srvClose s) srvF (fun r => r = { s with sock := none }) := by
  unfold srvClose
  frame use_triple s.self
  intro _ _
  rcases h : s.sock with _ | k
  · simp only
    exact .pure (by simp only [srvF, h]; fp) (by cases s; simp_all)
  · simp only
    refine Triple.perm (P := srvF { s with sock := some k }) ?_ (by rw [← h]; fp)
    frame sockClose_triple k
    intro k' _
    frame sockDelete_triple k'
    intro _ _
    exact .pure (by fp) rfl

theorem srvStop_triple (s : HSrv) : Triple (srvF s) (srvStop s) srvF
    (fun r => r.thread = none ∧ (s.thread = none → r = s) ∧ (s.thread ≠ none → r.sock = none) ∧ (s.sock = none → r.sock = none)) := by
  unfold srvStop
  frame use_triple s.self
  intro _ _
  rcases h : s.thread with _ | t
  · simp only
    exact .pure (by simp only [srvF, h]; fp) ⟨h, fun _ => rfl, fun c => absurd rfl c, id⟩
  · simp only
    refine Triple.perm (P := srvF s) ?_ (by simp only [srvF, h]; fp)
    frame srvClose_triple s
    intro s' hs'
    subst hs'
    simp only
    refine Triple.perm (P := srvF { s with sock := none, thread := some t }) ?_ (by rw [← h]; fp)
    frame use_triple t
    intro _ _
    frame free_triple t
    intro _ _
    exact .pure (by fp) ⟨rfl, fun c => absurd c (by simp), fun _ => rfl, fun _ => rfl⟩

theorem mgrDelete_triple (mgr olist : Nat) (obs : List Nat) : Triple ([mgr] ++ [olist] ++ obs) (mgrDelete mgr olist obs) (fun _ => []) (fun _ => True) := by
  unfold mgrDelete
  touching
  intro _ _
  frame freeAll_triple obs
  intro _ _
  frame free_triple olist
  intro _ _
  exact (free_triple mgr).perm (by fp)

theorem sockDeleteOpt_triple (s : Option HSock) : Triple (sockOptF s) (sockDeleteOpt s) (fun _ => []) (fun _ => True) := by
  cases s with
  | none => exact .pure (.refl _) trivial
  | some k => exact sockDelete_triple k

theorem srvDelete_triple (s : HSrv) (h : s.thread = none) : Triple (srvF s) (srvDelete s) (fun _ => []) (fun _ => True) := by
  unfold srvDelete
  refine Triple.perm (P := [s.self] ++ [s.mgr] ++ [s.olist] ++ s.obs ++ sockOptF s.sock) ?_ (by simp only [srvF, h]; fp)
  frame use_triple s.self
  intro _ _
  frame sockDeleteOpt_triple s.sock
  intro _ _
  frame mgrDelete_triple s.mgr s.olist s.obs
  intro _ _
  exact (free_triple s.self).perm (by fp)

theorem mcastDelete_triple (s : HSrv) (h : s.sock = none) : Triple (srvF s) (mcastDelete s) (fun _ => []) (fun _ => True) := by
  unfold mcastDelete
  frame srvStop_triple s
  intro r hr
  have h1 := hr.2.2.2 h
  have h2 := hr.1
  refine Triple.perm (P := [r.self] ++ [r.mgr] ++ [r.olist] ++ r.obs) ?_ (by simp only [srvF, h1, h2]; fp)
  frame mgrDelete_triple r.mgr r.olist r.obs
  intro _ _
  exact (free_triple r.self).perm (by fp)

theorem srvOpen_triple (e : Env) (mcast : Bool) (s : HSrv) (addr : String) : Triple (srvF s) (srvOpen e mcast s addr) (fun r => srvF r.2)
    (fun r => r.2.thread = s.thread ∧ SrvOk r.2 ∧ (r.1 = false → r.2.sock = none)) := by
  unfold srvOpen
  frame srvClose_triple s
  intro s1 h1
  have t1 : s1.thread = s.thread := by rw [h1]
  have k1 : s1.sock = none := by rw [h1]
  frame sockNew_triple
  intro k _
  frame coin_triple e
  intro ok _
  refine Triple.perm (P := srvF { s1 with sock := some k }) ?_ (by simp only [srvF, k1]; fp)
  split
  · frame strSetValue_triple k.addr (some addr)
    intro t _
    frame coin_triple e
    intro j _
    split
    · frame srvClose_triple { s1 with sock := some { k with addr := t, bound := true } }
      intro s2 h2
      subst h2
      exact .pure (by fp) ⟨t1, fun k h => by simp at h, fun _ => rfl⟩
    · refine .pure (by fp) ⟨t1, fun k h => ?_, fun c => by simp at c⟩
      simp only [Option.some.injEq] at h
      subst h
      rfl
  · frame coin_triple e
    intro b _
    frame srvClose_triple { s1 with sock := some { k with bound := b } }
    intro s2 h2
    subst h2
    exact .pure (by fp) ⟨t1, fun k h => by simp at h, fun _ => rfl⟩

theorem srvStart_triple (e : Env) (s : HSrv) (hs : SrvOk s) : Triple (srvF s) (srvStart e s) (fun r => srvF r.2) (fun r => SrvOk r.2) := by
  unfold srvStart
  frame srvStop_triple s
  intro s1 h1
  have ok1 : SrvOk s1 := by
    intro k hk
    by_cases c : s.thread = none
    · rw [h1.2.1 c] at hk; exact hs k hk
    · rw [h1.2.2.1 c] at hk; cases hk
  frame use_triple s1.self
  intro _ _
  split
  · exact .pure (by fp) ok1
  · frame malloc_triple
    intro t _
    frame coin_triple e
    intro ok _
    refine Triple.perm (P := srvF { s1 with thread := some t }) ?_ (by simp only [srvF, h1.1]; fp)
    split
    · exact .pure (by fp) ok1
    · frame srvStop_triple { s1 with thread := some t }
      intro s2 h2
      refine .pure (by fp) fun k hk => ?_
      rw [h2.2.2.1 (by simp)] at hk
      cases hk

theorem eachSrv_triple {f : HSrv → H HSrv} {I J : HSrv → Prop} (t : ∀ s, I s → Triple (srvF s) (f s) srvF J) :
    ∀ l : List HSrv, (∀ s ∈ l, I s) → Triple (srvsF l) (eachSrv f l) srvsF (fun r => ∀ s ∈ r, J s) := by
  intro l
  induction l with
  | nil => intro _; exact .pure (.refl _) (by simp)
  | cons s l ih =>
    intro hl
    unfold eachSrv
    refine Triple.bind (K := srvsF l) (t s (hl s (by simp))) (by fp) ?_
    intro s1 h1
    refine Triple.bind (K := srvF s1) (ih fun x hx => hl x (by simp [hx])) (by fp) ?_
    intro l1 hl1
    refine .pure (by fp) ?_
    intro x hx
    rcases List.mem_cons.1 hx with rfl | hx
    · exact h1
    · exact hl1 x hx

/-- Closing all servers of a list, … -/
theorem closeEach_triple (l : List HSrv) : Triple (srvsF l) (eachSrv srvClose l) srvsF (fun r => ∀ s ∈ r, s.sock = none) :=
  eachSrv_triple (I := fun _ => True) (fun s _ => (srvClose_triple s).weak fun _ h => by rw [h]) l fun _ _ => trivial

/-- … then stopping them. -/
theorem stopEach_triple (l : List HSrv) (hl : ∀ s ∈ l, s.sock = none) : Triple (srvsF l) (eachSrv srvStop l) srvsF
    (fun r => ∀ s ∈ r, s.sock = none ∧ s.thread = none) :=
  eachSrv_triple (I := fun s => s.sock = none) (fun s hs => (srvStop_triple s).weak fun _ h => ⟨h.2.2.2 hs, h.1⟩) l hl

theorem srvsClear_triple (hdr : Nat) (l : List HSrv) (hl : ∀ s ∈ l, s.thread = none) :
    Triple ([hdr] ++ srvsF l) (srvsClear hdr l) (fun _ => [hdr]) (fun _ => True) := by
  induction l with
  | nil =>
    unfold srvsClear
    refine .last ?_
    frame use_triple hdr
    intro _ _
    exact .pure (by fp) trivial
  | cons s l ih =>
    unfold srvsClear
    touching
    intro _ _
    frame srvDelete_triple s (hl s (by simp))
    intro _ _
    exact (ih fun x hx => hl x (by simp [hx])).perm (by fp)

theorem mcastsClear_triple (hdr : Nat) (l : List HSrv) (hl : ∀ s ∈ l, s.sock = none) :
    Triple ([hdr] ++ srvsF l) (mcastsClear hdr l) (fun _ => [hdr]) (fun _ => True) := by
  induction l with
  | nil =>
    unfold mcastsClear
    refine .last ?_
    frame use_triple hdr
    intro _ _
    exact .pure (by fp) trivial
  | cons s l ih =>
    unfold mcastsClear
    touching
    intro _ _
    frame mcastDelete_triple s (hl s (by simp))
    intro _ _
    exact (ih fun x hx => hl x (by simp [hx])).perm (by fp)

/-! ### Opening and starting -/

/-- The blocks of a list of interfaces. -/
def ifsF (l : List HIf) : List Nat := l.flatMap fun i => [i.self] ++ strF i.name ++ strF i.addr ++ strF i.mask

theorem ifsF_cons (i : HIf) (l : List HIf) : ifsF (i :: l) = [i.self] ++ strF i.name ++ strF i.addr ++ strF i.mask ++ ifsF l := by
  simp [ifsF]

theorem ifsNew_triple (as : List String) : Triple [] (ifsNew as) ifsF (fun _ => True) := by
  induction as with
  | nil => exact .pure (.refl _) trivial
  | cons a as ih =>
    unfold ifsNew
    frame malloc_triple
    intro p _
    frame strNew_triple
    intro n _
    frame strNew_triple
    intro s _
    frame strNew_triple
    intro k _
    frame strSetValue_triple n (some "if")
    intro n' _
    frame strSetValue_triple s (some a)
    intro s' _
    frame strSetValue_triple k (some "")
    intro k' _
    frame ih
    intro l _
    exact .pure (by rw [ifsF_cons]; fp) trivial

theorem ifsClear_triple (l : List HIf) : Triple (ifsF l) (ifsClear l) (fun _ => []) (fun _ => True) := by
  induction l with
  | nil => exact .pure (.refl _) trivial
  | cons i l ih =>
    unfold ifsClear
    rw [ifsF_cons]
    frame use_triple i.self
    intro _ _
    frame strDelete_triple i.name
    intro _ _
    frame strDelete_triple i.addr
    intro _ _
    frame strDelete_triple i.mask
    intro _ _
    frame free_triple i.self
    intro _ _
    exact ih.perm (by fp)

theorem openEach_triple (e : Env) (mcast : Bool) (is : List HIf) : ∀ (l : List HSrv), (∀ s ∈ l, SrvOk s) →
    Triple (ifsF is ++ srvsF l) (openEach e mcast is l) (fun r => ifsF is ++ srvsF r.2) (fun r => ∀ s ∈ r.2, SrvOk s) := by
  induction is with
  | nil => intro l hl; exact .pure (.refl _) hl
  | cons i is ih =>
    intro l hl
    unfold openEach
    rw [ifsF_cons]
    frame srvNew_triple
    intro s hs
    frame use_triple i.self
    intro _ _
    frame strRead_triple i.addr
    intro _ _
    frame srvOpen_triple e mcast s ((i.addr.val.map (·.2)).getD "")
    intro r hr
    split
    · touching
      intro _ _
      refine .last ?_
      have : ∀ x ∈ l ++ [r.2], SrvOk x := by
        intro x hx
        rcases List.mem_append.1 hx with hx | hx
        · exact hl x hx
        · simp only [List.mem_singleton] at hx; subst hx; exact hr.2.1
      frame ih (l ++ [r.2]) this
      intro q hq
      exact .pure (by fp) hq
    next h =>
      have h : r.1 = false := by simpa using h
      split
      · frame mcastDelete_triple r.2 (hr.2.2 h)
        intro _ _
        exact .pure (by fp) hl
      · frame srvDelete_triple r.2 (by rw [hr.1, hs.2])
        intro _ _
        exact .pure (by fp) hl

theorem srvOk_none {s : HSrv} (h : s.sock = none) : SrvOk s := fun k hk => by rw [h] at hk; cases hk

theorem slOpen_triple (e : Env) (mcast : Bool) (l : List HSrv) : Triple (srvsF l) (slOpen e mcast l) (fun r => srvsF r.2)
    (fun r => ∀ s ∈ r.2, SrvOk s) := by
  unfold slOpen
  frame closeEach_triple l
  intro l1 h1
  have ok1 : ∀ s ∈ l1, SrvOk s := fun s hs => srvOk_none (h1 s hs)
  frame malloc_triple
  intro hdr _
  frame askIfs_triple e
  intro as _
  frame ifsNew_triple as
  intro is _
  split
  · frame ifsClear_triple is
    intro _ _
    frame free_triple hdr
    intro _ _
    exact .pure (by fp) ok1
  · frame openEach_triple e mcast is l1 ok1
    intro r hr
    frame use_triple hdr
    intro _ _
    frame ifsClear_triple is
    intro _ _
    frame free_triple hdr
    intro _ _
    split
    · exact .pure (by fp) hr
    · frame closeEach_triple r.2
      intro l2 h2
      exact .pure (by fp) fun s hs => srvOk_none (h2 s hs)

theorem serverNew_triple : Triple [] serverNew serverF (fun s => s.udp = [] ∧ s.mcast = []) := by
  unfold serverNew
  frame malloc_triple
  intro a _
  frame malloc_triple
  intro u _
  frame malloc_triple
  intro c _
  frame malloc_triple
  intro m _
  frame malloc_triple
  intro l _
  exact .pure (by fp) ⟨rfl, rfl⟩

theorem serverAddObserver_triple (s : HServer) : Triple (serverF s) (Heap.serverAddObserver s) serverF (fun r => r.udp = s.udp ∧ r.mcast = s.mcast) := by
  unfold Heap.serverAddObserver
  touching
  intro _ _
  frame malloc_triple
  intro a _
  exact .pure (by fp) ⟨rfl, rfl⟩

theorem serverDelete_triple (s : HServer) : Triple (serverF s) (serverDelete s) (fun _ => []) (fun _ => True) := by
  unfold serverDelete
  touching
  intro _ _
  frame closeEach_triple s.udp
  intro u hu
  frame stopEach_triple u hu
  intro u' hu'
  frame srvsClear_triple s.ulist u' (fun x hx => (hu' x hx).2)
  intro _ _
  frame free_triple s.ulist
  intro _ _
  frame use_triple s.mlist
  intro _ _
  frame closeEach_triple s.mcast
  intro c hc
  frame stopEach_triple c hc
  intro c' hc'
  frame mcastsClear_triple s.mlist c' (fun x hx => (hc' x hx).1)
  intro _ _
  frame free_triple s.mlist
  intro _ _
  frame mgrDelete_triple s.mgr s.olist s.obs
  intro _ _
  exact (free_triple s.self).perm (by fp)

/-- The servers of a node have no sockets that are not bound. -/
def ServerOk (s : HServer) : Prop := (∀ x ∈ s.udp, SrvOk x) ∧ ∀ x ∈ s.mcast, SrvOk x

theorem serverStop_triple (s : HServer) : Triple (serverF s) (serverStop s) serverF (fun r => r = { s with udp := [], mcast := [] }) := by
  unfold serverStop
  touching
  intro _ _
  frame closeEach_triple s.mcast
  intro c hc
  frame stopEach_triple c hc
  intro c' hc'
  frame srvsClear_triple s.mlist c' (fun x hx => (hc' x hx).2)
  intro _ _
  frame use_triple s.ulist
  intro _ _
  frame closeEach_triple s.udp
  intro u hu
  frame stopEach_triple u hu
  intro u' hu'
  frame srvsClear_triple s.ulist u' (fun x hx => (hu' x hx).2)
  intro _ _
  exact .pure (by fp) rfl

theorem srvAddObserver_triple (s : HSrv) (hs : SrvOk s) : Triple (srvF s) (srvAddObserver s) srvF SrvOk := by
  unfold srvAddObserver
  touching
  intro _ _
  frame malloc_triple
  intro a _
  exact .pure (by fp) hs

theorem giveObservers_triple (as : List Nat) : ∀ (u c : List HSrv), (∀ s ∈ u, SrvOk s) → (∀ s ∈ c, SrvOk s) →
    Triple (as ++ srvsF u ++ srvsF c) (giveObservers as u c) (fun r => as ++ srvsF r.1 ++ srvsF r.2)
      (fun r => (∀ s ∈ r.1, SrvOk s) ∧ ∀ s ∈ r.2, SrvOk s) := by
  induction as with
  | nil => intro u c hu hc; exact .pure (.refl _) ⟨hu, hc⟩
  | cons a as ih =>
    intro u c hu hc
    unfold giveObservers
    refine Triple.perm (P := [a] ++ as ++ srvsF u ++ srvsF c) ?_ (by simp)
    frame use_triple a
    intro _ _
    frame eachSrv_triple srvAddObserver_triple u hu
    intro u' hu'
    frame eachSrv_triple srvAddObserver_triple c hc
    intro c' hc'
    refine .last ?_
    frame ih u' c' hu' hc'
    intro r hr
    refine .pure ?_ hr
    refine List.Perm.trans (l₂ := [a] ++ as ++ srvsF r.1 ++ srvsF r.2) (by fp) (by simp)

theorem eachStart_triple (e : Env) : ∀ (l : List HSrv), (∀ s ∈ l, SrvOk s) → Triple (srvsF l) (eachStart e l) (fun r => srvsF r.2)
    (fun r => ∀ s ∈ r.2, SrvOk s) := by
  intro l
  induction l with
  | nil => intro _; exact .pure (.refl _) (by simp)
  | cons s l ih =>
    intro hl
    unfold eachStart
    frame srvStart_triple e s (hl s (by simp))
    intro r hr
    frame ih (fun x hx => hl x (by simp [hx]))
    intro q hq
    refine .pure (by fp) ?_
    intro x hx
    rcases List.mem_cons.1 hx with rfl | hx
    · exact hr
    · exact hq x hx

theorem srvStop_ok (s : HSrv) (hs : SrvOk s) : Triple (srvF s) (srvStop s) srvF SrvOk := by
  refine (srvStop_triple s).weak fun r h k hk => ?_
  by_cases c : s.thread = none
  · rw [h.2.1 c] at hk; exact hs k hk
  · rw [h.2.2.1 c] at hk; cases hk

theorem slStart_triple (e : Env) (l : List HSrv) (hl : ∀ s ∈ l, SrvOk s) : Triple (srvsF l) (slStart e l) (fun r => srvsF r.2)
    (fun r => ∀ s ∈ r.2, SrvOk s) := by
  unfold slStart
  frame eachSrv_triple srvStop_ok l hl
  intro l1 h1
  refine .last ?_
  frame eachStart_triple e l1 h1
  intro r hr
  exact .pure (by fp) hr

theorem openUdp_triple (e : Env) (s : HServer) (hs : ∀ x ∈ s.udp, SrvOk x) : Triple (srvsF s.udp) (openUdp e s) (fun r => srvsF r.2)
    (fun r => ∀ s ∈ r.2, SrvOk s) := by
  unfold openUdp
  split
  · exact slOpen_triple e false s.udp
  · exact .pure (.refl _) hs

theorem startUdp_triple (e : Env) (on : Bool) (l : List HSrv) (hl : ∀ s ∈ l, SrvOk s) : Triple (srvsF l) (startUdp e on l) (fun r => srvsF r.2)
    (fun r => ∀ s ∈ r.2, SrvOk s) := by
  unfold startUdp
  split
  · exact slStart_triple e l hl
  · exact .pure (.refl _) hl

theorem serverStart_triple (e : Env) (s : HServer) : Triple (serverF s) (serverStart e s) serverF ServerOk := by
  unfold serverStart
  frame serverStop_triple s
  intro s1 h1
  have u1 : s1.udp = [] := by rw [h1]
  clear h1
  frame slOpen_triple e true s1.mcast
  intro rm hm
  frame openUdp_triple e s1 (by rw [u1]; simp)
  intro ru hu
  touching
  intro _ _
  frame giveObservers_triple s1.obs ru.2 rm.2 hu hm
  intro q hq
  frame slStart_triple e q.2 hq.2
  intro sm hsm
  frame startUdp_triple e s1.udpOn q.1 hq.1
  intro su hsu
  split
  · exact .pure (by fp) ⟨hsu, hsm⟩
  · refine .last ?_
    frame serverStop_triple { s1 with udp := su.2, mcast := sm.2 }
    intro r hr
    exact .pure (by fp) (by rw [hr]; exact ⟨by simp, by simp⟩)

/-! ### Sending -/

theorem sendOn_triple (e : Env) (s : HSrv) (hs : SrvOk s) : Triple (srvF s) (sendOn e s) (fun _ => srvF s) (fun _ => True) := by
  unfold sendOn
  frame use_triple s.self
  intro _ _
  rcases h : s.sock with _ | k
  · simp only
    exact .pure (by simp only [srvF, h]; fp) trivial
  · simp only
    refine .last ?_
    frame sockSend_triple e k (hs k h)
    intro _ _
    exact .pure (by simp only [srvF, h]; fp) trivial

theorem postAll_triple (e : Env) (l : List HSrv) (hl : ∀ s ∈ l, SrvOk s) : Triple (srvsF l) (postAll e l) (fun _ => srvsF l) (fun _ => True) := by
  induction l with
  | nil => exact .pure (.refl _) trivial
  | cons s l ih =>
    unfold postAll
    frame sendOn_triple e s (hl s (by simp))
    intro _ _
    frame ih (fun x hx => hl x (by simp [hx]))
    intro _ _
    exact .pure (by fp) trivial

theorem sendOnce_triple (e : Env) : Triple [] (sendOnce e) (fun _ => []) (fun _ => True) := by
  unfold sendOnce
  frame sockNew_triple
  intro k _
  frame use_triple k.self
  intro _ _
  frame coin_triple e
  intro b _
  frame sockClose_triple { k with bound := b }
  intro k' _
  frame sockDelete_triple k'
  intro _ _
  exact (coin_triple e).perm (by fp)

theorem postAnnounce_triple (e : Env) (s : HServer) (hs : ServerOk s) : Triple (serverF s) (postAnnounce e s) (fun _ => serverF s) (fun _ => True) := by
  unfold postAnnounce
  touching
  intro _ _
  frame postAll_triple e s.mcast hs.2
  intro ok _
  split
  · exact .pure (by fp) trivial
  · refine .last ?_
    frame sendOnce_triple e
    intro _ _
    exact .pure (by fp) trivial

theorem sendFirst_triple (e : Env) (l : List HSrv) (hl : ∀ s ∈ l, SrvOk s) : Triple (srvsF l) (sendFirst e l) (fun _ => srvsF l) (fun _ => True) := by
  induction l with
  | nil => exact .pure (.refl _) trivial
  | cons s l ih =>
    unfold sendFirst
    split
    · refine .last ?_
      frame sendOn_triple e s (hl s (by simp))
      intro _ _
      exact .pure (by fp) trivial
    · frame use_triple s.self
      intro _ _
      refine .last ?_
      frame ih (fun x hx => hl x (by simp [hx]))
      intro _ _
      exact .pure (by fp) trivial

theorem postResponse_triple (e : Env) (s : HServer) (hs : ServerOk s) : Triple (serverF s) (postResponse e s) (fun _ => serverF s) (fun _ => True) := by
  unfold postResponse
  touching
  intro _ _
  frame sendFirst_triple e s.udp hs.1
  intro ok _
  split
  · exact .pure (by fp) trivial
  · refine .last ?_
    frame sendOnce_triple e
    intro _ _
    exact .pure (by fp) trivial

theorem readAddrs_triple (l : List HSrv) : Triple (srvsF l) (readAddrs l) (fun _ => srvsF l) (fun _ => True) := by
  induction l with
  | nil => exact .pure (.refl _) trivial
  | cons s l ih =>
    unfold readAddrs
    frame use_triple s.self
    intro _ _
    rcases h : s.sock with _ | k
    · simp only
      refine .last ?_
      frame ih
      intro _ _
      exact .pure (by simp only [srvsF_cons, srvF, h]; fp) trivial
    · simp only
      frame use_triple k.self
      intro _ _
      frame strRead_triple k.addr
      intro _ _
      refine .last ?_
      frame ih
      intro _ _
      exact .pure (by simp only [srvsF_cons, srvF, h]; fp) trivial

end Uecho.Lemmas.Blocks
