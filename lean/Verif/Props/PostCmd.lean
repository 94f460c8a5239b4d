import Verif.Lemmas.PostCmd
/-!
# C149: what uechopost sends

Specification: `Verif/Spec/PostCmd.lean`.
-/
namespace Uecho.Props
open Uecho Uecho.Spec Uecho.Lemmas Uecho.PostCmd

/-- the command sends its message -/
theorem run_eq {l : Bool} {e : Endian} {v : Vars} {c0 e0 : CInt} {ctl n : Node} {a : String} {p : Obj} {args : List (List Char)}
    {addr objT esvT props : List Char} {more : List (List Char)} {m : Message} (hargs : args = addr :: objT :: esvT :: props :: more)
    (ha : n.address = some a) (hp : destObj ctl profileEoj = some p)
    (hm : request l v c0 e0 n objT esvT props = .ok m) (hi : Inv m) :
    ∃ ctl' eff, run l e v c0 e0 ctl n args = .ok (some (ctl', eff, m.isResponseRequired)) ∧
      posted e ctl a m.deoj m.esv (toFrame m).body eff := by
  subst hargs
  unfold run
  simp only [hm, Res.bind_ok, ha]
  rw [sendMessage_eq e ctl a hi, hp]
  simp only [Res.bind_ok, Res.pure_eq]
  exact ⟨_, _, rfl, tidBytes e (nextT ctl.lastTid), tidNat_next e _, rfl⟩

theorem waits_iff (m : Message) : m.isResponseRequired = true ↔ Answered m.esv := by
  have key : ∀ x : Byte, (Esv.requestToResponse x).isSome = decide (x = 0x61#8 ∨ x = 0x62#8 ∨ x = 0x63#8 ∨ x = 0x6E#8 ∨ x = 0x74#8) := by decide
  unfold Message.isResponseRequired Answered
  rw [key, decide_eq_true_eq]
  exact Iff.rfl

theorem typed_length (ps : List Prop8) : ps.length ≤ (typed ps).length := by
  induction ps with
  | nil => simp
  | cons q ps ih => simp only [typed, List.flatMap_cons, List.length_append, List.length_cons] at ih ⊢; omega

/-- typed properties followed by something at which the loop ends -/
theorem typed_run (l : Bool) (e : Endian) (v : Vars) (c0 e0 : CInt) {ctl n : Node} {a : String} (ha : n.address = some a)
    (hc : (destObj ctl profileEoj).isSome) {x : Byte × Byte × Byte} {esv : Byte}
    {ps : List Prop8} (hlen : ∀ q ∈ ps, q.2.length ≤ 255) (hnum : ps.length ≤ 255) (hnd : (codes ps).Nodup)
    (addr : List Char) {objT esvT propsT : List Char} (ho : Spells [x.1, x.2.1, x.2.2] objT) (he : Spells [esv] esvT)
    (hp : Spells (typed ps) propsT) (tail : List Char) (ht : ∀ k pos v m, loop l k pos tail v m = .ok m) :
    ∃ ctl' eff w, run l e v c0 e0 ctl n [addr, objT, esvT, propsT ++ tail] = .ok (some (ctl', eff, w)) ∧
      posted e ctl a (target3 n x) esv (if IsSetGet esv then .setGet [] [] else .plain ps) eff ∧ (w = true ↔ Answered esv) := by
  obtain ⟨p, hc⟩ := Option.isSome_iff_exists.1 hc
  obtain ⟨m, g1, g2, g3, g4⟩ := setAll_new ps (blank (target3 n x) esv) (blank_inv _ _) hnd (by simpa [blank, Message.new] using hnum)
  have hk : ps.length ≤ (propsT ++ tail).length := by
    rw [List.length_append, spells_length hp]
    have := typed_length ps
    omega
  obtain ⟨v', hl⟩ := loop_typed l ps propsT tail (propsT ++ tail).length 0 v (blank (target3 n x) esv) hlen hp hk
  rw [g1] at hl
  simp only [Res.bind_ok, ht] at hl
  have hr : request l v c0 e0 n objT esvT (propsT ++ tail) = .ok m := by rw [request_eq l v c0 e0 n ho he, hl]
  obtain ⟨ctl', eff, h1, h2⟩ := run_eq (l := l) (e := e) (ctl := ctl) (args := [addr, objT, esvT, propsT ++ tail]) rfl ha hc hr g2
  have hes : m.esv = esv := by rw [g4]; rfl
  have hde : m.deoj = target3 n x := by rw [g4]; rfl
  refine ⟨ctl', eff, _, h1, ?_, ?_⟩
  · have hb : (toFrame m).body = if IsSetGet esv then .setGet [] [] else .plain ps := by
      simp only [toFrame, hes, g3]
      have h1 : m.epSet = [] := by rw [g4]; rfl
      have h2 : m.epGet = [] := by rw [g4]; rfl
      rw [h1, h2]; rfl
    rw [hes, hde, hb] at h2
    exact h2
  · rw [waits_iff, hes]

/-- **C149.** A user who types the code of an object of the node, a service and up to 255 properties with different codes, in hexadecimal
digits of either case, sends exactly this request, once, to the address of the node: with the next transaction ID, from the profile of the
controller. The command then waits for a response iff requests of this service are answered. Up to three characters too many are ignored.
This does not depend on what the memory contains. Missing: the services with two lists of properties, codes that repeat, more than 255
properties. -/
theorem C149_request_partial (l : Bool) (e : Endian) (v : Vars) (c0 e0 : CInt) {ctl n : Node} {a : String} (ha : n.address = some a)
    (hc : (destObj ctl profileEoj).isSome) {x : Byte × Byte × Byte} (hx : (destObj n x).isSome) {esv : Byte} (hs : ¬ IsSetGet esv)
    {ps : List Prop8} (hlen : ∀ q ∈ ps, q.2.length ≤ 255) (hnum : ps.length ≤ 255) (hnd : (codes ps).Nodup)
    (addr : List Char) {objT esvT propsT : List Char} (ho : Spells [x.1, x.2.1, x.2.2] objT) (he : Spells [esv] esvT)
    (hp : Spells (typed ps) propsT) (tail : List Char) (ht : tail.length < 4) :
    ∃ ctl' eff w, run l e v c0 e0 ctl n [addr, objT, esvT, propsT ++ tail] = .ok (some (ctl', eff, w)) ∧
      posted e ctl a x esv (.plain ps) eff ∧ (w = true ↔ Answered esv) := by
  have h := typed_run l e v c0 e0 ha hc hlen hnum hnd addr ho he hp tail (fun k pos v m => loop_short l k pos tail v m ht)
  rw [if_neg hs, target3, if_pos hx] at h
  exact h

/-- switching a light on: `uechopost 10.0.0.2 029101 60 800130` -/
example : Spells [0x02#8, 0x91#8, 0x01#8] "029101".toList ∧ Spells [0x60#8] "60".toList ∧
    Spells (typed [(0x80#8, [0x30#8]), (0xB0#8, [])]) "800130b000".toList := by
  refine ⟨?_, ?_, ?_⟩ <;> repeat (first | exact Spells.nil | refine Spells.cons (by unfold IsDigit; decide) (by unfold IsDigit; decide) ?_)

/-- **C149 violated: the object.** If the node has no object of the code that was typed, the request is sent anyway, to the object 000000. -/
theorem C149_object_violated (l : Bool) (e : Endian) (v : Vars) (c0 e0 : CInt) {ctl n : Node} {a : String} (ha : n.address = some a)
    (hc : (destObj ctl profileEoj).isSome) {x : Byte × Byte × Byte} (hx : destObj n x = none) {esv : Byte} (hs : ¬ IsSetGet esv)
    {ps : List Prop8} (hlen : ∀ q ∈ ps, q.2.length ≤ 255) (hnum : ps.length ≤ 255) (hnd : (codes ps).Nodup)
    (addr : List Char) {objT esvT propsT : List Char} (ho : Spells [x.1, x.2.1, x.2.2] objT) (he : Spells [esv] esvT)
    (hp : Spells (typed ps) propsT) :
    ∃ ctl' eff w, run l e v c0 e0 ctl n [addr, objT, esvT, propsT] = .ok (some (ctl', eff, w)) ∧
      posted e ctl a (0x00#8, 0x00#8, 0x00#8) esv (.plain ps) eff := by
  obtain ⟨ctl', eff, w, h1, h2, _⟩ := typed_run l e v c0 e0 ha hc hlen hnum hnd addr ho he hp [] (fun k pos v m => loop_short l k pos [] v m (by simp))
  rw [if_neg hs, target3, if_neg (by simp [hx])] at h2
  rw [List.append_nil] at h1
  exact ⟨ctl', eff, w, h1, h2⟩

/-- **C149 violated: two lists.** With a service that has two lists of properties, like SetGet (6E), none of the properties that were typed is sent. -/
theorem C149_setget_violated (l : Bool) (e : Endian) (v : Vars) (c0 e0 : CInt) {ctl n : Node} {a : String} (ha : n.address = some a)
    (hc : (destObj ctl profileEoj).isSome) {x : Byte × Byte × Byte} (hx : (destObj n x).isSome) {esv : Byte} (hs : IsSetGet esv)
    {ps : List Prop8} (hlen : ∀ q ∈ ps, q.2.length ≤ 255) (hnum : ps.length ≤ 255) (hnd : (codes ps).Nodup)
    (addr : List Char) {objT esvT propsT : List Char} (ho : Spells [x.1, x.2.1, x.2.2] objT) (he : Spells [esv] esvT)
    (hp : Spells (typed ps) propsT) :
    ∃ ctl' eff w, run l e v c0 e0 ctl n [addr, objT, esvT, propsT] = .ok (some (ctl', eff, w)) ∧
      posted e ctl a x esv (.setGet [] []) eff := by
  obtain ⟨ctl', eff, w, h1, h2, _⟩ := typed_run l e v c0 e0 ha hc hlen hnum hnd addr ho he hp [] (fun k pos v m => loop_short l k pos [] v m (by simp))
  rw [if_pos hs, target3, if_pos hx] at h2
  rw [List.append_nil] at h1
  exact ⟨ctl', eff, w, h1, h2⟩

/-- **C149 violated: a property that is cut off.** If the data of a property is shorter than its number says, the request is sent without this
property and what follows, and the command does not say so. -/
theorem C149_incomplete_violated (l : Bool) (e : Endian) (v : Vars) (c0 e0 : CInt) {ctl n : Node} {a : String} (ha : n.address = some a)
    (hc : (destObj ctl profileEoj).isSome) {x : Byte × Byte × Byte} (hx : (destObj n x).isSome) {esv : Byte} (hs : ¬ IsSetGet esv)
    {ps : List Prop8} (hlen : ∀ q ∈ ps, q.2.length ≤ 255) (hnum : ps.length ≤ 255) (hnd : (codes ps).Nodup)
    (addr : List Char) {objT esvT propsT : List Char} (ho : Spells [x.1, x.2.1, x.2.2] objT) (he : Spells [esv] esvT)
    (hp : Spells (typed ps) propsT) {c i : Byte} {cutT rest : List Char} (hcut : Spells [c, i] cutT) (hrest : rest.length < 2 * i.toNat) :
    ∃ ctl' eff w, run l e v c0 e0 ctl n [addr, objT, esvT, propsT ++ (cutT ++ rest)] = .ok (some (ctl', eff, w)) ∧
      posted e ctl a x esv (.plain ps) eff := by
  obtain ⟨ctl', eff, w, h1, h2, _⟩ := typed_run l e v c0 e0 ha hc hlen hnum hnd addr ho he hp (cutT ++ rest)
    (fun k pos v m => loop_cut l hcut hrest v m)
  rw [if_neg hs, target3, if_pos hx] at h2
  exact ⟨ctl', eff, w, h1, h2⟩

/-- **C149 violated: a code twice.** Of two properties with the same code only the second is sent. -/
theorem C149_repeated_violated (l : Bool) (e : Endian) (v : Vars) (c0 e0 : CInt) {ctl n : Node} {a : String} (ha : n.address = some a)
    (hc : (destObj ctl profileEoj).isSome) {x : Byte × Byte × Byte} (hx : (destObj n x).isSome) {esv : Byte} (hs : ¬ IsSetGet esv)
    {c : Byte} {d1 d2 : List Byte} (h1 : d1.length ≤ 255) (h2 : d2.length ≤ 255)
    (addr : List Char) {objT esvT propsT : List Char} (ho : Spells [x.1, x.2.1, x.2.2] objT) (he : Spells [esv] esvT)
    (hp : Spells (typed [(c, d1), (c, d2)]) propsT) :
    ∃ ctl' eff w, run l e v c0 e0 ctl n [addr, objT, esvT, propsT] = .ok (some (ctl', eff, w)) ∧
      posted e ctl a x esv (.plain [(c, d2)]) eff := by
  obtain ⟨p, hc⟩ := Option.isSome_iff_exists.1 hc
  have hk := typed_length [(c, d1), (c, d2)]
  have hl := spells_length hp
  obtain ⟨v', h⟩ := loop_typed l [(c, d1), (c, d2)] propsT [] propsT.length 0 v (blank (target3 n x) esv)
    (by simp [h1, h2]) hp (by omega)
  have g1 : setAll (blank (target3 n x) esv) [(c, d1), (c, d2)] =
      .ok { blank (target3 n x) esv with opc := 1, ep := [{ Property.new with code := c, data := d2 }] } := by
    have e1 := setProperty_new (blank_inv (target3 n x) esv) (c := c) (by simp [blank, Message.new, view, codes]) d1
    rw [if_pos (by simp [blank, Message.new])] at e1
    simp only [setAll, e1, Res.bind_ok]
    unfold Message.setProperty
    rw [propSet_eq (by rfl)]
    simp [blank, Message.new, Message.modifyFirst]
  rw [g1] at h
  simp only [Res.bind_ok, List.append_nil] at h
  rw [loop_short _ _ _ [] _ _ (by simp)] at h
  have hr : request l v c0 e0 n objT esvT propsT = .ok { blank (target3 n x) esv with opc := 1, ep := [{ Property.new with code := c, data := d2 }] } := by
    rw [request_eq l v c0 e0 n ho he, h]
  obtain ⟨ctl', eff, r1, r2⟩ := run_eq (l := l) (e := e) (ctl := ctl) (args := [addr, objT, esvT, propsT]) rfl ha hc hr ⟨⟨rfl, rfl, rfl⟩, rfl, rfl⟩
  refine ⟨ctl', eff, _, r1, ?_⟩
  have hb : (toFrame { blank (target3 n x) esv with opc := 1, ep := [{ Property.new with code := c, data := d2 }] }).body = .plain [(c, d2)] := by
    show (if IsSetGet esv then _ else _) = _
    rw [if_neg hs]; rfl
  rw [hb] at r2
  have ht : target3 n x = x := by rw [target3, if_pos hx]
  have r2 : posted e ctl a (target3 n x) esv (.plain [(c, d2)]) eff := r2
  rw [ht] at r2
  exact r2

/-- **C149 violated: many properties.** The properties with all 256 codes cannot be typed: the command does something undefined. -/
theorem C149_many_violated (l : Bool) (e : Endian) (v : Vars) (c0 e0 : CInt) (ctl n : Node) {x : Byte × Byte × Byte} {esv : Byte}
    {ps : List Prop8} (hlen : ∀ q ∈ ps, q.2.length ≤ 255) (hnum : 255 < ps.length) (hnd : (codes ps).Nodup)
    (addr : List Char) {objT esvT propsT : List Char} (ho : Spells [x.1, x.2.1, x.2.2] objT) (he : Spells [esv] esvT)
    (hp : Spells (typed ps) propsT) : run l e v c0 e0 ctl n [addr, objT, esvT, propsT] = .ub := by
  have hk := typed_length ps
  have hl := spells_length hp
  obtain ⟨v', h⟩ := loop_typed l ps propsT [] propsT.length 0 v (blank (target3 n x) esv) hlen hp (by omega)
  rw [setAll_full ps _ (blank_inv _ _) hnd (by simpa [blank, Message.new] using hnum), List.append_nil] at h
  have hr : request l v c0 e0 n objT esvT propsT = .ub := by rw [request_eq l v c0 e0 n ho he, h]; rfl
  simp only [run, hr]; rfl

example : ∃ ps : List Prop8, (∀ q ∈ ps, q.2.length ≤ 255) ∧ 255 < ps.length ∧ (codes ps).Nodup :=
  ⟨(List.range 256).map fun i => (BitVec.ofNat 8 i, []), by simp, by simp, by decide +kernel⟩

/-- **C149 violated: more arguments.** The usage says that properties may follow one another as arguments; all but the first are ignored. -/
theorem C149_arguments_violated (l : Bool) (e : Endian) (v : Vars) (c0 e0 : CInt) (ctl n : Node) (addr objT esvT propsT : List Char)
    (more : List (List Char)) :
    run l e v c0 e0 ctl n (addr :: objT :: esvT :: propsT :: more) = run l e v c0 e0 ctl n [addr, objT, esvT, propsT] := rfl

/-- **C149 violated: no digits.** A text that is not hexadecimal is not refused: the code of the property that is sent can be anything, for it
is what the memory of the variable contained. -/
theorem C149_nothex_violated (l : Bool) (e : Endian) (c0 e0 : CInt) {ctl n : Node} {a : String} (ha : n.address = some a)
    (hc : (destObj ctl profileEoj).isSome) {x : Byte × Byte × Byte} (hx : (destObj n x).isSome) {esv : Byte} (hs : ¬ IsSetGet esv)
    (addr : List Char) {objT esvT : List Char} (ho : Spells [x.1, x.2.1, x.2.2] objT) (he : Spells [esv] esvT) (c : Byte) :
    ∃ v ctl' eff w, run l e v c0 e0 ctl n [addr, objT, esvT, "none".toList] = .ok (some (ctl', eff, w)) ∧
      posted e ctl a x esv (.plain [(c, [])]) eff := by
  obtain ⟨p, hc⟩ := Option.isSome_iff_exists.1 hc
  obtain ⟨v, hv⟩ : ∃ v : Vars, v = ⟨c.setWidth 32, 0#32, 0#32⟩ := ⟨_, rfl⟩
  have hsc : scan2 l "none".toList v = .ok v := rfl
  have e1 := setProperty_new (blank_inv (target3 n x) esv) (c := c) (by simp [blank, Message.new, view, codes]) []
  rw [if_pos (by simp [blank, Message.new])] at e1
  have hr : request l v c0 e0 n objT esvT "none".toList = .ok { blank (target3 n x) esv with
      opc := (blank (target3 n x) esv).opc + 1, ep := (blank (target3 n x) esv).ep ++ [{ Property.new with code := c, data := [] }] } := by
    rw [request_eq l v c0 e0 n ho he]
    show loop l (3 + 1) 0 _ v _ = _
    rw [loop_succ _ _ _ _ _ _ (by decide), hsc]
    simp only [Res.bind_ok]
    rw [if_pos (by rw [hv]), show (v.epc.setWidth 8) = c by rw [hv]; simp, e1]
    rfl
  obtain ⟨ctl', eff, r1, r2⟩ := run_eq (l := l) (e := e) (ctl := ctl) (args := [addr, objT, esvT, "none".toList]) rfl ha hc hr ⟨⟨rfl, rfl, rfl⟩, rfl, rfl⟩
  refine ⟨v, ctl', eff, _, r1, ?_⟩
  have ht : target3 n x = x := by rw [target3, if_pos hx]
  have r2 : posted e ctl a (target3 n x) esv (if IsSetGet esv then _ else .plain [(c, [])]) eff := r2
  rw [ht, if_neg hs] at r2
  exact r2

/-- a prefix, in a C library that reads it as 0 -/
theorem loop_prefix {k pos : Nat} {i : Byte} {x : Char} {s r : List Char} (hx : x = 'x' ∨ x = 'X') (hs : Spells [i] s) (hr : r.length < 2 * i.toNat)
    (v : Vars) (m : Message) : loop true k pos ('0' :: x :: s ++ r) v m = .ok m := by
  cases k with
  | zero => rfl
  | succ k =>
    cases hs with | cons a2 b2 h2 => cases h2 with | nil =>
    have hi := i.isLt
    have hn : (i.setWidth 32).toNat = i.toNat := by simp; omega
    have hint : (i.setWidth 32).toInt = i.toNat := by
      rw [BitVec.toInt_eq_toNat_of_lt (by rw [hn]; omega), hn]
    have h0 : ∀ t : List Char, scanHex true (some 2) ('0' :: x :: t) = .ok (some (0#32, t)) := by
      intro t
      rcases hx with rfl | rfl <;> rfl
    simp only [List.cons_append, List.nil_append]
    rw [loop_succ _ _ _ _ _ _ (by simp)]
    simp only [scan2, h0, scan_byte true a2 b2, Res.bind_ok, Res.pure_eq, hint]
    rw [if_neg (by intro h; have := congrArg BitVec.toNat h; rw [hn] at this; simp at this; rw [this] at hr; simp at hr),
      if_neg (by omega), if_pos (by simp only [List.length_cons]; omega)]

/-- **C149 violated: a prefix.** With C libraries that read `0x` alone as 0, a property that is typed with this prefix, like 0x800130, is not sent:
the code is then taken for the number of bytes, and if there are not so many the request has no properties. -/
theorem C149_prefix_violated (e : Endian) (v : Vars) (c0 e0 : CInt) {ctl n : Node} {a : String} (ha : n.address = some a)
    (hc : (destObj ctl profileEoj).isSome) {x : Byte × Byte × Byte} (hx : (destObj n x).isSome) {esv : Byte} (hs : ¬ IsSetGet esv)
    (addr : List Char) {objT esvT : List Char} (ho : Spells [x.1, x.2.1, x.2.2] objT) (he : Spells [esv] esvT) {c : Byte} {d : List Byte}
    {codeT restT : List Char} (hcode : Spells [c] codeT) (hrest : Spells (BitVec.ofNat 8 d.length :: d) restT) (hd : d.length + 1 < c.toNat) :
    ∃ ctl' eff w, run true e v c0 e0 ctl n [addr, objT, esvT, "0x".toList ++ (codeT ++ restT)] = .ok (some (ctl', eff, w)) ∧
      posted e ctl a x esv (.plain []) eff := by
  have hl := spells_length hrest
  obtain ⟨ctl', eff, w, h1, h2, _⟩ := typed_run true e v c0 e0 ha hc (ps := []) (by simp) (by simp) (by simp [codes]) addr ho he .nil
    ("0x".toList ++ (codeT ++ restT)) (fun k pos v m => loop_prefix (.inl rfl) hcode (by rw [hl]; simp only [List.length_cons]; omega) v m)
  rw [if_neg hs, target3, if_pos hx] at h2
  exact ⟨ctl', eff, w, h1, h2⟩

/-- `0x800130` -/
example : Spells [0x80#8] "80".toList ∧ Spells (BitVec.ofNat 8 [0x30#8].length :: [0x30#8]) "0130".toList ∧ [0x30#8].length + 1 < (0x80#8 : Byte).toNat := by
  refine ⟨?_, ?_, by decide⟩ <;> repeat (first | exact Spells.nil | refine Spells.cons (by unfold IsDigit; decide) (by unfold IsDigit; decide) ?_)

/-- **C149: any arguments.** Whatever is typed, hexadecimal or not, nothing undefined happens and one frame is sent, if the object and the service
have at most 8 characters, the properties less than 1024, and the uninitialised number of bytes is not by chance beyond 2^30. Missing: the
other cases. -/
theorem C149_safe_partial (l : Bool) (e : Endian) (v : Vars) (hv : - 2 ^ 30 ≤ v.pdc.toInt ∧ v.pdc.toInt < 2 ^ 30) (c0 e0 : CInt) {ctl n : Node}
    {a : String} (ha : n.address = some a) (hc : (destObj ctl profileEoj).isSome) (addr objT esvT propsT : List Char)
    (ho : objT.length ≤ 8) (he : esvT.length ≤ 8) (hp : propsT.length < 1024) :
    ∃ ctl' eff w dst esv body, run l e v c0 e0 ctl n [addr, objT, esvT, propsT] = .ok (some (ctl', eff, w)) ∧ posted e ctl a dst esv body eff := by
  obtain ⟨p, hc⟩ := Option.isSome_iff_exists.1 hc
  obtain ⟨m, h1, h2⟩ := request_ok l hv c0 e0 n ho he hp
  obtain ⟨ctl', eff, r1, r2⟩ := run_eq (l := l) (e := e) (ctl := ctl) (args := [addr, objT, esvT, propsT]) rfl ha hc h1 h2
  exact ⟨ctl', eff, _, _, _, _, r1, r2⟩

example : ("80-1 zz0x".toList).length < 1024 := by decide

/-- **C149: what is printed.** For each property of a response the command prints a text that spells it, as it would be typed, and a space. -/
theorem C149_printed {e : Endian} {m : Message} (hm : Reachable e m) (hlen : ∀ p ∈ m.ep, p.data.length ≤ 255) :
    ∃ texts : List (List Char), printProps m = .ok (texts.flatMap (· ++ [' '])) ∧ texts.length = m.ep.length ∧
      ∀ (i : Nat) (p : Property) (t : List Char), m.ep[i]? = some p → texts[i]? = some t → Spells (typed [(p.code, p.data)]) t := by
  have hi := (reachable_inv hm).toMsgWF
  refine ⟨m.ep.map fun p => printByte p.code.toNat ++ printNat p.data.length ++ p.data.flatMap (fun x => printByte x.toNat), ?_, by simp, ?_⟩
  · unfold printProps
    rw [slots_eq hi.ep]
    simp only [Res.bind_ok, Res.pure_eq, List.flatMap_map]
  · intro i p t h1 h2
    have hp : p ∈ m.ep := List.mem_of_getElem? h1
    have hl := hlen p hp
    rw [List.getElem?_map, h1] at h2
    simp only [Option.map_some, Option.some.injEq] at h2
    rw [← h2, List.append_assoc]
    have hn : printNat p.data.length = printByte (BitVec.ofNat 8 p.data.length).toNat := by
      unfold printNat
      rw [if_pos (by omega), BitVec.toNat_ofNat, Nat.mod_eq_of_lt (by omega)]
    rw [hn]
    have : typed [(p.code, p.data)] = [p.code] ++ ([BitVec.ofNat 8 p.data.length] ++ p.data) := by simp [typed]
    rw [this]
    exact spells_append (printByte_spells _) (spells_append (printByte_spells _) (printData_spells _))

end Uecho.Props
