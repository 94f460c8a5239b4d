import Verif.Model.PropertyMap
import Verif.Spec.PropertyMap
/-! # Lemmas about property map reading and writing -/
set_option linter.unusedSimpArgs false
namespace Uecho.Lemmas
open Uecho Uecho.PropertyMap Uecho.Spec

theorem nodup_length_le {α : Type} [DecidableEq α] : ∀ {l₁ l₂ : List α}, l₁.Nodup →
    (∀ x ∈ l₁, x ∈ l₂) → l₁.length ≤ l₂.length
  | [], _, _, _ => by simp
  | a :: l, l₂, hn, hs => by
      have ha : a ∈ l₂ := hs a (by simp)
      have hn' := List.nodup_cons.mp hn
      have : l.length ≤ (l₂.erase a).length := nodup_length_le hn'.2 (fun x hx => by
        have hne : x ≠ a := fun h => hn'.1 (h ▸ hx)
        rw [List.mem_erase_of_ne hne]
        exact hs x (by simp [hx]))
      rw [List.length_erase_of_mem ha] at this
      have := List.length_pos_of_mem ha
      simp; omega

theorem initialised_map_some (l : List Byte) : initialised (l.map some) = .ok l := by
  induction l with
  | nil => rfl
  | cons a l ih => simp [initialised, ih]

theorem rd_getElem {α : Type} {a : List α} {i : Nat} (h : i < a.length) : rd a i = .ok a[i] := by
  simp [rd, List.getElem?_eq_getElem h]

theorem build_null : build none 0 = .ok (true, [0#8]) := by decide

theorem build_fmt1 (codes : List Byte) (h : codes.length ≤ 15) :
    build (some codes) codes.length = .ok (true, BitVec.ofNat 8 codes.length :: codes) := by
  have e : (List.replicate 17 (none : Option Byte)) = none :: List.replicate 16 none := rfl
  have h1 : codes.length + 1 ≤ 17 := by omega
  unfold build
  simp only [wr, List.length_replicate, Nat.reduceLT, if_true, Res.bind_ok]
  rw [e]
  simp only [List.set_cons_zero, rdN, Nat.zero_add, Nat.le_refl, if_true, Res.bind_ok, h,
    List.drop_zero, List.take_length]
  rw [wrN, if_pos (by simp; omega)]
  simp only [Res.bind_ok, List.take_succ_cons, List.take_zero, List.singleton_append,
    List.cons_append, List.length_cons, List.length_append, List.length_map]
  rw [if_pos (by omega)]
  simp only [Res.bind_ok]
  have : List.take (codes.length + 1)
      (some (BitVec.ofNat 8 codes.length) :: (codes.map some ++
        List.drop (1 + codes.length)
          (some (BitVec.ofNat 8 codes.length) :: List.replicate 16 none))) =
      (BitVec.ofNat 8 codes.length :: codes).map some := by
    rw [List.take_succ_cons, List.take_append_of_le_length (by simp),
      List.take_of_length_le (by simp)]
    simp
  rw [List.take_succ_cons] at this
  rw [List.nil_append, this, initialised_map_some]
  rfl

/-! ### format 2 -/

/-- effect of one code on the bitmap rows, seen as a function of the row -/
def step (f : Nat → Byte) (c : Byte) : Nat → Byte := fun i =>
  match codeToFormat2 c with
  | none => f i
  | some (row, bit) => if i + 1 = row then f i ||| ((BitVec.ofNat 8 (1 <<< bit)) &&& 0x0F#8) else f i

theorem format2_low : ∀ c : Byte, c.toNat < 0x80 → codeToFormat2 c = none := by
  intro c h; simp [codeToFormat2, h]

theorem format2_high : ∀ c : Byte, ¬ c.toNat < 0x80 →
    ∃ i j, i < 16 ∧ j < 8 ∧ codeToFormat2 c = some (i + 1, j) ∧ c = bitToCode i j := by
  intro c h
  have key : ∀ c : Byte, ¬ c.toNat < 0x80 →
      codeToFormat2 c = some ((c.toNat - 0x80) % 16 + 1, (c.toNat - 0x80) / 16) ∧
      c = bitToCode ((c.toNat - 0x80) % 16) ((c.toNat - 0x80) / 16) := by decide +kernel
  have hlt := c.isLt
  exact ⟨_, _, by omega, by omega, (key c h).1, (key c h).2⟩

theorem bitToCode_eq (i j : Nat) : bitToCode i j = mapCode i j := by
  apply BitVec.eq_of_toNat_eq
  simp [bitToCode, mapCode]; omega

theorem mapCode_inj {i j i' j' : Nat} (hi : i < 16) (hj : j < 8) (hi' : i' < 16) (hj' : j' < 8)
    (h : mapCode i j = mapCode i' j') : i = i' ∧ j = j' := by
  have := congrArg BitVec.toNat h
  simp [mapCode] at this
  omega

theorem mapCode_toNat {i j : Nat} (hi : i < 16) (hj : j < 8) :
    (mapCode i j).toNat = 0x80 + 0x10 * j + i := by
  simp [mapCode]; omega

theorem mask_bit : ∀ b : Nat, b < 8 → ∀ j : Nat, j < 8 →
    ((BitVec.ofNat 8 (1 <<< b)) &&& 0x0F#8).getLsbD j = (decide (b = j) && decide (j < 4)) := by
  decide +kernel

theorem step_bit (f : Nat → Byte) (c : Byte) {i j : Nat} (hi : i < 16) (hj : j < 8) :
    (step f c i).getLsbD j = ((f i).getLsbD j || (decide (j < 4) && c == mapCode i j)) := by
  unfold step
  by_cases h : c.toNat < 0x80
  · rw [format2_low c h]
    have : c ≠ mapCode i j := by
      intro e; rw [e, mapCode_toNat hi hj] at h; omega
    simp [this]
  · obtain ⟨i', j', hi', hj', he, hc⟩ := format2_high c h
    rw [he]
    rw [bitToCode_eq] at hc
    simp only
    by_cases e : i = i'
    · subst e
      simp only [if_true, BitVec.getLsbD_or, mask_bit j' hj' j hj]
      by_cases e2 : j' = j
      · subst e2; simp [hc]
      · have : ¬ c = mapCode i j := by
          intro e3; rw [hc] at e3; exact e2 (mapCode_inj hi hj' hi hj e3).2
        simp [e2, this]
    · have : ¬ c = mapCode i j := by
        intro e3; rw [hc] at e3; exact e (mapCode_inj hi' hj' hi hj e3).1.symm
      simp [e, this]

theorem foldl_step_bit (codes : List Byte) (f : Nat → Byte) {i j : Nat} (hi : i < 16) (hj : j < 8) :
    (codes.foldl step f i).getLsbD j =
      ((f i).getLsbD j || (decide (j < 4) && codes.any (· == mapCode i j))) := by
  induction codes generalizing f with
  | nil => simp
  | cons c cs ih =>
    simp only [List.foldl_cons, ih, step_bit f c hi hj, List.any_cons]
    cases (f i).getLsbD j <;> cases decide (j < 4) <;> simp

theorem writeFmt2_eq (codes : List Byte) (x : Option Byte) (f : Nat → Byte) :
    writeFmt2 codes (x :: (List.range 16).map (fun i => some (f i))) =
      .ok (x :: (List.range 16).map (fun i => some (codes.foldl step f i))) := by
  induction codes generalizing f with
  | nil => rfl
  | cons c cs ih =>
    rw [writeFmt2]
    by_cases h : c.toNat < 0x80
    · rw [format2_low c h]
      simp only [List.foldl_cons]
      have : step f c = f := by funext i; simp [step, format2_low c h]
      rw [this, ih]
    · obtain ⟨i, j, hi, hj, he, hc⟩ := format2_high c h
      rw [he]
      simp only
      have hr : rd (x :: (List.range 16).map (fun i => some (f i))) (i + 1) = .ok (some (f i)) := by
        simp [rd, hi]
      rw [hr]
      simp only [Res.bind_ok, wr]
      rw [if_pos (by simp; omega)]
      simp only [Res.bind_ok, List.set_cons_succ]
      have : ((List.range 16).map (fun i => some (f i))).set i
          (some (f i ||| (BitVec.ofNat 8 (1 <<< j) &&& 0x0F#8))) =
          (List.range 16).map (fun i => some (step f c i)) := by
        apply List.ext_getElem?
        intro k
        rw [List.getElem?_set]
        by_cases hk : k < 16
        · by_cases e : i = k
          · subst e; simp [step, he, hi]
          · have e' : ¬ k = i := fun h => e h.symm
            simp [step, he, hk, e, e']
        · have : i ≠ k := by omega
          simp [this, hk]
      rw [this, ih]
      rfl

/-- bitmap rows written for `codes` -/
def rowsOf (codes : List Byte) : List Byte := (List.range 16).map (codes.foldl step (fun _ => 0))

theorem build_fmt2 (codes : List Byte) (h : 15 < codes.length) :
    build (some codes) codes.length =
      .ok (false, BitVec.ofNat 8 codes.length :: rowsOf codes) := by
  have e : (List.replicate 17 (none : Option Byte)) = none :: List.replicate 16 none := rfl
  have e2 : List.replicate 16 (some (0#8)) =
      (List.range 16).map (fun i => some ((fun _ => (0 : Byte)) i)) := by decide
  unfold build
  simp only [wr, List.length_replicate, Nat.reduceLT, if_true, Res.bind_ok]
  rw [e]
  simp only [List.set_cons_zero, rdN, Nat.zero_add, Nat.le_refl, if_true, Res.bind_ok,
    List.drop_zero, List.take_length]
  rw [if_neg (by omega)]
  rw [wrN, if_pos (by simp)]
  simp only [Res.bind_ok, List.take_succ_cons, List.take_zero, List.singleton_append,
    List.cons_append, List.nil_append]
  have e3 : List.drop (1 + (List.replicate 16 (some (0 : Byte))).length)
      (some (BitVec.ofNat 8 codes.length) :: List.replicate 16 none) = [] := by
    simp
  rw [e3, List.append_nil, show (0 : Byte) = 0#8 from rfl, e2, writeFmt2_eq]
  simp only [Res.bind_ok]
  rw [if_pos (by simp)]
  have e4 : List.take 17 (some (BitVec.ofNat 8 codes.length) ::
      (List.range 16).map (fun i => some (codes.foldl step (fun _ => 0) i))) =
      (BitVec.ofNat 8 codes.length :: rowsOf codes).map some := by
    rw [List.take_of_length_le (by simp)]
    simp [rowsOf]
  simp only [Res.bind_ok]
  rw [e4, initialised_map_some]
  rfl

theorem rowsOf_length (codes : List Byte) : (rowsOf codes).length = 16 := by simp [rowsOf]

theorem rowsOf_bit (codes : List Byte) {i j : Nat} (hi : i < 16) (hj : j < 8) :
    ∃ b, (rowsOf codes)[i]? = some b ∧
      b.getLsbD j = (decide (j < 4) && decide (mapCode i j ∈ codes)) := by
  refine ⟨codes.foldl step (fun _ => 0) i, by simp [rowsOf, hi], ?_⟩
  rw [foldl_step_bit codes _ hi hj]
  have : codes.any (· == mapCode i j) = decide (mapCode i j ∈ codes) := by
    rw [Bool.eq_iff_iff]; simp
  rw [this]; simp

/-! ### reading -/

/-- the caller's array after writing `xs` from index `idx` -/
def put (arr : List (Option Byte)) (idx : Nat) (xs : List Byte) : List (Option Byte) :=
  arr.take idx ++ xs.map some ++ arr.drop (idx + xs.length)

theorem put_nil (arr : List (Option Byte)) (idx : Nat) : put arr idx [] = arr := by
  simp [put]

theorem put_cons (arr : List (Option Byte)) (idx : Nat) (x : Byte) (xs : List Byte)
    (h : idx < arr.length) : put (arr.set idx (some x)) (idx + 1) xs = put arr idx (x :: xs) := by
  unfold put
  rw [List.take_set, List.drop_set_of_lt (by omega)]
  rw [List.take_succ_eq_append_getElem h]
  rw [List.set_append_right _ _ (by simp; omega)]
  simp [Nat.min_eq_left (Nat.le_of_lt h)]
  congr 1
  omega

theorem put_length (arr : List (Option Byte)) (idx : Nat) (xs : List Byte)
    (h : idx + xs.length ≤ arr.length) : (put arr idx xs).length = arr.length := by
  simp [put]; omega

/-- cell (i, j) is selected by the reader in `data` -/
def hit (data : List Byte) (c : Nat × Nat) : Bool :=
  match data[c.1 + 1]? with
  | none => false
  | some b => b &&& ((BitVec.ofNat 8 (1 <<< c.2)) &&& 0x0F#8) != 0

def hits (data : List Byte) (cs : List (Nat × Nat)) : List Byte :=
  (cs.filter (hit data)).map fun c => bitToCode c.1 c.2

theorem readFmt2_eq (data : List Byte) (size : Nat) (hd : data.length = 17) :
    ∀ (cs : List (Nat × Nat)) (idx : Nat) (arr : List (Option Byte)),
    (∀ c ∈ cs, c.1 < 16) → size ≤ arr.length → idx ≤ size →
    readFmt2 data size cs idx arr =
      if idx + (hits data cs).length ≤ size then .ok (true, put arr idx (hits data cs))
      else .ok (false, put arr idx ((hits data cs).take (size - idx)))
  | [], idx, arr, _, _, hi => by simp [readFmt2, hits, put_nil, hi]
  | (i, j) :: cs, idx, arr, hc, hs, hi => by
      have hi16 : i < 16 := hc (i, j) (by simp)
      have hc' : ∀ c ∈ cs, c.1 < 16 := fun c h => hc c (by simp [h])
      rw [readFmt2, rd_getElem (by omega)]
      simp only [Res.bind_ok]
      have hh : hit data (i, j) = (data[i + 1] &&& (BitVec.ofNat 8 (1 <<< j) &&& 15#8) != 0) := by
        simp [hit, List.getElem?_eq_getElem (show i + 1 < data.length by omega)]
      by_cases hb : data[i + 1] &&& (BitVec.ofNat 8 (1 <<< j) &&& 15#8) = 0
      · have : hits data ((i, j) :: cs) = hits data cs := by
          unfold hits
          rw [List.filter_cons_of_neg]
          rw [hh]; simpa using hb
        rw [if_pos hb, this]
        exact readFmt2_eq data size hd cs idx arr hc' hs hi
      · have : hits data ((i, j) :: cs) = bitToCode i j :: hits data cs := by
          unfold hits
          rw [List.filter_cons_of_pos]
          · rfl
          · rw [hh]; simpa using hb
        rw [if_neg hb, this]
        by_cases hle : size ≤ idx
        · have : idx = size := by omega
          subst this
          simp [put_nil]
        · rw [if_neg hle]
          simp only [wr]
          rw [if_pos (by omega)]
          simp only [Res.bind_ok]
          rw [readFmt2_eq data size hd cs (idx + 1) _ hc' (by simpa using hs) (by omega)]
          have e : size - idx = (size - (idx + 1)) + 1 := by omega
          rw [put_cons _ _ _ _ (by omega), put_cons _ _ _ _ (by omega), e, List.take_succ_cons]
          simp only [List.length_cons]
          by_cases h : idx + 1 + (hits data cs).length ≤ size
          · rw [if_pos h, if_pos (by omega)]
          · rw [if_neg h, if_neg (by omega)]

theorem readFmt1_eq (data : List Byte) (k : Nat) : ∀ (m n : Nat) (arr : List (Option Byte)),
    n + m = k → k < data.length → k ≤ arr.length →
    readFmt1 data (List.range' n m) arr = .ok (put arr n ((data.drop (n + 1)).take m))
  | 0, n, arr, _, _, _ => by simp [readFmt1, put_nil]
  | m + 1, n, arr, h, hd, ha => by
      rw [List.range'_succ, readFmt1, rd_getElem (by omega)]
      simp only [Res.bind_ok, wr]
      rw [if_pos (by omega)]
      simp only [Res.bind_ok]
      rw [readFmt1_eq data k m (n + 1) _ (by omega) hd (by simpa using ha)]
      rw [put_cons _ _ _ _ (by omega)]
      congr 2
      rw [List.drop_eq_getElem_cons (show n + 1 < data.length by omega), List.take_succ_cons]

theorem cells_lt : ∀ c ∈ cells, c.1 < 16 ∧ c.2 < 8 := by decide +kernel

/-- Closed form of `codes`. -/
theorem codes_eq (p : Property) (arr : List (Option Byte)) (size : Nat) (ha : size ≤ arr.length) :
    codes p arr size =
      match count p with
      | .ok (some n) =>
        if n ≠ size then .ok (false, arr)
        else if size ≤ 15 then
          if p.data.length < n + 1 then .ok (false, arr)
          else .ok (true, put arr 0 ((p.data.drop 1).take n))
        else if p.data.length ≠ 17 then .ok (false, arr)
        else if (hits p.data cells).length ≤ size then .ok (true, put arr 0 (hits p.data cells))
        else .ok (false, put arr 0 ((hits p.data cells).take size))
      | .ok none => .ok (false, arr)
      | .ub => .ub := by
  unfold codes
  cases hc : count p with
  | ub => rfl
  | ok o =>
    cases o with
    | none => rfl
    | some n =>
      simp only [Res.bind_ok, Res.pure_eq]
      by_cases h1 : n = size
      · subst h1
        simp only [ne_eq, not_true, if_false]
        by_cases h2 : n ≤ 15
        · simp only [h2, if_true]
          by_cases h3 : p.data.length < n + 1
          · simp [h3]
          · simp only [h3, if_false]
            rw [List.range_eq_range', readFmt1_eq p.data n n 0 arr (by omega) (by omega) ha]
            rfl
        · simp only [h2, if_false]
          by_cases h3 : p.data.length = 17
          · simp only [h3, not_true, if_false]
            rw [readFmt2_eq p.data n h3 cells 0 arr (fun c h => (cells_lt c h).1) ha (by omega)]
            simp
          · simp [h3]
      · simp [h1]

theorem count_eq (p : Property) :
    count p = .ok (if p.code = 0x9D#8 ∨ p.code = 0x9E#8 ∨ p.code = 0x9F#8 then
      (p.data.head?.map BitVec.toNat) else none) := by
  unfold count
  split
  · cases h : p.data with
    | nil => simp
    | cons a l => simp [rd]
  · rfl

/-! ### the codes selected -/

theorem and_mask_ne : ∀ (b : Byte) , ∀ j : Nat, j < 8 →
    ((b &&& (BitVec.ofNat 8 (1 <<< j) &&& 0x0F#8)) != 0) = (b.getLsbD j && decide (j < 4)) := by
  decide +kernel

theorem cells_nodup : (cells.map fun c => bitToCode c.1 c.2).Nodup := by decide +kernel

theorem mem_cells (i j : Nat) : (i, j) ∈ cells ↔ i < 16 ∧ j < 8 := by
  simp [cells]

theorem hits_nodup (data : List Byte) : (hits data cells).Nodup := by
  unfold hits
  exact List.Nodup.sublist (List.Sublist.map _ List.filter_sublist) cells_nodup

theorem mem_hits (n : Byte) (rows : List Byte) (c : Byte) :
    c ∈ hits (n :: rows) cells ↔
      ∃ i j b, i < 16 ∧ j < 4 ∧ rows[i]? = some b ∧ b.getLsbD j = true ∧ c = mapCode i j := by
  unfold hits
  simp only [List.mem_map, List.mem_filter, Prod.exists, mem_cells]
  constructor
  · rintro ⟨i, j, ⟨⟨hi, hj⟩, hh⟩, rfl⟩
    simp only [hit, List.getElem?_cons_succ] at hh
    cases hb : rows[i]? with
    | none => simp [hb] at hh
    | some b =>
      rw [hb] at hh
      simp only [and_mask_ne b j hj, Bool.and_eq_true, decide_eq_true_eq] at hh
      exact ⟨i, j, b, hi, hh.2, hb, hh.1, bitToCode_eq i j⟩
  · rintro ⟨i, j, b, hi, hj, hb, hbit, rfl⟩
    refine ⟨i, j, ⟨⟨hi, by omega⟩, ?_⟩, bitToCode_eq i j⟩
    simp only [hit, List.getElem?_cons_succ, hb, and_mask_ne b j (by omega), hbit]
    simpa using hj

/-- the codes a writer's bitmap yields back -/
theorem mem_hits_rowsOf (n : Byte) (cs : List Byte) (c : Byte) :
    c ∈ hits (n :: rowsOf cs) cells ↔ c ∈ cs ∧ 0x80 ≤ c.toNat ∧ c.toNat < 0xC0 := by
  rw [mem_hits]
  constructor
  · rintro ⟨i, j, b, hi, hj, hb, hbit, rfl⟩
    obtain ⟨b', hb', hbit'⟩ := rowsOf_bit cs hi (show j < 8 by omega)
    rw [hb] at hb'
    cases hb'
    rw [hbit] at hbit'
    simp [hj] at hbit'
    rw [mapCode_toNat hi (by omega)]
    exact ⟨hbit', by omega, by omega⟩
  · rintro ⟨hc, h1, h2⟩
    obtain ⟨i, j, hi, hj, _, e⟩ := format2_high c (by omega)
    rw [bitToCode_eq] at e
    have hj4 : j < 4 := by rw [e, mapCode_toNat hi hj] at h2; omega
    obtain ⟨b', hb', hbit'⟩ := rowsOf_bit cs hi hj
    refine ⟨i, j, b', hi, hj4, hb', ?_, e⟩
    rw [hbit']; simp [hj4, ← e, hc]

theorem hits_rowsOf_length (n : Byte) (cs : List Byte) :
    (hits (n :: rowsOf cs) cells).length ≤ cs.length :=
  nodup_length_le (hits_nodup _) (fun x hx => ((mem_hits_rowsOf n cs x).mp hx).1)

end Uecho.Lemmas
