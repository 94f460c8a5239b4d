import Verif.Lemmas.Object
import Verif.Spec.PropertyMap
/-!
# Properties C16–C19: property maps
-/
set_option linter.unusedSimpArgs false
namespace Uecho.Props
open Uecho Uecho.Spec Uecho.Lemmas

/-- `mc` is one of the three property map codes. -/
def IsMapCode (mc : Byte) : Prop := mc = 0x9D#8 ∨ mc = 0x9E#8 ∨ mc = 0x9F#8

theorem put_zero (arr : List (Option Byte)) (xs : List Byte) :
    put arr 0 xs = xs.map some ++ arr.drop xs.length := by simp [put]

/-- **C16.** Writing a map of at most 15 codes on any object, then asking the map property for its
count and codes, yields the number of codes and the codes in the same order (entries of the
caller's array past the count are untouched). -/
theorem C16_map_round_trip (o : Obj) (mc : Byte) (hmc : IsMapCode mc) (codes : List Byte)
    (h : codes.length ≤ 15) :
    ∃ o' a p, o.setPropertyMap mc (some codes) codes.length = .ok (o', a) ∧
      o'.getProperty mc = some p ∧
      PropertyMap.count p = .ok (some codes.length) ∧
      ∀ arr : List (Option Byte), codes.length ≤ arr.length →
        PropertyMap.codes p arr codes.length =
          .ok (true, codes.map some ++ arr.drop codes.length) := by
  have hlen : (BitVec.ofNat 8 codes.length).toNat = codes.length := by simp; omega
  refine ⟨_, _, { target o.props mc with data := mapData codes, attr := Attr.read },
    setPropertyMap_some o mc codes, ?_, ?_, ?_⟩
  · simp only [Obj.getProperty]
    rw [find_mapProps]; simp [h]
  · rw [count_eq]
    have : (target o.props mc).code = mc := target_code _ _
    simp only [this]
    rw [if_pos (show mc = 0x9D#8 ∨ mc = 0x9E#8 ∨ mc = 0x9F#8 from hmc)]; simp [mapData]; omega
  · intro arr ha
    rw [codes_eq _ _ _ ha, count_eq]
    have : (target o.props mc).code = mc := target_code _ _
    simp only [this]
    rw [if_pos (show mc = 0x9D#8 ∨ mc = 0x9E#8 ∨ mc = 0x9F#8 from hmc)]
    simp only [mapData, List.head?_cons, Option.map_some, hlen, h, if_true, List.length_cons,
      Nat.lt_irrefl, if_false, List.drop_succ_cons, List.drop_zero, List.take_length, ne_eq,
      not_true]
    rw [put_zero]

/-- a map with three codes -/
example : IsMapCode 0x9E#8 ∧ [0x80#8, 0xB0#8, 0xE1#8].length ≤ 15 := by
  unfold IsMapCode; decide

/-- **C17, what holds.** Writing 16 to 255 codes and reading back returns true and yields, without
repetition, exactly those of the written codes that lie in 0x80..0xBF; array entries beyond them
are left as they were. If all written codes are distinct and in 0x80..0xBF every entry is
written. Missing: the codes from 0xC0 on are lost (see `C17_violated`). -/
theorem C17_bitmap_round_trip_partial (o : Obj) (mc : Byte) (hmc : IsMapCode mc) (codes : List Byte)
    (h1 : 15 < codes.length) (h2 : codes.length ≤ 255) :
    ∃ o' a p, ∃ out : List Byte, o.setPropertyMap mc (some codes) codes.length = .ok (o', a) ∧
      o'.getProperty mc = some p ∧
      PropertyMap.count p = .ok (some codes.length) ∧
      (∀ arr : List (Option Byte), codes.length ≤ arr.length →
        PropertyMap.codes p arr codes.length =
          .ok (true, out.map some ++ arr.drop out.length)) ∧
      out.Nodup ∧ out.length ≤ codes.length ∧
      (∀ c : Byte, c ∈ out ↔ c ∈ codes ∧ 0x80 ≤ c.toNat ∧ c.toNat < 0xC0) ∧
      (codes.Nodup → (∀ c ∈ codes, 0x80 ≤ c.toNat ∧ c.toNat < 0xC0) →
        out.length = codes.length) := by
  have hlen : (BitVec.ofNat 8 codes.length).toNat = codes.length := by simp; omega
  have hn : ¬ codes.length ≤ 15 := by omega
  refine ⟨_, _, { target o.props mc with data := mapData codes },
    hits (BitVec.ofNat 8 codes.length :: rowsOf codes) PropertyMap.cells,
    setPropertyMap_some o mc codes, ?_, ?_, ?_, hits_nodup _, hits_rowsOf_length _ _,
    fun c => mem_hits_rowsOf _ _ _, ?_⟩
  · simp only [Obj.getProperty]
    rw [find_mapProps]; simp [hn]
  · rw [count_eq]
    have : (target o.props mc).code = mc := target_code _ _
    simp only [this]
    rw [if_pos (show mc = 0x9D#8 ∨ mc = 0x9E#8 ∨ mc = 0x9F#8 from hmc)]; simp [mapData]; omega
  · intro arr ha
    rw [codes_eq _ _ _ ha, count_eq]
    have : (target o.props mc).code = mc := target_code _ _
    simp only [this]
    rw [if_pos (show mc = 0x9D#8 ∨ mc = 0x9E#8 ∨ mc = 0x9F#8 from hmc)]
    simp only [mapData, List.head?_cons, Option.map_some, hlen, hn, if_false, List.length_cons,
      rowsOf_length, ne_eq, not_true, hits_rowsOf_length, if_true]
    rw [put_zero]
  · intro hnd hall
    apply Nat.le_antisymm (hits_rowsOf_length _ _)
    apply nodup_length_le hnd
    intro c hc
    rw [mem_hits_rowsOf]
    exact ⟨hc, hall c hc⟩

/-- 20 codes 0x80..0x93 meet the hypotheses, including those of the last clause. -/
example : let l := (List.range 20).map (fun i => BitVec.ofNat 8 (0x80 + i))
    15 < l.length ∧ l.length ≤ 255 ∧ l.Nodup ∧ ∀ c ∈ l, 0x80 ≤ c.toNat ∧ c.toNat < 0xC0 := by
  decide

/-- **C17, violated.** Sixteen distinct codes 0xC0..0xCF: the call reports success, but none of them
comes back — the writer keeps only four of the eight bitmap bits. -/
theorem C17_violated : ∃ codes : List Byte, 15 < codes.length ∧ codes.length ≤ 128 ∧ codes.Nodup ∧
    (∀ c ∈ codes, 0x80 ≤ c.toNat) ∧
    ∀ o : Obj, ∃ o' a p, o.setPropertyMap 0x9F#8 (some codes) codes.length = .ok (o', a) ∧
      o'.getProperty 0x9F#8 = some p ∧
      PropertyMap.codes p (List.replicate codes.length none) codes.length =
        .ok (true, List.replicate codes.length none) := by
  let l : List Byte := (List.range 16).map (fun i => BitVec.ofNat 8 (0xC0 + i))
  have hl : l.length = 16 := rfl
  refine ⟨l, by decide, by decide, by decide, by decide, fun o => ?_⟩
  obtain ⟨o', a, p, out, e1, e2, _, e4, _, _, e7, _⟩ :=
    C17_bitmap_round_trip_partial o 0x9F#8 (Or.inr (Or.inr rfl)) l (by decide) (by decide)
  refine ⟨o', a, p, e1, e2, ?_⟩
  have : out = [] := by
    apply List.eq_nil_iff_forall_not_mem.mpr
    intro c hc
    have h := (e7 c).mp hc
    have : ∀ c ∈ l, ¬ c.toNat < 0xC0 := by decide
    exact this c h.1 h.2.2
  subst this
  rw [e4 _ (by rw [List.length_replicate]; exact Nat.le_refl _)]
  simp

/-- **C18.** Counting and reading a property map is defined for every property content, every array
and every size argument that does not exceed the array: nothing is read outside the data, and
only the first `size` entries of the array are ever written. -/
theorem C18_map_read_safe (p : Property) (arr : List (Option Byte)) (size : Nat)
    (h : size ≤ arr.length) :
    (PropertyMap.count p).Defined ∧
    ∃ ok arr', PropertyMap.codes p arr size = .ok (ok, arr') ∧ arr'.length = arr.length ∧
      arr'.drop size = arr.drop size := by
  have hput : ∀ xs : List Byte, xs.length ≤ size →
      (put arr 0 xs).length = arr.length ∧ (put arr 0 xs).drop size = arr.drop size := by
    intro xs hx
    refine ⟨put_length _ _ _ (by omega), ?_⟩
    rw [put_zero, List.drop_append, List.drop_of_length_le (by simpa using hx)]
    simp only [List.length_map, List.nil_append, List.drop_drop]
    congr 1; omega
  refine ⟨by rw [count_eq]; exact Res.defined_ok _, ?_⟩
  rw [codes_eq _ _ _ h, count_eq]
  generalize (if p.code = 0x9D#8 ∨ p.code = 0x9E#8 ∨ p.code = 0x9F#8 then
      p.data.head?.map BitVec.toNat else none) = n
  cases n with
  | none => exact ⟨false, arr, rfl, rfl, rfl⟩
  | some n =>
    simp only
    by_cases h1 : n = size
    · subst h1
      simp only [ne_eq, not_true, if_false]
      by_cases h2 : n ≤ 15
      · simp only [h2, if_true]
        by_cases h3 : p.data.length < n + 1
        · exact ⟨false, arr, by simp [h3], rfl, rfl⟩
        · have := hput ((p.data.drop 1).take n) (by simp; omega)
          exact ⟨true, _, by simp only [h3, if_false], this.1, this.2⟩
      · simp only [h2, if_false]
        by_cases h3 : p.data.length = 17
        · simp only [h3, not_true, if_false]
          by_cases h4 : (hits p.data PropertyMap.cells).length ≤ n
          · have := hput _ h4
            exact ⟨true, _, by simp only [h4, if_true], this.1, this.2⟩
          · have := hput ((hits p.data PropertyMap.cells).take n) (by simp; omega)
            exact ⟨false, _, by simp only [h4, if_false], this.1, this.2⟩
        · exact ⟨false, arr, by simp [h3], rfl, rfl⟩
    · exact ⟨false, arr, by simp [h1], rfl, rfl⟩

/-- a received map that claims 200 codes, read into an array of 200 -/
example : (200 : Nat) ≤ (List.replicate 200 (none : Option Byte)).length := by
  rw [List.length_replicate]; exact Nat.le_refl _

/-- **C19, violated.** A map that announces 16 codes but has an empty bitmap is read "successfully"
while no entry of the array is written. -/
theorem C19_violated : ∃ p : Property,
    PropertyMap.codes p (List.replicate 16 none) 16 = .ok (true, List.replicate 16 none) :=
  ⟨{ Property.new with code := 0x9F, data := 16#8 :: List.replicate 16 0 }, by decide +kernel⟩

/-- **C19, what holds.** When reading succeeds, up to 15 codes: the array receives the codes the data
lists, in order, all `size` entries. From 16 codes on: the array receives, without repetition,
exactly the listed codes below 0xC0, from the first entry on, and the other entries stay
untouched, so all are written iff there are `size` such codes. Missing: full definedness and
the codes from 0xC0 on. -/
theorem C19_map_read_partial (p : Property) (arr arr' : List (Option Byte)) (size : Nat)
    (h : size ≤ arr.length) (hr : PropertyMap.codes p arr size = .ok (true, arr')) :
    MapCount p.data size ∧
    ∃ out : List Byte, arr' = out.map some ++ arr.drop out.length ∧ out.length ≤ size ∧
      (size ≤ 15 → out.length = size ∧ (∀ c, c ∈ out ↔ MapLists p.data c) ∧
        out = (p.data.drop 1).take size) ∧
      (15 < size → out.Nodup ∧ ∀ c, c ∈ out ↔ (MapLists p.data c ∧ c.toNat < 0xC0)) := by
  rw [codes_eq _ _ _ h, count_eq] at hr
  by_cases hc : p.code = 0x9D#8 ∨ p.code = 0x9E#8 ∨ p.code = 0x9F#8
  · rw [if_pos hc] at hr
    cases hd : p.data with
    | nil => simp [hd] at hr
    | cons b rest =>
      rw [hd] at hr
      simp only [List.head?_cons, Option.map_some] at hr
      by_cases h1 : b.toNat = size
      · refine ⟨⟨b, rest, rfl, h1⟩, ?_⟩
        rw [if_neg (by simpa using h1)] at hr
        by_cases h2 : size ≤ 15
        · rw [if_pos h2] at hr
          by_cases h3 : (b :: rest).length < b.toNat + 1
          · rw [if_pos h3] at hr; simp at hr
          · rw [if_neg h3] at hr
            simp only [List.drop_succ_cons, List.drop_zero, Res.ok.injEq, Prod.mk.injEq,
              true_and] at hr
            simp at h3
            refine ⟨rest.take size, ?_, by simp; omega, fun _ => ⟨by simp; omega, ?_, by simp⟩,
              fun _ => by omega⟩
            · rw [← hr, put_zero, h1]
            · intro c
              constructor
              · intro hm
                exact ⟨b, rest, rfl, Or.inl ⟨by omega, by rw [h1]; exact hm⟩⟩
              · rintro ⟨n, r, e, hh⟩
                cases e
                rcases hh with ⟨_, hm⟩ | ⟨hh, _⟩
                · rw [← h1]; exact hm
                · omega
        · rw [if_neg h2] at hr
          by_cases h3 : (b :: rest).length = 17
          · rw [if_neg (by simpa using h3)] at hr
            by_cases h4 : (hits (b :: rest) PropertyMap.cells).length ≤ size
            · rw [if_pos h4] at hr
              simp only [Res.ok.injEq, Prod.mk.injEq, true_and] at hr
              refine ⟨hits (b :: rest) PropertyMap.cells, by rw [← hr, put_zero], h4,
                fun _ => by omega, fun _ => ⟨hits_nodup _, fun c => ?_⟩⟩
              rw [mem_hits]
              constructor
              · rintro ⟨i, j, x, hi, hj, hx, hb, rfl⟩
                refine ⟨⟨b, rest, rfl, Or.inr ⟨by omega, i, j, x, hi, by omega, hx, hb, rfl⟩⟩, ?_⟩
                rw [mapCode_toNat hi (by omega)]; omega
              · rintro ⟨⟨n, r, e, hh⟩, hlt⟩
                cases e
                rcases hh with ⟨hh, _⟩ | ⟨_, i, j, x, hi, hj, hx, hb, rfl⟩
                · omega
                · rw [mapCode_toNat hi hj] at hlt
                  exact ⟨i, j, x, hi, by omega, hx, hb, rfl⟩
            · rw [if_neg h4] at hr; simp at hr
          · rw [if_pos h3] at hr; simp at hr
      · rw [if_pos h1] at hr; simp at hr
  · rw [if_neg hc] at hr
    simp at hr

/-- A successful read of each format. -/
example :
    PropertyMap.codes { Property.new with code := 0x9D, data := [2, 0x80, 0x88] } [none, none] 2 =
      .ok (true, [some 0x80, some 0x88]) ∧
    PropertyMap.codes { Property.new with code := 0x9F, data := 16#8 :: List.replicate 16 1 }
      (List.replicate 16 none) 16 =
      .ok (true, (List.range 16).map (fun i => some (BitVec.ofNat 8 (0x80 + i)))) :=
  ⟨by decide +kernel, by decide +kernel⟩

end Uecho.Props
