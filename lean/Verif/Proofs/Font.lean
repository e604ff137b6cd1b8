import Verif.Spec.Font
import Verif.Proofs.GoLib
import Verif.Proofs.Writer

/-! Proofs about fonts. -/

namespace Pdfer.Font

open Pdfer.Go Pdfer.Spec.Font Pdfer.Strings

/-! ### Slices -/

/-- The length does not exceed the capacity. -/
def Slice.WF (s : Slice) : Prop := s.len ≤ s.mem.length

theorem data_length {s : Slice} (h : s.WF) : s.data.length = s.len := by
  rw [Slice.data, List.length_take]; exact Nat.min_eq_left h

theorem take_two (l : Bytes) (i : Nat) (h : i + 2 ≤ l.length) :
    (l.drop i).take 2 = [l.getD i 0, l.getD (i + 1) 0] := by
  apply List.ext_getElem?
  intro j
  rw [List.getElem?_take]
  by_cases hj : j < 2
  · rw [if_pos hj, List.getElem?_drop]
    match j, hj with
    | 0, _ => simp [List.getD_eq_getElem?_getD, List.getElem?_eq_getElem (show i < l.length by omega)]
    | 1, _ => simp [List.getD_eq_getElem?_getD, List.getElem?_eq_getElem (show i + 1 < l.length by omega)]
  · rw [if_neg hj]
    symm; apply List.getElem?_eq_none; simp; omega

theorem getD_take {l : Bytes} {n i : Nat} (h : i < n) : (l.take n).getD i 0 = l.getD i 0 := by
  simp [List.getD_eq_getElem?_getD, List.getElem?_take, h]

theorem be16_mem {s : Slice} {i : Nat} (h : i + 2 ≤ s.mem.length) : s.be16 i = .ok (u16 s.mem i) := by
  have e : i + 2 - i = 2 := by omega
  simp only [Slice.be16, Slice.sub, Res.bind, Slice.data, e]
  rw [if_pos ⟨by omega, h⟩]
  simp only [take_two _ _ h, beVal, u16, List.foldl_cons, List.foldl_nil, Nat.zero_mul, Nat.zero_add]

theorem u16_data {s : Slice} {i : Nat} (h : i + 2 ≤ s.len) : u16 s.mem i = u16 s.data i := by
  rw [u16, u16, Slice.data, getD_take (by omega), getD_take (by omega)]

theorem be16_ok {s : Slice} (hw : s.WF) {i : Nat} (h : i + 2 ≤ s.len) : s.be16 i = .ok (u16 s.data i) := by
  rw [be16_mem (Nat.le_trans h hw), u16_data h]

theorem be32_mem {s : Slice} {i : Nat} (h : i + 4 ≤ s.mem.length) : s.be32 i = .ok (u32 s.mem i) := by
  have e : i + 4 - i = 2 + 2 := by omega
  simp only [Slice.be32, Slice.sub, Res.bind, Slice.data, e]
  rw [if_pos ⟨by omega, h⟩]
  simp only [List.take_add, List.drop_drop, take_two _ _ (show i + 2 ≤ s.mem.length by omega),
    take_two _ _ (show i + 2 + 2 ≤ s.mem.length by omega), beVal, u32, u16, List.foldl_cons, List.foldl_nil, List.foldl_append,
    Nat.zero_mul, Nat.zero_add]
  exact congrArg Res.ok (by omega)

theorem u32_data {s : Slice} {i : Nat} (h : i + 4 ≤ s.len) : u32 s.mem i = u32 s.data i := by
  rw [u32, u32, u16_data (by omega), u16_data (by omega)]

theorem be32_ok {s : Slice} (hw : s.WF) {i : Nat} (h : i + 4 ≤ s.len) : s.be32 i = .ok (u32 s.data i) := by
  rw [be32_mem (Nat.le_trans h hw), u32_data h]

theorem u16_lt (b : Bytes) (i : Nat) : u16 b i < 65536 := by
  have a := (b.getD i 0).toNat_lt
  have c := (b.getD (i + 1) 0).toNat_lt
  rw [u16]; omega

theorem u32_lt (b : Bytes) (i : Nat) : u32 b i < 4294967296 := by
  have a := u16_lt b i
  have c := u16_lt b (i + 2)
  rw [u32]; omega

/-! ### The subset -/

theorem addRune_nodup {s : List Int} (h : s.Nodup) (r : Int) : (addRune s r).Nodup := by
  rw [addRune]
  split
  · exact h
  · rename_i hr
    rw [List.nodup_append]
    exact ⟨h, by simp, by intro a ha b hb; rw [List.mem_singleton.1 hb]; rintro rfl; exact hr ha⟩

theorem mem_addRune (s : List Int) (r c : Int) : c ∈ addRune s r ↔ c ∈ s ∨ c = r := by
  rw [addRune]
  split
  · rename_i hr
    exact ⟨.inl, fun h => h.elim id (fun h => h ▸ hr)⟩
  · simp

theorem addString_aux (isPrint : Int → Bool) (l : List Int) : ∀ s : List Int, s.Nodup →
    (l.foldl (fun acc r => if isPrint r || r == 32 then addRune acc r else acc) s).Nodup ∧
    ∀ c, c ∈ l.foldl (fun acc r => if isPrint r || r == 32 then addRune acc r else acc) s ↔
      c ∈ s ∨ (c ∈ l ∧ (isPrint c = true ∨ c = 32)) := by
  induction l with
  | nil => intro s h; exact ⟨h, by simp⟩
  | cons r l ih =>
    intro s h
    rw [List.foldl_cons]
    by_cases hr : (isPrint r || r == 32) = true
    · rw [if_pos hr]
      obtain ⟨h1, h2⟩ := ih _ (addRune_nodup h r)
      refine ⟨h1, fun c => ?_⟩
      rw [h2, mem_addRune, List.mem_cons]
      have hr' : isPrint r = true ∨ r = 32 := by simpa using hr
      constructor
      · rintro ((h | rfl) | ⟨h, h'⟩)
        · exact .inl h
        · exact .inr ⟨.inl rfl, hr'⟩
        · exact .inr ⟨.inr h, h'⟩
      · rintro (h | ⟨rfl | h, h'⟩)
        · exact .inl (.inl h)
        · exact .inl (.inr rfl)
        · exact .inr ⟨h, h'⟩
    · rw [if_neg hr]
      obtain ⟨h1, h2⟩ := ih _ h
      refine ⟨h1, fun c => ?_⟩
      rw [h2, List.mem_cons]
      have hr' : ¬ (isPrint r = true ∨ r = 32) := by simpa using hr
      constructor
      · rintro (h | ⟨h, h'⟩)
        · exact .inl h
        · exact .inr ⟨.inr h, h'⟩
      · rintro (h | ⟨rfl | h, h'⟩)
        · exact .inl h
        · exact absurd h' hr'
        · exact .inr ⟨h, h'⟩

theorem addString_spec (isPrint : Int → Bool) (s : List Int) (t : Bytes) (h : s.Nodup) :
    (addString isPrint s t).Nodup ∧
    ∀ c, c ∈ addString isPrint s t ↔ c ∈ s ∨ ((∃ n ∈ runes t, c = (n : Int)) ∧ (isPrint c = true ∨ c = 32)) := by
  obtain ⟨h1, h2⟩ := addString_aux isPrint ((runes t).map Int.ofNat) s h
  refine ⟨h1, fun c => ?_⟩
  rw [addString, h2, List.mem_map]
  constructor
  · rintro (h | ⟨⟨n, hn, rfl⟩, h'⟩)
    · exact .inl h
    · exact .inr ⟨⟨n, hn, rfl⟩, h'⟩
  · rintro (h | ⟨⟨n, hn, rfl⟩, h'⟩)
    · exact .inl h
    · exact .inr ⟨⟨n, hn, rfl⟩, h'⟩

theorem run_spec (isPrint : Int → Bool) (s : List Int) (a : Add) (hs : s.Nodup) :
    (a.run isPrint s).Nodup ∧ ∀ c, c ∈ a.run isPrint s ↔ c ∈ s ∨ a.asks isPrint c := by
  cases a with
  | rune r => exact ⟨addRune_nodup hs r, mem_addRune s r⟩
  | text t => exact addString_spec isPrint s t hs

theorem subset_aux (isPrint : Int → Bool) (h : List Add) : ∀ s : List Int, s.Nodup →
    (h.foldl (Add.run isPrint) s).Nodup ∧
    ∀ c, c ∈ h.foldl (Add.run isPrint) s ↔ c ∈ s ∨ ∃ a ∈ h, a.asks isPrint c := by
  induction h with
  | nil => intro s hs; exact ⟨hs, by simp⟩
  | cons a h ih =>
    intro s hs
    rw [List.foldl_cons]
    have key := run_spec isPrint s a hs
    obtain ⟨h1, h2⟩ := ih _ key.1
    refine ⟨h1, fun c => ?_⟩
    rw [h2, key.2]
    simp only [List.mem_cons, exists_eq_or_imp]
    rw [or_assoc]

theorem addGlyph_spec (gm : Map Int Nat) (s : Map Nat Unit) (r : Int) (h : s.keys.Nodup) :
    (addGlyph gm s r).keys.Nodup ∧ ∀ g, g ∈ (addGlyph gm s r).keys ↔ g ∈ s.keys ∨ gm.get r = some g := by
  rw [addGlyph]
  cases hg : gm.get r with
  | none => exact ⟨h, by simp⟩
  | some k =>
    constructor
    · simp only [Map.set, Map.keys, List.map_cons, List.nodup_cons]
      constructor
      · simp
      · exact List.Nodup.sublist ((List.filter_sublist).map _) h
    · intro g
      simp only [Map.set, Map.keys, List.map_cons, List.mem_cons, List.mem_map, List.mem_filter, Option.some.injEq]
      constructor
      · rintro (h | ⟨e, ⟨he, _⟩, rfl⟩)
        · exact .inr h.symm
        · exact .inl ⟨e, he, rfl⟩
      · rintro (⟨e, he, rfl⟩ | h)
        · by_cases hk : e.1 = k
          · exact .inl hk
          · exact .inr ⟨e, ⟨he, by simpa using hk⟩, rfl⟩
        · exact .inl h.symm

theorem glyphSet_aux (gm : Map Int Nat) (l : List Int) : ∀ s : Map Nat Unit, s.keys.Nodup →
    (l.foldl (addGlyph gm) s).keys.Nodup ∧
    ∀ g, g ∈ (l.foldl (addGlyph gm) s).keys ↔ g ∈ s.keys ∨ ∃ r ∈ l, gm.get r = some g := by
  induction l with
  | nil => intro s h; exact ⟨h, by simp⟩
  | cons r l ih =>
    intro s h
    rw [List.foldl_cons]
    have key := addGlyph_spec gm s r h
    obtain ⟨h1, h2⟩ := ih _ key.1
    refine ⟨h1, fun g => ?_⟩
    rw [h2, key.2]
    simp only [List.mem_cons, exists_eq_or_imp]
    rw [or_assoc]

theorem glyphList_spec (order : List Nat → List Nat) (ho : ∀ l, (order l).Perm l) (gm : Map Int Nat) (subset : List Int) :
    (glyphList order gm subset).Pairwise (· < ·) ∧
    ∀ g, g ∈ glyphList order gm subset ↔ g = 0 ∨ ∃ r ∈ subset, gm.get r = some g := by
  obtain ⟨h1, h2⟩ := glyphSet_aux gm subset [(0, ())] (by simp [Map.keys])
  have hp : (glyphList order gm subset).Perm (glyphSet gm subset).keys := (Writer.sortBy_perm _ _).trans (ho _)
  constructor
  · have hs := Writer.sortBy_sorted (fun a b : Nat => decide (a ≤ b)) (by intro a b; simp; omega) (by intro a b c; simp; omega)
      (order (glyphSet gm subset).keys)
    have hn : (glyphList order gm subset).Nodup := hp.nodup_iff.2 h1
    rw [glyphList] at hn ⊢
    refine (hs.and hn).imp ?_
    intro a b ⟨h, h'⟩
    have : a ≤ b := by simpa using h
    omega
  · intro g
    rw [hp.mem_iff]
    have := h2 g
    rw [show (glyphSet gm subset).keys = _ from rfl, glyphSet, this]
    simp [Map.keys]

end Pdfer.Font
