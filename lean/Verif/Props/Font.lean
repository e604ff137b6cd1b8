import Verif.Proofs.FontFile

/-! Properties C52, C53, C71 and C72: embedding TrueType fonts (resources/font). -/

namespace Pdfer.Props

open Pdfer.Go Pdfer.Font Pdfer.Spec.Font Pdfer.Strings

/-! ### C52: subsets -/

/-- C52: after every history of AddRune and AddString calls on a new font, the subset has no character twice and holds exactly
the characters asked for: the runes, and the printable characters and spaces of the texts. -/
theorem C52_subset (isPrint : Int → Bool) (h : List Add) :
    (subsetAfter isPrint h).Nodup ∧ ∀ c, c ∈ subsetAfter isPrint h ↔ ∃ a ∈ h, a.asks isPrint c := by
  obtain ⟨h1, h2⟩ := subset_aux isPrint h [] (by simp)
  exact ⟨h1, fun c => by rw [subsetAfter, h2]; simp⟩

example : subsetAfter (fun c => decide (32 < c)) [.text b!"abca b", .rune 10, .rune 97] = [97, 98, 99, 32, 10] := by decide +kernel

/-- C52: an added character stays. -/
theorem C52_subset_grows (isPrint : Int → Bool) (h : List Add) (a : Add) (c : Int) (hc : c ∈ subsetAfter isPrint h) :
    c ∈ subsetAfter isPrint (h ++ [a]) := by
  rw [(C52_subset isPrint _).2] at hc ⊢
  obtain ⟨b, hb, h⟩ := hc
  exact ⟨b, by simp [hb], h⟩

/-- C52: the glyphs of a subset, for every font file and every order in which Go visits its maps: they are strictly increasing,
and they are glyph 0 and the glyphs of the mapped characters, nothing else. -/
theorem C52_glyphs (fuel : Nat) (order : List Nat → List Nat) (ho : ∀ l, (order l).Perm l) (data : Slice) (subset : List Int)
    (gs : List Nat) (h : subsetGlyphs fuel order data subset = some (.ok gs)) :
    ∃ gm, glyphMap fuel data = some (.ok gm) ∧ gs.Pairwise (· < ·) ∧
      ∀ g, g ∈ gs ↔ g = 0 ∨ ∃ r ∈ subset, gm.get r = some g := by
  rw [subsetGlyphs] at h
  cases hm : glyphMap fuel data with
  | none => rw [hm] at h; simp at h
  | some r =>
    rw [hm] at h
    cases r with
    | err => simp [Res.bind] at h
    | panic => simp [Res.bind] at h
    | ok gm =>
      simp only [Option.map_some, Res.bind, Option.some.injEq, Res.ok.injEq] at h
      subst h
      exact ⟨gm, rfl, glyphList_spec order ho gm subset⟩

/-- C52: the glyphs, and so the widths, do not depend on the order in which Go visits its maps. -/
theorem C52_glyphs_deterministic (fuel : Nat) (o1 o2 : List Nat → List Nat) (h1 : ∀ l, (o1 l).Perm l) (h2 : ∀ l, (o2 l).Perm l)
    (data : Slice) (subset : List Int) :
    subsetGlyphs fuel o1 data subset = subsetGlyphs fuel o2 data subset ∧
    getWidths fuel o1 data subset = getWidths fuel o2 data subset := by
  have e : ∀ gm, glyphList o1 gm subset = glyphList o2 gm subset := by
    intro gm
    exact Writer.sortBy_eq_of_perm _ (by intro a b; simp; omega) (by intro a b c; simp; omega) _ _
      ((h1 _).trans (h2 _).symm) (by intro a _ b _; simp; omega)
  have : subsetGlyphs fuel o1 data subset = subsetGlyphs fuel o2 data subset := by
    simp only [subsetGlyphs, e]
  exact ⟨this, by rw [getWidths, getWidths, this]⟩

/-- A font with two glyphs, for "A" (glyph 1) and for "B" to "D" and U+1F600 (glyph 2 on). -/
def sampleFont : Bytes := fontFile (baseTables 6 ++ [(b!"cmap", cmapOf 3 10 (format12 [(65, 65, 1), (66, 68, 2), (128512, 128512, 5)])),
  (b!"hmtx", w16 500 ++ w16 0 ++ w16 600 ++ w16 7 ++ w16 610 ++ w16 0 ++ w16 620 ++ w16 0)])

example : subsetGlyphs 9 List.reverse (exact sampleFont) [68, 65, 122, 66] = some (.ok [0, 1, 2, 4]) := by decide +kernel
example : getWidths 9 id (exact sampleFont) [67, 65] = some (.ok [500, 600, 620]) := by decide +kernel

/-! ### C53: the loops end, the widths are right -/

/-- C53: reading a format 4 character map ends for every table (at most 65535 codes a segment). -/
theorem C53_format4_terminates (s : Slice) (fuel : Nat) (hf : 65535 < fuel) : cmap4 fuel s ≠ none := cmap4_ne_none s hf

/-- C53: reading a format 12 character map ends exactly when the table is refused or no group runs to the character
0xFFFFFFFF. -/
theorem C53_format12_terminates_iff (s : Slice) (hw : s.WF) :
    (∃ fuel, cmap12 fuel s ≠ none) ↔
      s.len < 16 ∨ s.len < u32 s.data 4 ∨
        ∀ i, i < groupCount s.data → ¬ (groupStart s.data i ≤ groupStop s.data i ∧ groupStop s.data i = 4294967295) := by
  by_cases h1 : s.len < 16
  · exact ⟨fun _ => .inl h1, fun _ => ⟨0, by rw [cmap12, if_pos h1]; simp⟩⟩
  by_cases h2 : s.len < u32 s.data 4
  · refine ⟨fun _ => .inr (.inl h2), fun _ => ⟨0, ?_⟩⟩
    rw [cmap12, if_neg h1, be32_ok hw (by omega), Res.bind, be32_ok hw (by omega), Res.bind]
    simp only
    rw [if_pos h2]; simp
  have hlen := data_length hw
  constructor
  · rintro ⟨fuel, hf⟩
    refine .inr (.inr fun i hi hb => hf ?_)
    rw [cmap12_eq hw (by omega) (by omega)]
    exact groups12_diverges hw fuel _ 0 [] i ((reach_count (by omega) i).2 hi) hb.1 hb.2
  · rintro (h | h | h)
    · exact absurd h h1
    · exact absurd h h2
    · obtain ⟨f0, m', hm⟩ := groups12_finish hw (u32 s.data 12) 0 [] (fun j hj => h j ((reach_count (by omega) j).1 hj))
      exact ⟨f0, by rw [cmap12_eq hw (by omega) (by omega), hm f0 (Nat.le_refl _)]; simp⟩

/-- C53 (the part that holds): reading a format 12 character map in which no group runs to 0xFFFFFFFF ends.  Missing: tables
with such a group, see the violation. -/
theorem C53_format12_terminates_partial (s : Slice) (hw : s.WF)
    (h : ∀ i, i < groupCount s.data → groupStop s.data i ≠ 4294967295) : ∃ fuel, cmap12 fuel s ≠ none :=
  (C53_format12_terminates_iff s hw).2 (.inr (.inr fun i hi hb => h i hi hb.2))

example : cmap12 9 (exact (format12 [(65, 65, 1), (66, 68, 2)])) = some (.ok [(68, 4), (67, 3), (66, 2), (65, 1)]) := by decide +kernel

/-- A font whose only group goes from "A" to 0xFFFFFFFF. -/
def endlessFont : Bytes := fontFile (baseTables 6 ++ [(b!"cmap", cmapOf 3 10 (format12 [(65, 4294967295, 1)]))])

/-- C53, violation: GetSubsetGlyphs never returns for a font that ParseTTF accepts. -/
theorem C53_terminates_violated : (∃ t, parseTTF (exact endlessFont) = .ok t) ∧
    ∀ fuel order subset, subsetGlyphs fuel order (exact endlessFont) subset = none := by
  have h1 : parseTTF (exact endlessFont) matches .ok _ := by decide +kernel
  have h2 : ((parseTTF (exact endlessFont)).bind fun t => Res.ofOption (t.tables.get b!"cmap")) =
      .ok ⟨cmapOf 3 10 (format12 [(65, 4294967295, 1)]), 40⟩ := by decide +kernel
  have h3 : ((subtable ⟨cmapOf 3 10 (format12 [(65, 4294967295, 1)]), 40⟩).bind fun sub => (sub.be16 0).bind fun f => Res.ok (sub, f)) =
      .ok (⟨format12 [(65, 4294967295, 1)], 28⟩, 12) := by decide +kernel
  constructor
  · cases h : parseTTF (exact endlessFont) with
    | ok t => exact ⟨t, rfl⟩
    | err => rw [h] at h1; simp at h1
    | panic => rw [h] at h1; simp at h1
  · intro fuel order subset
    rw [subsetGlyphs, glyphMap, h2]
    simp only
    rw [parseCmap, h3]
    simp only [if_true]
    have hw : Slice.WF ⟨format12 [(65, 4294967295, 1)], 28⟩ := by show _ ≤ _; decide +kernel
    have e : (Slice.data ⟨format12 [(65, 4294967295, 1)], 28⟩) = format12 [(65, 4294967295, 1)] := by decide +kernel
    rw [cmap12_eq hw (by decide) (by rw [e]; decide +kernel), groups12_diverges hw fuel _ 0 [] 0
      (by rw [e]; exact ⟨by decide, by decide +kernel, by decide +kernel⟩) (by rw [e]; decide +kernel) (by rw [e]; decide +kernel)]
    rfl

/-- C53 (the part that holds): the width of a glyph that has its own entry in the hmtx table is that entry's advance width, for
glyph numbers below 16384.  Missing: the other glyphs, see the violations. -/
theorem C53_width_partial (hmtx : Slice) (hw : hmtx.WF) (upem metrics gid : Nat) (hg : gid < 16384) (hm : gid < metrics)
    (hl : 4 * metrics ≤ hmtx.len) : width hmtx upem gid = .ok (advance hmtx.data metrics gid) := by
  have hw' : hmtx.len ≤ hmtx.mem.length := hw
  have := be16_ok hw (i := 4 * gid) (by omega)
  rw [Slice.be16] at this
  rw [width, if_pos (by omega), Nat.mod_eq_of_lt (by omega), Nat.mod_eq_of_lt (by omega), Nat.mul_comm gid 4, this, advance, if_pos hm]

example : width (exact (w16 500 ++ w16 0 ++ w16 600 ++ w16 7)) 1000 1 = .ok 600 := by decide +kernel

/-- C53, violation: the position in the hmtx table is computed with 16 bits, so in every table long enough glyph 16384 + k has
the width of glyph k. -/
theorem C53_width_wraps_violated (hmtx : Slice) (hw : hmtx.WF) (upem k : Nat) (hk : k < 16384)
    (hl : 4 * (16384 + k) + 2 ≤ hmtx.len) : width hmtx upem (16384 + k) = .ok (u16 hmtx.data (4 * k)) := by
  have hw' : hmtx.len ≤ hmtx.mem.length := hw
  have := be16_ok hw (i := 4 * k) (by omega)
  rw [Slice.be16] at this
  rw [width, if_pos (by omega), show (16384 + k) * 4 % 65536 = 4 * k by omega, show ((16384 + k) * 4 + 2) % 65536 = 4 * k + 2 by omega, this]

example : Slice.WF ⟨List.replicate 65538 0, 65538⟩ ∧ 4 * (16384 + 0) + 2 ≤ 65538 :=
  ⟨by rw [Slice.WF, List.length_replicate]; exact Nat.le_refl _, by omega⟩

/-- C53, violation: the glyphs behind the long metrics share the last advance width; their width is taken from the side
bearings instead (the number of long metrics is not used).  Here glyph 1 has advance 500 and side bearing 7. -/
theorem C53_width_short_hmtx_violated : ∃ hmtx : Bytes, advance hmtx 1 1 = 500 ∧ width (exact hmtx) 1000 1 = .ok 7 :=
  ⟨w16 500 ++ w16 3 ++ w16 7, by decide +kernel, by decide +kernel⟩

/-! ### C71: the character map -/

/-- C71: which subtable is read: the last (3, 10), else the first (3, 1), else the first of platform 0; the table is refused
without one, and a subtable offset behind the table's end is a panic (see C72). -/
theorem C71_subtable (s : Slice) (hw : s.WF) (hl : 4 ≤ s.len) (hv : u16 s.data 0 = 0) :
    subtable s = match chosen (cmapRecords s.data) with
      | none => .err
      | some o => if s.len < o then .panic else if s.len - o < 2 then .err else .ok ⟨s.mem.drop o, s.len - o⟩ :=
  subtable_spec hw hl hv

example : chosen [(1, 0, 5), (3, 1, 20), (0, 3, 7), (3, 10, 40), (3, 1, 50)] = some 40 ∧ chosen [(1, 0, 5), (0, 3, 7), (0, 4, 9)] = some 7 := by
  decide +kernel

/-- C71 (format 4): a character is mapped exactly when a segment maps it to a glyph other than 0, and to that glyph, for every
subtable as OpenType wants it. -/
theorem C71_format4 (s : Slice) (hw : s.WF) (hl : 14 ≤ s.len) (hc : Conforming4 s.data) (fuel : Nat) (hf : 65535 < fuel) :
    ∃ m, cmap4 fuel s = some (.ok m) ∧ ∀ (r : Int) (g : Nat),
      (m.get r = some g ↔ g ≠ 0 ∧ ∃ c i : Nat, r = c ∧ c < 65535 ∧ InSeg s.data i c ∧ segGlyph s.data i c = g) := by
  obtain ⟨m, h1, h2⟩ := cmap4_get hw hl hc hf
  refine ⟨m, h1, fun r g => ?_⟩
  constructor
  · intro h
    obtain ⟨c, rfl, hc⟩ := cmap4_keys h1 r g h
    obtain ⟨h3, i, h4⟩ := (h2 c g hc).1 h
    exact ⟨h3, c, i, rfl, hc, h4⟩
  · rintro ⟨hg, c, i, rfl, hc, h3⟩
    exact (h2 c g hc).2 ⟨hg, i, h3⟩

/-- A subtable with a segment by delta, one through the glyph array, and the closing segment. -/
def sample4 : Bytes := format4 [(65, 67, 65472, 0), (80, 81, 2, 4), (65535, 65535, 1, 0)] [5, 0]

example : Conforming4 sample4 := by
  refine ⟨by decide +kernel, by decide +kernel, ?_, ?_⟩
  · have h : segCount sample4 = 3 := by decide +kernel
    intro i j hij hj
    rw [h] at hj
    have : (i = 0 ∧ j = 1) ∨ (i = 0 ∧ j = 2) ∨ (i = 1 ∧ j = 2) := by omega
    rcases this with ⟨rfl, rfl⟩ | ⟨rfl, rfl⟩ | ⟨rfl, rfl⟩ <;> decide +kernel
  · have h : segCount sample4 = 3 := by decide +kernel
    intro i hi
    rw [h] at hi
    have : i = 0 ∨ i = 1 ∨ i = 2 := by omega
    rcases this with rfl | rfl | rfl <;> decide +kernel

example : cmap4 9 (exact sample4) = some (.ok [(80, 7), (67, 3), (66, 2), (65, 1)]) := by decide +kernel

/-- C71 (format 12): a character is mapped exactly when a group holds it, and to that group's glyph (modulo 65536), for every
subtable whose groups do not overlap. -/
theorem C71_format12 (s : Slice) (hw : s.WF) (hl : 16 ≤ s.len) (hlen : u32 s.data 4 ≤ s.len)
    (hd : ∀ i j c, InGroup s.data i c → InGroup s.data j c → i = j)
    (hend : ∀ i, i < groupCount s.data → groupStop s.data i ≠ 4294967295) :
    ∃ f0 m, (∀ fuel, f0 ≤ fuel → cmap12 fuel s = some (.ok m)) ∧ ∀ c g : Nat, c < 2147483648 →
      (m.get (c : Int) = some g ↔ ∃ i, InGroup s.data i c ∧ g = (groupGlyph s.data i + (c - groupStart s.data i)) % 65536) := by
  have hdl := data_length hw
  have hr := fun j => reach_count (b := s.data) (by omega) j
  obtain ⟨f0, m, h⟩ := groups12_finish hw (u32 s.data 12) 0 [] (fun j hj hb => hend j ((hr j).1 hj) hb.2)
  refine ⟨f0, m, fun fuel hf => by rw [cmap12_eq hw hl hlen, h fuel hf], fun c g hc => ?_⟩
  have e : rune32 c = (c : Int) := by rw [rune32, if_pos hc]
  rw [← e, groups12_get hw f0 _ 0 [] m (h f0 (Nat.le_refl _)) c (by omega) g]
  constructor
  · rintro (⟨j, hj, h1, h2, _, h4⟩ | ⟨_, h2⟩)
    · exact ⟨j, ⟨(hr j).1 hj, h1, h2⟩, h4⟩
    · simp [Map.get] at h2
  · rintro ⟨i, hi, hg⟩
    exact .inl ⟨i, (hr i).2 hi.1, hi.2.1, hi.2.2, fun j' hj' hlt hin =>
      absurd (hd i j' c hi ⟨(hr j').1 hj', hin.1, hin.2⟩) (by omega), hg⟩

/-- C71: where the groups overlap, the last one decides. -/
theorem C71_format12_overlap (s : Slice) (hw : s.WF) (hl : 16 ≤ s.len) (hlen : u32 s.data 4 ≤ s.len) (fuel : Nat) (m : Map Int Nat)
    (h : cmap12 fuel s = some (.ok m)) (c g i : Nat) (hc : c < 2147483648) (hi : InGroup s.data i c)
    (hlast : ∀ j, i < j → ¬ InGroup s.data j c) :
    m.get (c : Int) = some g ↔ g = (groupGlyph s.data i + (c - groupStart s.data i)) % 65536 := by
  have hdl := data_length hw
  have hr := fun j => reach_count (b := s.data) (by omega) j
  rw [cmap12_eq hw hl hlen] at h
  have e : rune32 c = (c : Int) := by rw [rune32, if_pos hc]
  rw [← e, groups12_get hw fuel _ 0 [] m h c (by omega) g]
  constructor
  · rintro (⟨j, hj, h1, h2, h3, h4⟩ | ⟨h1, _⟩)
    · have hin : InGroup s.data j c := ⟨(hr j).1 hj, h1, h2⟩
      have : j = i := by
        rcases Nat.lt_trichotomy j i with hlt | heq | hgt
        · exact absurd ⟨hi.2.1, hi.2.2⟩ (h3 i ((hr i).2 hi.1) hlt)
        · exact heq
        · exact absurd hin (hlast j hgt)
      subst this
      exact h4
    · exact absurd ⟨hi.2.1, hi.2.2⟩ (h1 i ((hr i).2 hi.1))
  · intro hg
    exact .inl ⟨i, (hr i).2 hi.1, hi.2.1, hi.2.2, fun j' hj' hlt hin => hlast j' hlt ⟨(hr j').1 hj', hin.1, hin.2⟩, hg⟩

example : cmap12 9 (exact (format12 [(65, 67, 1), (66, 66, 9)])) = some (.ok [(66, 9), (67, 3), (65, 1)]) := by decide +kernel

/-- C71, violation: a subtable of another format (here format 6, whose table holds glyph 1 for "A") is read as format 4; this
font, which ParseTTF accepts, makes GetSubsetGlyphs panic. -/
theorem C71_other_formats_violated : ∃ data : Bytes, (∃ t, parseTTF (exact data) = .ok t) ∧
    ∀ fuel order subset, subsetGlyphs fuel order (exact data) subset = some .panic := by
  refine ⟨fontFile (baseTables 2 ++ [(b!"cmap", cmapOf 0 3 (w16 6 ++ w16 14 ++ w16 0 ++ w16 65 ++ w16 2 ++ w16 1 ++ w16 2))]), ?_, ?_⟩
  · exact ⟨(match parseTTF (exact (fontFile (baseTables 2 ++ [(b!"cmap", cmapOf 0 3 (w16 6 ++ w16 14 ++ w16 0 ++ w16 65 ++ w16 2 ++ w16 1 ++ w16 2))]))) with
      | .ok t => t
      | _ => ⟨[], 0, 0, 0, 0, 0, 0, false, false, ⟨[], [], []⟩⟩), by decide +kernel⟩
  · intro fuel order subset
    have : glyphMap fuel (exact (fontFile (baseTables 2 ++ [(b!"cmap", cmapOf 0 3 (w16 6 ++ w16 14 ++ w16 0 ++ w16 65 ++ w16 2 ++ w16 1 ++ w16 2))]))) = some .panic := by
      have h2 : ((parseTTF (exact (fontFile (baseTables 2 ++ [(b!"cmap", cmapOf 0 3 (w16 6 ++ w16 14 ++ w16 0 ++ w16 65 ++ w16 2 ++ w16 1 ++ w16 2))])))).bind
          fun t => Res.ofOption (t.tables.get b!"cmap")) =
          .ok ⟨cmapOf 0 3 (w16 6 ++ w16 14 ++ w16 0 ++ w16 65 ++ w16 2 ++ w16 1 ++ w16 2), 26⟩ := by decide +kernel
      rw [glyphMap, h2]
      simp only
      have h3 : ((subtable ⟨cmapOf 0 3 (w16 6 ++ w16 14 ++ w16 0 ++ w16 65 ++ w16 2 ++ w16 1 ++ w16 2), 26⟩).bind fun sub => (sub.be16 0).bind fun f => Res.ok (sub, f)) =
          .ok (⟨w16 6 ++ w16 14 ++ w16 0 ++ w16 65 ++ w16 2 ++ w16 1 ++ w16 2, 14⟩, 6) := by decide +kernel
      rw [parseCmap, h3]
      simp only [show ¬ (6 : Nat) = 12 by decide, if_false]
      exact cmap4_panic (by show _ ≤ _; decide +kernel) fuel (by decide) (by decide +kernel) (by decide +kernel) (by decide +kernel)
    rw [subsetGlyphs, this]
    rfl

/-- C71, violation: the length of a format 4 subtable is not respected: the arrays of this table lie in the bytes behind it, so
the same table gives different maps in different files. -/
theorem C71_reads_only_table_violated : ∃ s1 s2 : Slice, s1.WF ∧ s2.WF ∧ s1.data = s2.data ∧
    cmap4 3 s1 = some (.ok []) ∧ cmap4 3 s2 = some (.ok [(65, 66)]) := by
  refine ⟨⟨(w16 4 ++ w16 14 ++ w16 0 ++ w16 2 ++ List.replicate 6 0) ++ List.replicate 20 0, 14⟩,
    ⟨(w16 4 ++ w16 14 ++ w16 0 ++ w16 2 ++ List.replicate 6 0) ++ w16 65 ++ w16 0 ++ w16 65 ++ w16 1 ++ w16 0, 14⟩, ?_, ?_, ?_, ?_, ?_⟩
  · simp [Slice.WF, w16]
  · simp [Slice.WF, w16]
  · decide +kernel
  · decide +kernel
  · decide +kernel

/-! ### C72: no panic on font files -/

/-- C72 (the part that holds): ParseTTF does not panic on any file below 4 GiB whose name table is shorter than 65536 bytes; and
the tables it gives are parts of the file.  Missing: longer name tables, see the violation. -/
theorem C72_parse_partial (data : Bytes) (hd : data.length < 4294967296)
    (hn : ∀ m t, readDir (exact data) (u16 data 4) 12 [] = .ok m → m.get b!"name" = some t → t.len < 65536) :
    parseTTF (exact data) ≠ .panic ∧ ∀ t, parseTTF (exact data) = .ok t → ∀ tag s, t.tables.get tag = some s →
      ∃ o, s.data = (data.drop o).take s.len ∧ o + s.len ≤ data.length := by
  have hw : (exact data).WF := by simp [Slice.WF, exact]
  have e : (exact data).data = data := by simp [Slice.data, exact]
  rcases parseTTF_spec hw hd (by rw [e]; exact hn) with h | ⟨t, h, h2, _⟩
  · rw [h]; simp
  · rw [h]
    refine ⟨by simp, fun t' ht tag s hs => ?_⟩
    obtain rfl := Res.ok.inj ht
    obtain ⟨_, _, o, ho, hol⟩ := h2 tag s hs
    exact ⟨o, by rw [Slice.data, ho, exact], hol⟩

/-- C72: in particular files below 65536 bytes. -/
theorem C72_parse_small (data : Bytes) (hd : data.length < 65536) : parseTTF (exact data) ≠ .panic := by
  refine (C72_parse_partial data (by omega) ?_).1
  intro m t hm ht
  have hw : (exact data).WF := by simp [Slice.WF, exact]
  rcases readDir_wf hw (by simp only [exact]; omega) (u16 data 4) 12 [] (by intro tag t h; simp [Map.get] at h) with h | ⟨m', h1, h2⟩
  · rw [h] at hm; exact absurd hm (by simp)
  · rw [h1] at hm
    obtain rfl := Res.ok.inj hm
    have := (h2 _ _ ht).2.1
    simp only [exact] at this
    omega

example : parseTTF (exact sampleFont) matches .ok _ := by decide +kernel
example : parseTTF (exact (sampleFont.take 200)) = .err := by decide +kernel

/-- The start of a font file whose name table, the last one, is 66018 bytes long, with one record for a text of 65535 bytes. -/
def longNameHead : Bytes :=
  w32 65536 ++ w16 5 ++ List.replicate 6 0 ++ b!"head" ++ w32 0 ++ w32 92 ++ w32 54 ++ b!"maxp" ++ w32 0 ++ w32 146 ++ w32 6 ++
    b!"hhea" ++ w32 0 ++ w32 152 ++ w32 36 ++ b!"post" ++ w32 0 ++ w32 188 ++ w32 32 ++ b!"name" ++ w32 0 ++ w32 220 ++ w32 66018 ++
    List.replicate 128 0 ++ w16 0 ++ w16 1 ++ w16 18 ++ w16 3 ++ w16 1 ++ w16 0 ++ w16 1 ++ w16 65535 ++ w16 100

/-- C72, violation: ParseTTF panics on this file: the end of the text is computed with 16 bits, and comes out before its start. -/
theorem C72_long_name_violated : parseTTF (exact (longNameHead ++ List.replicate 66000 0)) = .panic := by
  have hlen : (longNameHead ++ List.replicate 66000 (0 : UInt8)).length = 66238 := by
    rw [List.length_append, List.length_replicate, show longNameHead.length = 238 by decide +kernel]
  generalize hp : List.replicate 66000 (0 : UInt8) = pad at hlen
  clear hp
  have hw : (exact (longNameHead ++ pad)).WF := Nat.le_refl _
  have hl : (exact (longNameHead ++ pad)).len = 66238 := hlen
  have hd : (exact (longNameHead ++ pad)).data = longNameHead ++ pad := List.take_length
  have g : ∀ i, i < 238 → (longNameHead ++ pad).getD i 0 = longNameHead.getD i 0 := by
    intro i hi
    rw [List.getD_eq_getElem?_getD, List.getD_eq_getElem?_getD, List.getElem?_append_left]
    rwa [show longNameHead.length = 238 by decide +kernel]
  have r16 : ∀ i, i + 2 ≤ 238 → u16 (longNameHead ++ pad) i = u16 longNameHead i := by
    intro i hi
    rw [u16, u16, g _ (by omega), g _ (by omega)]
  have r32 : ∀ i, i + 4 ≤ 238 → u32 (longNameHead ++ pad) i = u32 longNameHead i := by
    intro i hi
    rw [u32, u32, r16 _ (by omega), r16 _ (by omega)]
  have tg : ∀ i, i + 4 ≤ 238 → ((longNameHead ++ pad).drop i).take 4 = (longNameHead.drop i).take 4 := by
    intro i hi
    have : longNameHead.length = 238 := by decide +kernel
    rw [List.drop_append_of_le_length (by omega), List.take_append_of_le_length (by rw [List.length_drop]; omega)]
  have step : ∀ (k off o n : Nat) (tag : Bytes) (m : Map Bytes Slice), off + 16 ≤ 238 → u32 longNameHead (off + 8) = o →
      u32 longNameHead (off + 12) = n → (longNameHead.drop off).take 4 = tag → o + n ≤ 66238 →
      readDir (exact (longNameHead ++ pad)) (k + 1) off m =
        readDir (exact (longNameHead ++ pad)) k (off + 16) (m.set tag ⟨(longNameHead ++ pad).drop o, n⟩) := by
    intro k off o n tag m h1 h2 h3 h4 h5
    rw [readDir_step hw (by rw [hl]; omega) (by rw [hl]; omega) (by rw [hl, hd, r32 _ (by omega), r32 _ (by omega), h2, h3]; exact h5),
      hd, r32 _ (by omega), r32 _ (by omega), h2, h3]
    simp only [exact]
    rw [tg _ (by omega), h4]
  have hdir : readDir (exact (longNameHead ++ pad)) 5 12 [] = .ok [(b!"name", ⟨(longNameHead ++ pad).drop 220, 66018⟩),
      (b!"post", ⟨(longNameHead ++ pad).drop 188, 32⟩), (b!"hhea", ⟨(longNameHead ++ pad).drop 152, 36⟩),
      (b!"maxp", ⟨(longNameHead ++ pad).drop 146, 6⟩), (b!"head", ⟨(longNameHead ++ pad).drop 92, 54⟩)] := by
    rw [step 4 12 92 54 b!"head" _ (by omega) (by decide +kernel) (by decide +kernel) (by decide +kernel) (by omega),
      step 3 28 146 6 b!"maxp" _ (by omega) (by decide +kernel) (by decide +kernel) (by decide +kernel) (by omega),
      step 2 44 152 36 b!"hhea" _ (by omega) (by decide +kernel) (by decide +kernel) (by decide +kernel) (by omega),
      step 1 60 188 32 b!"post" _ (by omega) (by decide +kernel) (by decide +kernel) (by decide +kernel) (by omega),
      step 0 76 220 66018 b!"name" _ (by omega) (by decide +kernel) (by decide +kernel) (by decide +kernel) (by omega)]
    rfl
  have wf : ∀ o n, o + n ≤ 66238 → Slice.WF ⟨(longNameHead ++ pad).drop o, n⟩ := by
    intro o n h
    simp only [Slice.WF, List.length_drop, hlen]
    omega
  have n16 : ∀ i, i + 2 ≤ 18 → u16 (Slice.data ⟨(longNameHead ++ pad).drop 220, 66018⟩) i = u16 longNameHead (220 + i) := by
    intro i hi
    rw [← u16_data (s := ⟨(longNameHead ++ pad).drop 220, 66018⟩) (by simp only; omega), ← r16 _ (by omega), u16, u16]
    simp only [List.getD_eq_getElem?_getD, List.getElem?_drop, Nat.add_assoc]
  rw [parseTTF, if_neg (by rw [hl]; omega), signatureOk, be32_ok hw (by rw [hl]; omega), Res.bind, Res.bind, hd, r32 0 (by omega),
    show u32 longNameHead 0 = 65536 by decide +kernel]
  simp only [show (decide ((65536 : Nat) = 0x00010000) || decide ((65536 : Nat) = 0x4F54544F)) = true by decide, Bool.true_eq_false, if_false]
  rw [be16_ok hw (by rw [hl]; omega), hd, r16 4 (by omega), show u16 longNameHead 4 = 5 by decide +kernel, Res.bind, hdir, Res.bind]
  have t1 : ∀ (tag : Bytes) (least o n : Nat) (m : Map Bytes Slice), m.get tag = some ⟨(longNameHead ++ pad).drop o, n⟩ → least ≤ n →
      table m tag least = .ok ⟨(longNameHead ++ pad).drop o, n⟩ := by
    intro tag least o n m h h2
    rw [table, h]
    simp only
    rw [if_neg (by omega)]
  rw [t1 b!"head" 54 92 54 _ rfl (by omega), Res.bind, be16_ok (wf 92 54 (by omega)) (by simp only; omega), Res.bind,
    t1 b!"maxp" 6 146 6 _ rfl (by omega), Res.bind, be16_ok (wf 146 6 (by omega)) (by simp only; omega), Res.bind,
    t1 b!"hhea" 36 152 36 _ rfl (by omega), Res.bind, be16_ok (wf 152 36 (by omega)) (by simp only; omega), Res.bind,
    be16_ok (wf 152 36 (by omega)) (by simp only; omega), Res.bind,
    t1 b!"name" 6 220 66018 _ rfl (by omega), Res.bind, be16_ok (wf 220 66018 (by omega)) (by simp only; omega), Res.bind,
    be16_ok (wf 220 66018 (by omega)) (by simp only; omega), Res.bind, n16 2 (by omega), n16 4 (by omega),
    show u16 longNameHead (220 + 2) = 0 + 1 by decide +kernel, show u16 longNameHead (220 + 4) = 18 by decide +kernel,
    nameLoop_panic (wf 220 66018 (by omega))]
  · rfl
  · simp only; omega
  · rw [n16 6 (by omega)]; exact .inl (by decide +kernel)
  · rw [n16 _ (by omega), show u16 longNameHead (220 + (6 + 10)) = 100 by decide +kernel]; omega
  · rw [n16 _ (by omega), n16 _ (by omega), show u16 longNameHead (220 + (6 + 10)) = 100 by decide +kernel,
      show u16 longNameHead (220 + (6 + 8)) = 65535 by decide +kernel]; omega
  · rw [n16 _ (by omega), n16 _ (by omega), show u16 longNameHead (220 + (6 + 10)) = 100 by decide +kernel,
      show u16 longNameHead (220 + (6 + 8)) = 65535 by decide +kernel]; simp only; omega

/-- C72: reading a format 12 subtable never panics. -/
theorem C72_format12 (s : Slice) (hw : s.WF) (fuel : Nat) : cmap12 fuel s ≠ some .panic := cmap12_no_panic hw fuel

/-- C72 (the part that holds): the character map of a cmap table is read without a panic if the chosen subtable starts inside the
table and, when it is not of format 12, its four arrays are inside the file.  Missing: other tables, see the violations. -/
theorem C72_cmap_partial (s : Slice) (hw : s.WF) (fuel : Nat)
    (ho : ∀ o, chosen (cmapRecords s.data) = some o → o ≤ s.len ∧
      (u16 (s.data.drop o) 0 ≠ 12 → o + (16 + 8 * segCount (s.data.drop o)) ≤ s.mem.length)) :
    parseCmap fuel s ≠ some .panic := by
  have hw' : s.len ≤ s.mem.length := hw
  rw [parseCmap]
  by_cases hl : 4 ≤ s.len
  · by_cases hv : u16 s.data 0 = 0
    · rw [subtable_spec hw hl hv]
      cases hc : chosen (cmapRecords s.data) with
      | none => simp [Res.bind]
      | some o =>
        obtain ⟨h1, h2⟩ := ho o hc
        simp only
        rw [if_neg (by omega)]
        by_cases h3 : s.len - o < 2
        · rw [if_pos h3]; simp [Res.bind]
        · rw [if_neg h3, Res.bind]
          have hw2 : Slice.WF ⟨s.mem.drop o, s.len - o⟩ := by simp only [Slice.WF, List.length_drop]; omega
          have hd2 : Slice.data ⟨s.mem.drop o, s.len - o⟩ = s.data.drop o := by
            simp only [Slice.data]
            rw [List.drop_take]
          rw [be16_ok hw2 (by simp only; omega), Res.bind, hd2]
          simp only
          split
          · exact cmap12_no_panic hw2 fuel
          · rename_i h4
            refine cmap4_no_panic hw2 fuel ?_
            have := h2 h4
            rw [hd2]
            simp only [List.length_drop]
            omega
    · rw [subtable, if_neg (by omega), be16_ok hw (by omega), Res.bind, if_pos hv]
      simp [Res.bind]
  · rw [subtable, if_pos (by omega)]
    simp [Res.bind]

example : parseCmap 9 (exact (cmapOf 3 1 sample4)) = some (.ok [(80, 7), (67, 3), (66, 2), (65, 1)]) := by decide +kernel

/-- C72, violation: a subtable offset behind the end of the cmap table is a panic. -/
theorem C72_offset_violated : ∀ fuel, parseCmap fuel (exact (w16 0 ++ w16 1 ++ w16 3 ++ w16 1 ++ w32 13)) = some .panic := by
  intro fuel
  have : subtable (exact (w16 0 ++ w16 1 ++ w16 3 ++ w16 1 ++ w32 13)) = .panic := by decide +kernel
  rw [parseCmap, this]
  rfl

/-- C72, violation: every format 4 subtable whose arrays are cut off by the end of the file is a panic. -/
theorem C72_format4_violated (s : Slice) (hw : s.WF) (hl : 14 ≤ s.len) (h2 : u16 s.data 2 ≤ s.len) (h3 : 0 < segCount s.data)
    (h4 : s.mem.length < 18 + 2 * segCount s.data) (fuel : Nat) : cmap4 fuel s = some .panic := cmap4_panic hw fuel hl h2 h3 h4

example : cmap4 0 (exact (w16 4 ++ w16 14 ++ w16 0 ++ w16 2 ++ List.replicate 6 0)) = some .panic := by decide +kernel

end Pdfer.Props
