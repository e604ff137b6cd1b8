import Verif.Proofs.Cmap

/-! The table directory, the names and the choice of the subtable. -/

namespace Pdfer.Font

open Pdfer.Go Pdfer.Spec.Font Pdfer.Strings

/-! ### No panic -/

theorem sub_ok {s : Slice} {i j : Nat} (h1 : i ≤ j) (h2 : j ≤ s.mem.length) : s.sub i j = .ok ⟨s.mem.drop i, j - i⟩ := by
  rw [Slice.sub, if_pos ⟨h1, h2⟩]

theorem readDir_step {d : Slice} (hw : d.WF) (hd : d.len < 4294967296) {k off : Nat} {m : Map Bytes Slice} (h : off + 16 ≤ d.len)
    (h2 : u32 d.data (off + 8) + u32 d.data (off + 12) ≤ d.len) :
    readDir d (k + 1) off m = readDir d k (off + 16) (m.set ((d.mem.drop off).take 4)
      ⟨d.mem.drop (u32 d.data (off + 8)), u32 d.data (off + 12)⟩) := by
  have hw' : d.len ≤ d.mem.length := hw
  rw [readDir, if_neg (by omega), sub_ok (by omega) (by omega), Res.bind, be32_ok hw (by omega), Res.bind, be32_ok hw (by omega), Res.bind,
    if_neg (by omega), Nat.mod_eq_of_lt (by omega), sub_ok (by omega) (by omega), Res.bind]
  simp only [Slice.data, show off + 4 - off = 4 by omega, Nat.add_sub_cancel_left]

theorem readDir_err {d : Slice} (hw : d.WF) {k off : Nat} {m : Map Bytes Slice} (h : off + 16 ≤ d.len)
    (h2 : ¬ u32 d.data (off + 8) + u32 d.data (off + 12) ≤ d.len) : readDir d (k + 1) off m = .err := by
  have hw' : d.len ≤ d.mem.length := hw
  rw [readDir, if_neg (by omega), sub_ok (by omega) (by omega), Res.bind, be32_ok hw (by omega), Res.bind, be32_ok hw (by omega), Res.bind,
    if_pos (by omega)]

/-- Every table read from a file is inside the file. -/
def TablesWF (d : Slice) (m : Map Bytes Slice) : Prop := ∀ tag t, m.get tag = some t → t.WF ∧ t.len ≤ d.len ∧ ∃ o, t.mem = d.mem.drop o ∧ o + t.len ≤ d.len

theorem readDir_wf {d : Slice} (hw : d.WF) (hd : d.len < 4294967296) : ∀ (k off : Nat) (m : Map Bytes Slice), TablesWF d m →
    readDir d k off m = .err ∨ ∃ m', readDir d k off m = .ok m' ∧ TablesWF d m' := by
  have hw' : d.len ≤ d.mem.length := hw
  intro k
  induction k with
  | zero => intro off m h; exact .inr ⟨m, rfl, h⟩
  | succ k ih =>
    intro off m h
    by_cases h1 : off + 16 ≤ d.len
    · by_cases h2 : u32 d.data (off + 8) + u32 d.data (off + 12) ≤ d.len
      · rw [readDir_step hw hd h1 h2]
        apply ih
        intro tag t ht
        by_cases he : tag = (d.mem.drop off).take 4
        · subst he
          rw [Map.get_set_eq] at ht
          obtain rfl := Option.some.inj ht
          refine ⟨?_, by simp only; omega, _, rfl, h2⟩
          simp only [Slice.WF, List.length_drop]; omega
        · rw [Map.get_set_ne _ _ he] at ht
          exact h tag t ht
      · exact .inl (readDir_err hw h1 h2)
    · exact .inl (by rw [readDir, if_pos (by omega)])

theorem nameLoop_no_panic {s : Slice} (hw : s.WF) (hl : s.len < 65536) (strOff : Nat) : ∀ (k off : Nat) (n : Names),
    ∃ n', nameLoop s strOff k off n = .ok n' := by
  have hw' : s.len ≤ s.mem.length := hw
  intro k
  induction k with
  | zero => intro off n; exact ⟨n, rfl⟩
  | succ k ih =>
    intro off n
    rw [nameLoop]
    split
    · exact ⟨n, rfl⟩
    · rw [be16_ok hw (by omega), Res.bind, be16_ok hw (by omega), Res.bind, be16_ok hw (by omega), Res.bind, be16_ok hw (by omega), Res.bind]
      split
      · rename_i h
        rw [Nat.mod_eq_of_lt (by omega), Nat.mod_eq_of_lt (by omega), sub_ok (by omega) (by omega), Res.bind]
        exact ih _ _
      · exact ih _ _

/-- A name record whose text is behind position 65535. -/
theorem nameLoop_panic {s : Slice} (hw : s.WF) {strOff k off : Nat} (n : Names) (h : off + 12 ≤ s.len)
    (hp : u16 s.data off = 3 ∨ u16 s.data off = 0) (h1 : strOff + u16 s.data (off + 10) < 65536)
    (h2 : 65536 ≤ strOff + u16 s.data (off + 10) + u16 s.data (off + 8))
    (h3 : strOff + u16 s.data (off + 10) + u16 s.data (off + 8) ≤ s.len) :
    nameLoop s strOff (k + 1) off n = .panic := by
  have hw' : s.len ≤ s.mem.length := hw
  have := u16_lt s.data (off + 8)
  rw [nameLoop, if_neg (by omega), be16_ok hw (by omega), Res.bind, be16_ok hw (by omega), Res.bind, be16_ok hw (by omega), Res.bind,
    be16_ok hw (by omega), Res.bind, if_pos ⟨hp, h3⟩, Slice.sub, if_neg (by omega)]
  rfl

theorem table_wf {d : Slice} {m : Map Bytes Slice} (h : TablesWF d m) (tag : Bytes) (least : Nat) :
    table m tag least = .err ∨ ∃ t, table m tag least = .ok t ∧ m.get tag = some t ∧ t.WF ∧ least ≤ t.len := by
  rw [table]
  cases hg : m.get tag with
  | none => exact .inl rfl
  | some t =>
    simp only
    split
    · exact .inl rfl
    · exact .inr ⟨t, rfl, rfl, (h tag t hg).1, by omega⟩

theorem os2_ok {d : Slice} {m : Map Bytes Slice} (h : TablesWF d m) : ∃ o, os2 m = .ok o := by
  rw [os2]
  cases hg : m.get b!"OS/2" with
  | none => exact ⟨_, rfl⟩
  | some t =>
    simp only
    split
    · rw [be16_ok (h _ _ hg).1 (by omega), Res.bind, be16_ok (h _ _ hg).1 (by omega), Res.bind]; exact ⟨_, rfl⟩
    · exact ⟨_, rfl⟩

/-- ParseTTF does not panic, and gives tables inside the file, if the name table is shorter than 65536 bytes. -/
theorem parseTTF_spec {d : Slice} (hw : d.WF) (hd : d.len < 4294967296)
    (hn : ∀ m t, readDir d (u16 d.data 4) 12 [] = .ok m → m.get b!"name" = some t → t.len < 65536) :
    parseTTF d = .err ∨ ∃ t, parseTTF d = .ok t ∧ TablesWF d t.tables ∧ readDir d (u16 d.data 4) 12 [] = .ok t.tables := by
  rw [parseTTF]
  split
  · exact .inl rfl
  · rw [signatureOk, be32_ok hw (by omega), Res.bind, Res.bind]
    split
    · exact .inl rfl
    · rw [be16_ok hw (by omega), Res.bind]
      rcases readDir_wf hw hd (u16 d.data 4) 12 [] (by intro tag t h; simp [Map.get] at h) with h | ⟨m, hm, hm2⟩
      · exact .inl (by rw [h]; rfl)
      · have hn' := fun t => hn m t hm
        rw [hm, Res.bind]
        rcases table_wf hm2 b!"head" 54 with h | ⟨t1, h, _, w1, l1⟩
        · exact .inl (by rw [h]; rfl)
        rw [h, Res.bind, be16_ok w1 (by omega), Res.bind]
        rcases table_wf hm2 b!"maxp" 6 with h | ⟨t2, h, _, w2, l2⟩
        · exact .inl (by rw [h]; rfl)
        rw [h, Res.bind, be16_ok w2 (by omega), Res.bind]
        rcases table_wf hm2 b!"hhea" 36 with h | ⟨t3, h, _, w3, l3⟩
        · exact .inl (by rw [h]; rfl)
        rw [h, Res.bind, be16_ok w3 (by omega), Res.bind, be16_ok w3 (by omega), Res.bind]
        rcases table_wf hm2 b!"name" 6 with h | ⟨t4, h, g4, w4, l4⟩
        · exact .inl (by rw [h]; rfl)
        rw [h, Res.bind, be16_ok w4 (by omega), Res.bind, be16_ok w4 (by omega), Res.bind]
        obtain ⟨ns, h⟩ := nameLoop_no_panic w4 (hn' _ g4) (u16 t4.data 4) (u16 t4.data 2) 6 ⟨[], [], []⟩
        rw [h, Res.bind]
        rcases table_wf hm2 b!"post" 32 with h | ⟨t5, h, _, w5, l5⟩
        · exact .inl (by rw [h]; rfl)
        rw [h, Res.bind, be32_ok w5 (by omega), Res.bind, be32_ok w5 (by omega), Res.bind]
        obtain ⟨o, h⟩ := os2_ok hm2
        rw [h, Res.bind]
        exact .inr ⟨_, rfl, hm2, rfl⟩

/-! ### The choice of the subtable -/

/-- The records from number `i` on, `k` at most. -/
def recs (b : Bytes) (i k : Nat) : List (Nat × Nat × Nat) :=
  match k with
  | 0 => []
  | k + 1 => if b.length < 4 + 8 * i + 8 then [] else
      (u16 b (4 + 8 * i), u16 b (6 + 8 * i), u32 b (8 + 8 * i)) :: recs b (i + 1) k

theorem recs_eq (b : Bytes) : ∀ (k i : Nat), recs b i k =
    (List.range (min k ((b.length - (4 + 8 * i)) / 8))).map fun j =>
      (u16 b (4 + 8 * (i + j)), u16 b (6 + 8 * (i + j)), u32 b (8 + 8 * (i + j))) := by
  intro k
  induction k with
  | zero => intro i; simp [recs]
  | succ k ih =>
    intro i
    rw [recs]
    split
    · rename_i h
      rw [show min (k + 1) ((b.length - (4 + 8 * i)) / 8) = 0 by omega]; rfl
    · rename_i h
      rw [show min (k + 1) ((b.length - (4 + 8 * i)) / 8) = min k ((b.length - (4 + 8 * (i + 1))) / 8) + 1 by omega,
        List.range_succ_eq_map, List.map_cons, List.map_map, ih]
      simp only [Nat.add_zero, List.cons.injEq, true_and]
      apply List.map_congr_left
      intro j _
      simp only [Function.comp, Nat.succ_eq_add_one]
      rw [show i + 1 + j = i + (j + 1) by omega]

theorem recs_records (b : Bytes) : recs b 0 (u16 b 2) = cmapRecords b := by
  rw [recs_eq, cmapRecords]
  simp

/-- The accumulator of the first loop. -/
def winStep (best : Option Nat) (r : Nat × Nat × Nat) : Option Nat :=
  if r.1 = 3 ∧ (r.2.1 = 1 ∨ r.2.1 = 10) then (if best = none ∨ r.2.1 = 10 then some r.2.2 else best) else best

theorem pickWin_eq {s : Slice} (hw : s.WF) : ∀ (k i : Nat) (best : Option Nat),
    pickWin s k (4 + 8 * i) best = .ok ((recs s.data i k).foldl winStep best) := by
  intro k
  induction k with
  | zero => intro i best; rfl
  | succ k ih =>
    intro i best
    rw [pickWin, recs, data_length hw]
    split
    · rfl
    · rw [be16_ok hw (by omega), Res.bind, be16_ok hw (by omega), Res.bind, be32_ok hw (by omega), Res.bind, List.foldl_cons]
      have := ih (i + 1) (winStep best (u16 s.data (4 + 8 * i), u16 s.data (6 + 8 * i), u32 s.data (8 + 8 * i)))
      rw [show 4 + 8 * (i + 1) = 4 + 8 * i + 8 by omega] at this
      rw [← this, winStep, show 4 + 8 * i + 2 = 6 + 8 * i by omega, show 4 + 8 * i + 4 = 8 + 8 * i by omega]

theorem pickUni_eq {s : Slice} (hw : s.WF) : ∀ (k i : Nat),
    pickUni s k (4 + 8 * i) = .ok (((recs s.data i k).find? fun r => r.1 == 0).map (·.2.2)) := by
  intro k
  induction k with
  | zero => intro i; rfl
  | succ k ih =>
    intro i
    rw [pickUni, recs, data_length hw]
    split
    · rfl
    · rw [be16_ok hw (by omega), Res.bind, be32_ok hw (by omega), Res.bind, List.find?_cons, show 4 + 8 * i + 4 = 8 + 8 * i by omega]
      split
      · rename_i h; simp [h]
      · rename_i h
        have := ih (i + 1)
        rw [show 4 + 8 * (i + 1) = 4 + 8 * i + 8 by omega] at this
        rw [this, show (u16 s.data (4 + 8 * i) == 0) = false from beq_false_of_ne h]

theorem winStep_fold (rs : List (Nat × Nat × Nat)) : ∀ best : Option Nat, rs.foldl winStep best =
    match (rs.filter fun r => r.1 == 3 && r.2.1 == 10).getLast? with
    | some r => some r.2.2
    | none => match best with
      | some o => some o
      | none => (rs.find? fun r => r.1 == 3 && r.2.1 == 1).map (·.2.2) := by
  induction rs with
  | nil => intro best; cases best <;> rfl
  | cons r rs ih =>
    intro best
    rw [List.foldl_cons, ih, List.filter_cons, List.find?_cons]
    by_cases h10 : r.1 = 3 ∧ r.2.1 = 10
    · have e : (r.1 == 3 && r.2.1 == 10) = true := by simp [h10]
      have w : winStep best r = some r.2.2 := by rw [winStep, if_pos ⟨h10.1, .inr h10.2⟩, if_pos (.inr h10.2)]
      rw [if_pos e, w, List.getLast?_cons]
      cases (rs.filter fun r => r.1 == 3 && r.2.1 == 10).getLast? <;> simp
    · have e : (r.1 == 3 && r.2.1 == 10) = false := by
        cases h : (r.1 == 3 && r.2.1 == 10)
        · rfl
        · exact absurd (by simpa using h) h10
      rw [e]
      simp only [Bool.false_eq_true, if_false]
      cases (rs.filter fun r => r.1 == 3 && r.2.1 == 10).getLast? with
      | some x => rfl
      | none =>
        simp only
        by_cases h1 : r.1 = 3 ∧ r.2.1 = 1
        · have e1 : (r.1 == 3 && r.2.1 == 1) = true := by simp [h1]
          rw [e1]
          cases best with
          | none => simp [winStep, h1]
          | some o => simp [winStep, h1]
        · have e1 : (r.1 == 3 && r.2.1 == 1) = false := by
            cases h : (r.1 == 3 && r.2.1 == 1)
            · rfl
            · exact absurd (by simpa using h) h1
          have w : winStep best r = best := by
            rw [winStep, if_neg]
            rintro ⟨ha, hb | hb⟩
            · exact h1 ⟨ha, hb⟩
            · exact h10 ⟨ha, hb⟩
          rw [e1, w]

/-- The subtable that is read. -/
theorem subtable_spec {s : Slice} (hw : s.WF) (hl : 4 ≤ s.len) (hv : u16 s.data 0 = 0) :
    subtable s = match chosen (cmapRecords s.data) with
      | none => .err
      | some o => if s.len < o then .panic else if s.len - o < 2 then .err else .ok ⟨s.mem.drop o, s.len - o⟩ := by
  have hw' : s.len ≤ s.mem.length := hw
  have h1 := pickWin_eq hw (u16 s.data 2) 0 none
  have h2 := pickUni_eq hw (u16 s.data 2) 0
  rw [recs_records] at h1 h2
  rw [winStep_fold] at h1
  rw [subtable, if_neg (by omega), be16_ok hw (by omega), Res.bind, if_neg (by simpa using hv), be16_ok hw (by omega), Res.bind,
    show (4 : Nat) = 4 + 8 * 0 by rfl, h1, Res.bind, chosen]
  have tail : ∀ o, ((s.from o).bind fun sub => if sub.len < 2 then Res.err else .ok sub) =
      if s.len < o then .panic else if s.len - o < 2 then .err else .ok ⟨s.mem.drop o, s.len - o⟩ := by
    intro o
    rw [Slice.from, Slice.sub]
    split
    · rename_i h; rw [if_neg (by omega), Res.bind]
    · rename_i h; rw [if_pos (by omega)]; rfl
  cases (cmapRecords s.data |>.filter fun r => r.1 == 3 && r.2.1 == 10).getLast? with
  | some r => simp only [Res.bind, tail]; exact tail _
  | none =>
    simp only
    cases (cmapRecords s.data).find? fun r => r.1 == 3 && r.2.1 == 1 with
    | some r => simp only [Option.map_some]; exact tail _
    | none =>
      simp only [Option.map_none, h2]
      cases (cmapRecords s.data).find? fun r => r.1 == 0 with
      | some r => exact tail _
      | none => rfl

/-! ### Panics of the two formats -/

theorem groups12_no_panic {s : Slice} (hw : s.WF) (fuel : Nat) : ∀ (k i : Nat) (m : Map Int Nat),
    groups12 s fuel k (16 + 12 * i) m ≠ some .panic ∧ groups12 s fuel k (16 + 12 * i) m ≠ some .err := by
  intro k
  induction k with
  | zero => intro i m; simp [groups12]
  | succ k ih =>
    intro i m
    rw [groups12]
    split
    · simp
    · rw [group_read hw (by omega)]
      simp only
      cases codes12 (groupStart s.data i) (groupStop s.data i) (groupGlyph s.data i) fuel (groupStart s.data i) m with
      | none => simp
      | some m1 => simp only; rw [show 16 + 12 * i + 12 = 16 + 12 * (i + 1) by omega]; exact ih _ _

theorem cmap12_no_panic {s : Slice} (hw : s.WF) (fuel : Nat) : cmap12 fuel s ≠ some .panic := by
  by_cases hl : 16 ≤ s.len
  · by_cases h2 : u32 s.data 4 ≤ s.len
    · rw [cmap12_eq hw hl h2]; exact (groups12_no_panic hw fuel _ _ _).1
    · rw [cmap12, if_neg (by omega), be32_ok hw (by omega), Res.bind, be32_ok hw (by omega), Res.bind]
      simp only
      rw [if_pos (by omega)]; simp
  · rw [cmap12, if_pos (by omega)]; simp

theorem glyph4_no_panic {s : Slice} (hw : s.WF) (slot start delta ro code : Nat) : ∃ g, glyph4 s slot start delta ro code = .ok g := by
  rw [glyph4]
  split
  · exact ⟨_, rfl⟩
  · simp only
    split
    · rw [be16_ok hw (by omega)]; exact ⟨_, rfl⟩
    · exact ⟨_, rfl⟩

theorem codes4_no_panic {s : Slice} (hw : s.WF) (slot start stop delta ro : Nat) : ∀ (fuel code : Nat) (m : Map Int Nat),
    codes4 s slot start stop delta ro fuel code m ≠ some .panic := by
  intro fuel
  induction fuel with
  | zero => intro code m; simp [codes4]
  | succ f ih =>
    intro code m
    rw [codes4]
    split
    · obtain ⟨g, h⟩ := glyph4_no_panic hw slot start delta ro code
      rw [h]; exact ih _ _
    · simp

theorem segs4_no_panic {s : Slice} (hw : s.WF) (fuel n : Nat) (hn : 16 + 8 * n ≤ s.mem.length) : ∀ (k i : Nat) (m : Map Int Nat),
    i + k = n → segs4 s fuel n k i m ≠ some .panic := by
  intro k
  induction k with
  | zero => intro i m _; simp [segs4]
  | succ k ih =>
    intro i m h
    rw [segs4, be16_mem (by omega), Res.bind, be16_mem (by omega), Res.bind, be16_mem (by omega), Res.bind, be16_mem (by omega), Res.bind]
    simp only
    split
    · simp
    · split
      · exact ih _ _ (by omega)
      · rename_i r hne
        have := codes4_no_panic hw (16 + n * 2 + n * 2 + n * 2 + i * 2) (u16 s.mem (16 + n * 2 + i * 2)) (u16 s.mem (14 + i * 2))
          (u16 s.mem (16 + n * 2 + n * 2 + i * 2)) (u16 s.mem (16 + n * 2 + n * 2 + n * 2 + i * 2)) fuel
          (u16 s.mem (16 + n * 2 + i * 2)) m
        exact this

theorem cmap4_no_panic {s : Slice} (hw : s.WF) (fuel : Nat) (hn : 16 + 8 * segCount s.data ≤ s.mem.length) :
    cmap4 fuel s ≠ some .panic := by
  rw [cmap4]
  split
  · simp
  · rw [be16_ok hw (by omega), Res.bind, be16_ok hw (by omega), Res.bind]
    simp only
    split
    · simp
    · exact segs4_no_panic hw fuel _ hn _ _ _ (by simp [segCount])

/-- A format 4 subtable whose arrays are cut off by the end of the file. -/
theorem cmap4_panic {s : Slice} (hw : s.WF) (fuel : Nat) (hl : 14 ≤ s.len) (h2 : u16 s.data 2 ≤ s.len) (h3 : 0 < segCount s.data)
    (h4 : s.mem.length < 18 + 2 * segCount s.data) : cmap4 fuel s = some .panic := by
  rw [cmap4, if_neg (by omega), be16_ok hw (by omega), Res.bind, be16_ok hw (by omega), Res.bind]
  simp only
  rw [if_neg (by omega)]
  have e : u16 s.data 6 / 2 = segCount s.data := rfl
  rw [e]
  obtain ⟨k, hk⟩ := Nat.exists_eq_add_of_lt h3
  have hk : segCount s.data = k + 1 := by omega
  have hp : s.be16 (16 + segCount s.data * 2 + 0 * 2) = .panic := by
    rw [Slice.be16, Slice.sub, if_neg (by omega)]
    rfl
  generalize segCount s.data = n at *
  subst hk
  rw [segs4, hp]
  rfl

/-! ### The keys of a format 4 map -/

theorem codes4_keys (s : Slice) (slot start stop delta ro : Nat) : ∀ (fuel code : Nat) (m m' : Map Int Nat), code ≤ 65535 →
    codes4 s slot start stop delta ro fuel code m = some (.ok m') →
    ∀ r : Int, m'.get r = m.get r ∨ ∃ c : Nat, r = c ∧ c < 65535 := by
  intro fuel
  induction fuel with
  | zero => intro code m m' _ h; simp [codes4] at h
  | succ f ih =>
    intro code m m' hc h r
    rw [codes4] at h
    split at h
    · rename_i hcond
      split at h
      · rename_i g hg
        rw [Nat.mod_eq_of_lt (show code + 1 < 65536 by omega)] at h
        rcases ih _ _ _ (by omega) h r with h1 | h1
        · by_cases he : r = (code : Int)
          · exact .inr ⟨code, he, by omega⟩
          · left
            rw [h1]
            split
            · exact Map.get_set_ne _ _ he
            · rfl
        · exact .inr h1
      · simp at h
      · simp at h
    · simp only [Option.some.injEq, Res.ok.injEq] at h
      subst h
      exact .inl rfl

theorem segs4_keys {s : Slice} (fuel n : Nat) : ∀ (k i : Nat) (m m' : Map Int Nat), segs4 s fuel n k i m = some (.ok m') →
    ∀ r : Int, m'.get r = m.get r ∨ ∃ c : Nat, r = c ∧ c < 65535 := by
  intro k
  induction k with
  | zero =>
    intro i m m' h r
    simp only [segs4, Option.some.injEq, Res.ok.injEq] at h
    subst h; exact .inl rfl
  | succ k ih =>
    intro i m m' h r
    rw [segs4] at h
    cases h1 : s.be16 (16 + n * 2 + i * 2) with
    | err => rw [h1] at h; simp [Res.bind] at h
    | panic => rw [h1] at h; simp [Res.bind] at h
    | ok start =>
      have hst := (be16_val h1).2
      have hlt := u16_lt s.mem (16 + n * 2 + i * 2)
      cases h2 : s.be16 (14 + i * 2) with
      | err => rw [h1, h2] at h; simp [Res.bind] at h
      | panic => rw [h1, h2] at h; simp [Res.bind] at h
      | ok stop =>
        cases h3 : s.be16 (16 + n * 2 + n * 2 + i * 2) with
        | err => rw [h1, h2, h3] at h; simp [Res.bind] at h
        | panic => rw [h1, h2, h3] at h; simp [Res.bind] at h
        | ok delta =>
          cases h4 : s.be16 (16 + n * 2 + n * 2 + n * 2 + i * 2) with
          | err => rw [h1, h2, h3, h4] at h; simp [Res.bind] at h
          | panic => rw [h1, h2, h3, h4] at h; simp [Res.bind] at h
          | ok ro =>
            rw [h1, h2, h3, h4] at h
            simp only [Res.bind] at h
            split at h
            · simp only [Option.some.injEq, Res.ok.injEq] at h
              subst h; exact .inl rfl
            · cases h5 : codes4 s (16 + n * 2 + n * 2 + n * 2 + i * 2) start stop delta ro fuel start m with
              | none => rw [h5] at h; simp at h
              | some q =>
                cases q with
                | err => rw [h5] at h; simp at h
                | panic => rw [h5] at h; simp at h
                | ok m1 =>
                  rw [h5] at h
                  rcases ih _ _ _ h r with h6 | h6
                  · rcases codes4_keys s _ _ _ _ _ _ _ _ _ (by omega) h5 r with h7 | h7
                    · exact .inl (h6.trans h7)
                    · exact .inr h7
                  · exact .inr h6

theorem cmap4_keys {s : Slice} {fuel : Nat} {m : Map Int Nat} (h : cmap4 fuel s = some (.ok m)) (r : Int) (g : Nat)
    (hg : m.get r = some g) : ∃ c : Nat, r = c ∧ c < 65535 := by
  rw [cmap4] at h
  split at h
  · simp at h
  · split at h
    · split at h
      · simp at h
      · rcases segs4_keys _ _ _ _ _ _ h r with h1 | h1
        · rw [h1] at hg; simp [Map.get] at hg
        · exact h1
    · simp at h
    · simp at h

end Pdfer.Font
