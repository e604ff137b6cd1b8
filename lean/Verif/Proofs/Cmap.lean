import Verif.Proofs.Font

/-! The character map of a font. -/

namespace Pdfer.Font

open Pdfer.Go Pdfer.Spec.Font Pdfer.Strings

theorem rune32_inj {a b : Nat} (ha : a < 4294967296) (hb : b < 4294967296) (h : rune32 a = rune32 b) : a = b := by
  simp only [rune32] at h
  split at h <;> split at h <;> omega

theorem be16_val {s : Slice} {i v : Nat} (h : s.be16 i = .ok v) : i + 2 ≤ s.mem.length ∧ v = u16 s.mem i := by
  by_cases hl : i + 2 ≤ s.mem.length
  · rw [be16_mem hl] at h
    exact ⟨hl, (Res.ok.inj h).symm⟩
  · simp only [Slice.be16, Slice.sub, Res.bind] at h
    rw [if_neg (by omega)] at h
    exact absurd h (by simp)

/-! ### Format 12 -/

theorem codes12_none (start gid : Nat) : ∀ (fuel code : Nat) (m : Map Int Nat), code < 4294967296 →
    codes12 start 4294967295 gid fuel code m = none := by
  intro fuel
  induction fuel with
  | zero => intro code m _; rfl
  | succ f ih =>
    intro code m h
    rw [codes12, if_pos (by omega)]
    exact ih _ _ (Nat.mod_lt _ (by omega))

theorem codes12_mono (start stop gid : Nat) : ∀ (fuel code : Nat) (m m' : Map Int Nat),
    codes12 start stop gid fuel code m = some m' → ∀ k, codes12 start stop gid (fuel + k) code m = some m' := by
  intro fuel
  induction fuel with
  | zero => intro code m m' h; simp [codes12] at h
  | succ f ih =>
    intro code m m' h k
    rw [Nat.succ_add, codes12]
    rw [codes12] at h
    split
    · rename_i hc
      rw [if_pos hc] at h
      exact ih _ _ _ h k
    · rename_i hc
      rw [if_neg hc] at h
      exact h

theorem codes12_finish (start stop gid : Nat) (hs : stop < 4294967295) : ∀ (d code : Nat) (m : Map Int Nat),
    stop + 1 - code = d → code < 4294967296 → ∃ m', codes12 start stop gid (d + 1) code m = some m' := by
  intro d
  induction d with
  | zero =>
    intro code m hd _
    exact ⟨m, by rw [codes12, if_neg (by omega)]⟩
  | succ d ih =>
    intro code m hd hc
    rw [codes12, if_pos (by omega), Nat.mod_eq_of_lt (show code + 1 < 4294967296 by omega)]
    exact ih _ _ (by omega) (by omega)

theorem codes12_get (start stop gid : Nat) (hs : stop < 4294967296) : ∀ (fuel code : Nat) (m m' : Map Int Nat),
    codes12 start stop gid fuel code m = some m' → code < 4294967296 → ∀ c : Nat, c < 4294967296 →
    m'.get (rune32 c) = if code ≤ c ∧ c ≤ stop then some ((gid + (c - start)) % 65536) else m.get (rune32 c) := by
  intro fuel
  induction fuel with
  | zero => intro code m m' h; simp [codes12] at h
  | succ f ih =>
    intro code m m' h hcode c hc
    rw [codes12] at h
    by_cases hle : code ≤ stop
    · rw [if_pos hle] at h
      by_cases hlast : code = 4294967295
      · have : stop = 4294967295 := by omega
        subst this
        rw [codes12_none _ _ _ _ _ (Nat.mod_lt _ (by omega))] at h
        exact absurd h (by simp)
      · rw [Nat.mod_eq_of_lt (show code + 1 < 4294967296 by omega)] at h
        rw [ih _ _ _ h (by omega) c hc]
        by_cases he : c = code
        · subst he
          rw [if_neg (by omega), if_pos ⟨Nat.le_refl _, hle⟩, Map.get_set_eq]
        · rw [Map.get_set_ne _ _ (fun e => he (rune32_inj hc hcode e))]
          by_cases h2 : code + 1 ≤ c ∧ c ≤ stop
          · rw [if_pos h2, if_pos ⟨by omega, h2.2⟩]
          · rw [if_neg h2, if_neg (by omega)]
    · rw [if_neg hle] at h
      obtain rfl := Option.some.inj h
      rw [if_neg (by omega)]

/-- Group `j` is one of the `k` groups from `i` on, inside the subtable. -/
def Reach (b : Bytes) (i k j : Nat) : Prop := i ≤ j ∧ j < i + k ∧ 28 + 12 * j ≤ b.length

theorem group_read {s : Slice} (hw : s.WF) {i : Nat} (h : 16 + 12 * i + 12 ≤ s.len) :
    ((s.be32 (16 + 12 * i)).bind fun start => (s.be32 (16 + 12 * i + 4)).bind fun stop =>
      (s.be32 (16 + 12 * i + 8)).bind fun gid => .ok (start, stop, gid)) =
    .ok (groupStart s.data i, groupStop s.data i, groupGlyph s.data i) := by
  rw [be32_ok hw (by omega), Res.bind, be32_ok hw (by omega), Res.bind, be32_ok hw (by omega), Res.bind,
    groupStart, groupStop, groupGlyph, show 16 + 12 * i + 4 = 20 + 12 * i by omega, show 16 + 12 * i + 8 = 24 + 12 * i by omega]

theorem groups12_finish {s : Slice} (hw : s.WF) : ∀ (k i : Nat) (m : Map Int Nat),
    (∀ j, Reach s.data i k j → ¬ (groupStart s.data j ≤ groupStop s.data j ∧ groupStop s.data j = 4294967295)) →
    ∃ f0 m', ∀ fuel, f0 ≤ fuel → groups12 s fuel k (16 + 12 * i) m = some (.ok m') := by
  intro k
  induction k with
  | zero => intro i m _; exact ⟨0, m, fun _ _ => rfl⟩
  | succ k ih =>
    intro i m h
    by_cases hl : s.len < 16 + 12 * i + 12
    · exact ⟨0, m, fun _ _ => by rw [groups12, if_pos hl]⟩
    · have hr : Reach s.data i (k + 1) i := ⟨Nat.le_refl _, by omega, by rw [data_length hw]; omega⟩
      have hb := h i hr
      have hst := u32_lt s.data (16 + 12 * i)
      have hsp := u32_lt s.data (20 + 12 * i)
      have : ∃ f0 m1, ∀ fuel, f0 ≤ fuel → codes12 (groupStart s.data i) (groupStop s.data i) (groupGlyph s.data i) fuel
          (groupStart s.data i) m = some m1 := by
        by_cases hlt : groupStop s.data i < 4294967295
        · obtain ⟨m1, h1⟩ := codes12_finish (groupStart s.data i) (groupStop s.data i) (groupGlyph s.data i) hlt _
            (groupStart s.data i) m rfl hst
          exact ⟨_, m1, fun fuel hf => by
            obtain ⟨k, rfl⟩ := Nat.exists_eq_add_of_le hf
            exact codes12_mono _ _ _ _ _ _ _ h1 k⟩
        · have e : groupStop s.data i = 4294967295 := by rw [groupStop] at hlt ⊢; omega
          refine ⟨1, m, fun fuel hf => ?_⟩
          obtain ⟨k, rfl⟩ := Nat.exists_eq_add_of_le hf
          rw [Nat.add_comm, codes12, if_neg (fun hle => hb ⟨hle, e⟩)]
      obtain ⟨f1, m1, h1⟩ := this
      obtain ⟨f2, m2, h2⟩ := ih (i + 1) m1 (fun j hj => h j ⟨by have := hj.1; omega, by have := hj.2.1; omega, hj.2.2⟩)
      refine ⟨max f1 f2, m2, fun fuel hf => ?_⟩
      rw [groups12, if_neg hl, group_read hw (by omega)]
      simp only [h1 fuel (by omega)]
      have := h2 fuel (by omega)
      rwa [show 16 + 12 * (i + 1) = 16 + 12 * i + 12 by omega] at this

theorem groups12_diverges {s : Slice} (hw : s.WF) (fuel : Nat) : ∀ (k i : Nat) (m : Map Int Nat) (j : Nat), Reach s.data i k j →
    groupStart s.data j ≤ groupStop s.data j → groupStop s.data j = 4294967295 →
    groups12 s fuel k (16 + 12 * i) m = none := by
  intro k
  induction k with
  | zero => intro i m j h; have := h.1; have := h.2.1; omega
  | succ k ih =>
    intro i m j hj h1 h2
    have hjl := hj.2.2
    rw [data_length hw] at hjl
    have hl : ¬ s.len < 16 + 12 * i + 12 := by have := hj.1; omega
    rw [groups12, if_neg hl, group_read hw (by omega)]
    simp only
    by_cases he : i = j
    · subst he
      rw [h2] at h1 ⊢
      rw [codes12_none _ _ _ _ _ (show groupStart s.data i < 4294967296 from u32_lt _ _)]
    · cases hc : codes12 (groupStart s.data i) (groupStop s.data i) (groupGlyph s.data i) fuel (groupStart s.data i) m with
      | none => rfl
      | some m1 =>
        simp only
        have := ih (i + 1) m1 j ⟨by have := hj.1; omega, by have := hj.2.1; omega, hj.2.2⟩ h1 h2
        rwa [show 16 + 12 * (i + 1) = 16 + 12 * i + 12 by omega] at this

theorem groups12_get {s : Slice} (hw : s.WF) (fuel : Nat) : ∀ (k i : Nat) (m m' : Map Int Nat),
    groups12 s fuel k (16 + 12 * i) m = some (.ok m') → ∀ c : Nat, c < 4294967296 → ∀ g,
    (m'.get (rune32 c) = some g ↔
      (∃ j, Reach s.data i k j ∧ groupStart s.data j ≤ c ∧ c ≤ groupStop s.data j ∧
        (∀ j', Reach s.data i k j' → j < j' → ¬ (groupStart s.data j' ≤ c ∧ c ≤ groupStop s.data j')) ∧
        g = (groupGlyph s.data j + (c - groupStart s.data j)) % 65536) ∨
      ((∀ j, Reach s.data i k j → ¬ (groupStart s.data j ≤ c ∧ c ≤ groupStop s.data j)) ∧ m.get (rune32 c) = some g)) := by
  intro k
  induction k with
  | zero =>
    intro i m m' h c hc g
    simp only [groups12, Option.some.injEq, Res.ok.injEq] at h
    subst h
    constructor
    · intro h; exact .inr ⟨fun j hj => by have := hj.1; have := hj.2.1; omega, h⟩
    · rintro (⟨j, hj, _⟩ | h)
      · have := hj.1; have := hj.2.1; omega
      · exact h.2
  | succ k ih =>
    intro i m m' h c hc g
    by_cases hl : s.len < 16 + 12 * i + 12
    · rw [groups12, if_pos hl] at h
      simp only [Option.some.injEq, Res.ok.injEq] at h
      subst h
      have no : ∀ j, ¬ Reach s.data i (k + 1) j := by
        intro j hj
        have := hj.1; have := hj.2.2
        rw [data_length hw] at this
        omega
      constructor
      · intro h; exact .inr ⟨fun j hj => absurd hj (no j), h⟩
      · rintro (⟨j, hj, _⟩ | h)
        · exact absurd hj (no j)
        · exact h.2
    · have hlen := data_length hw
      rw [groups12, if_neg hl, group_read hw (by omega)] at h
      simp only at h
      cases hcd : codes12 (groupStart s.data i) (groupStop s.data i) (groupGlyph s.data i) fuel (groupStart s.data i) m with
      | none => rw [hcd] at h; simp at h
      | some m1 =>
        rw [hcd] at h
        simp only at h
        rw [show 16 + 12 * i + 12 = 16 + 12 * (i + 1) by omega] at h
        rw [ih (i + 1) m1 m' h c hc g, codes12_get _ _ _ (show groupStop s.data i < 4294967296 from u32_lt _ _) _ _ _ _ hcd (show groupStart s.data i < 4294967296 from u32_lt _ _) c hc]
        have step : ∀ j, Reach s.data i (k + 1) j ↔ j = i ∨ Reach s.data (i + 1) k j := by
          intro j
          simp only [Reach]
          omega
        constructor
        · rintro (⟨j, hj, h1, h2, h3, h4⟩ | ⟨h1, h2⟩)
          · refine .inl ⟨j, (step j).2 (.inr hj), h1, h2, fun j' hj' hlt => ?_, h4⟩
            rcases (step j').1 hj' with rfl | hj'
            · have := hj.1; omega
            · exact h3 j' hj' hlt
          · by_cases hin : groupStart s.data i ≤ c ∧ c ≤ groupStop s.data i
            · rw [if_pos hin] at h2
              refine .inl ⟨i, (step i).2 (.inl rfl), hin.1, hin.2, fun j' hj' hlt => ?_, (Option.some.inj h2).symm⟩
              rcases (step j').1 hj' with rfl | hj'
              · omega
              · exact h1 j' hj'
            · rw [if_neg hin] at h2
              refine .inr ⟨fun j hj => ?_, h2⟩
              rcases (step j).1 hj with rfl | hj
              · exact hin
              · exact h1 j hj
        · rintro (⟨j, hj, h1, h2, h3, h4⟩ | ⟨h1, h2⟩)
          · rcases (step j).1 hj with rfl | hj
            · refine .inr ⟨fun j' hj' => h3 j' ((step j').2 (.inr hj')) (by have := hj'.1; omega), ?_⟩
              rw [if_pos ⟨h1, h2⟩, h4]
            · exact .inl ⟨j, hj, h1, h2, fun j' hj' hlt => h3 j' ((step j').2 (.inr hj')) hlt, h4⟩
          · refine .inr ⟨fun j hj => h1 j ((step j).2 (.inr hj)), ?_⟩
            rw [if_neg (h1 i ((step i).2 (.inl rfl)))]
            exact h2

theorem reach_count {b : Bytes} (hb : 16 ≤ b.length) (j : Nat) : Reach b 0 (u32 b 12) j ↔ j < groupCount b := by
  simp only [Reach, groupCount]
  omega

/-- `parseCmapFormat12` after its checks. -/
theorem cmap12_eq {s : Slice} (hw : s.WF) (hl : 16 ≤ s.len) (hlen : u32 s.data 4 ≤ s.len) (fuel : Nat) :
    cmap12 fuel s = groups12 s fuel (u32 s.data 12) (16 + 12 * 0) [] := by
  rw [cmap12, if_neg (by omega), be32_ok hw (by omega), Res.bind, be32_ok hw (by omega), Res.bind]
  simp only
  rw [if_neg (by omega)]

/-! ### Format 4 -/

theorem glyph4_ok {s : Slice} (hw : s.WF) {i c : Nat} :
    glyph4 s (16 + 6 * segCount s.data + 2 * i) (segStart s.data i) (segDelta s.data i) (segRange s.data i) c =
      .ok (segGlyph s.data i c) := by
  rw [glyph4, segGlyph]
  split
  · rfl
  · simp only
    rw [data_length hw]
    have e : (c - segStart s.data i) * 2 = 2 * (c - segStart s.data i) := Nat.mul_comm _ _
    rw [e]
    split
    · rename_i h
      rw [be16_ok hw h, Res.bind]
      by_cases h2 : u16 s.data (16 + 6 * segCount s.data + 2 * i + segRange s.data i + 2 * (c - segStart s.data i)) = 0
      · simp [h2]
      · simp [h2]
    · rfl

theorem codes4_get {s : Slice} {slot start stop delta ro : Nat} (G : Nat → Nat)
    (hG : ∀ c, glyph4 s slot start delta ro c = .ok (G c)) : ∀ (fuel code : Nat) (m : Map Int Nat), code ≤ 65535 →
    65535 < fuel + code → ∃ m', codes4 s slot start stop delta ro fuel code m = some (.ok m') ∧ ∀ c : Nat,
      m'.get (c : Int) = if code ≤ c ∧ c ≤ stop ∧ c < 65535 ∧ G c ≠ 0 then some (G c) else m.get (c : Int) := by
  intro fuel
  induction fuel with
  | zero => intro code m h h'; omega
  | succ f ih =>
    intro code m hc hf
    rw [codes4]
    by_cases h : code ≤ stop ∧ code ≠ 65535
    · rw [if_pos h, hG]
      simp only
      rw [Nat.mod_eq_of_lt (show code + 1 < 65536 by omega)]
      obtain ⟨m', h1, h2⟩ := ih (code + 1) (if G code ≠ 0 then m.set (code : Int) (G code) else m) (by omega) (by omega)
      refine ⟨m', h1, fun c => ?_⟩
      rw [h2]
      by_cases he : c = code
      · subst he
        rw [if_neg (by omega)]
        by_cases hz : G c = 0
        · rw [if_neg (by simp [hz]), if_neg (by simp [hz])]
        · rw [if_pos hz, if_pos ⟨Nat.le_refl _, h.1, by omega, hz⟩, Map.get_set_eq]
      · have : (if G code ≠ 0 then m.set (code : Int) (G code) else m).get (c : Int) = m.get (c : Int) := by
          split
          · exact Map.get_set_ne _ _ (by omega)
          · rfl
        rw [this]
        by_cases h2 : code + 1 ≤ c ∧ c ≤ stop ∧ c < 65535 ∧ G c ≠ 0
        · rw [if_pos h2, if_pos ⟨by omega, h2.2⟩]
        · rw [if_neg h2, if_neg (fun h3 => h2 ⟨by omega, h3.2⟩)]
    · rw [if_neg h]
      refine ⟨m, rfl, fun c => ?_⟩
      rw [if_neg (by omega)]

theorem seg_read {s : Slice} (hw : s.WF) (hl : 16 + 8 * segCount s.data ≤ s.len) {i : Nat} (hi : i < segCount s.data) :
    ((s.be16 (16 + segCount s.data * 2 + i * 2)).bind fun start => (s.be16 (14 + i * 2)).bind fun stop =>
      (s.be16 (16 + segCount s.data * 2 + segCount s.data * 2 + i * 2)).bind fun delta =>
      (s.be16 (16 + segCount s.data * 2 + segCount s.data * 2 + segCount s.data * 2 + i * 2)).bind fun ro =>
        .ok (start, stop, delta, ro)) =
    .ok (segStart s.data i, segStop s.data i, segDelta s.data i, segRange s.data i) := by
  rw [be16_ok hw (by omega), Res.bind, be16_ok hw (by omega), Res.bind, be16_ok hw (by omega), Res.bind,
    be16_ok hw (by omega), Res.bind, segStart, segStop, segDelta, segRange]
  rw [show 16 + segCount s.data * 2 + i * 2 = 16 + 2 * segCount s.data + 2 * i by omega,
    show 14 + i * 2 = 14 + 2 * i by omega,
    show 16 + segCount s.data * 2 + segCount s.data * 2 + i * 2 = 16 + 4 * segCount s.data + 2 * i by omega,
    show 16 + segCount s.data * 2 + segCount s.data * 2 + segCount s.data * 2 + i * 2 = 16 + 6 * segCount s.data + 2 * i by omega]

theorem segs4_get {s : Slice} (hw : s.WF) (hc : Conforming4 s.data) {fuel : Nat} (hf : 65535 < fuel) : ∀ (k i : Nat) (m : Map Int Nat),
    i + k = segCount s.data →
    ∃ m', segs4 s fuel (segCount s.data) k i m = some (.ok m') ∧ ∀ (c g : Nat), c < 65535 →
      (m'.get (c : Int) = some g ↔
        (∃ j, i ≤ j ∧ InSeg s.data j c ∧ segGlyph s.data j c = g ∧ g ≠ 0) ∨
        ((∀ j, i ≤ j → InSeg s.data j c → segGlyph s.data j c = 0) ∧ m.get (c : Int) = some g)) := by
  intro k
  induction k with
  | zero =>
    intro i m h
    refine ⟨m, rfl, fun c g _ => ?_⟩
    constructor
    · intro h'; exact .inr ⟨fun j hj hin => by have := hin.1; omega, h'⟩
    · rintro (⟨j, hj, hin, _⟩ | h')
      · have := hin.1; omega
      · exact h'.2
  | succ k ih =>
    intro i m h
    have hlong := hc.long
    have hi : i < segCount s.data := by omega
    rw [data_length hw] at hlong
    rw [segs4]
    simp only [seg_read hw hlong hi]
    by_cases hlast : segStop s.data i = 65535 ∧ segStart s.data i = 65535
    · rw [if_pos hlast]
      refine ⟨m, rfl, fun c g hcl => ?_⟩
      have no : ∀ j, i ≤ j → ¬ InSeg s.data j c := by
        intro j hj hin
        rcases Nat.eq_or_lt_of_le hj with rfl | hlt
        · have := hin.2.1; omega
        · have h1 := hc.order i j hlt hin.1
          have h2 := u16_lt s.data (16 + 2 * segCount s.data + 2 * j)
          rw [segStart] at h1
          omega
      constructor
      · intro h'; exact .inr ⟨fun j hj hin => absurd hin (no j hj), h'⟩
      · rintro (⟨j, hj, hin, _⟩ | h')
        · exact absurd hin (no j hj)
        · exact h'.2
    · rw [if_neg hlast]
      have hst := u16_lt s.data (16 + 2 * segCount s.data + 2 * i)
      obtain ⟨m1, h1, h2⟩ := codes4_get (s := s) (slot := 16 + 6 * segCount s.data + 2 * i) (start := segStart s.data i)
        (stop := segStop s.data i) (delta := segDelta s.data i) (ro := segRange s.data i) (segGlyph s.data i)
        (fun c => glyph4_ok hw) fuel (segStart s.data i) m (by rw [segStart]; omega) (by omega)
      have e : 16 + segCount s.data * 2 + segCount s.data * 2 + segCount s.data * 2 + i * 2 = 16 + 6 * segCount s.data + 2 * i := by omega
      rw [e, h1]
      simp only
      obtain ⟨m', h3, h4⟩ := ih (i + 1) m1 (by omega)
      refine ⟨m', h3, fun c g hcl => ?_⟩
      rw [h4 c g hcl, h2]
      have excl : ∀ j, i + 1 ≤ j → InSeg s.data j c → ¬ InSeg s.data i c := by
        intro j hj hin hin'
        have := hc.order i j (by omega) hin.1
        have := hin.2.1; have := hin'.2.2
        omega
      constructor
      · rintro (⟨j, hj, hin, hg⟩ | ⟨hz, hm⟩)
        · exact .inl ⟨j, by omega, hin, hg⟩
        · by_cases hin : segStart s.data i ≤ c ∧ c ≤ segStop s.data i ∧ c < 65535 ∧ segGlyph s.data i c ≠ 0
          · rw [if_pos hin] at hm
            have hm := Option.some.inj hm
            exact .inl ⟨i, Nat.le_refl _, ⟨hi, hin.1, hin.2.1⟩, hm, hm ▸ hin.2.2.2⟩
          · rw [if_neg hin] at hm
            refine .inr ⟨fun j hj hin' => ?_, hm⟩
            rcases Nat.eq_or_lt_of_le hj with rfl | hlt
            · rcases Nat.eq_zero_or_pos (segGlyph s.data i c) with h0 | h0
              · exact h0
              · exact absurd ⟨hin'.2.1, hin'.2.2, hcl, by omega⟩ hin
            · exact hz j hlt hin'
      · rintro (⟨j, hj, hin, hg, hne⟩ | ⟨hz, hm⟩)
        · rcases Nat.eq_or_lt_of_le hj with rfl | hlt
          · refine .inr ⟨fun j' hj' hin' => absurd hin (excl j' hj' hin'), ?_⟩
            rw [if_pos ⟨hin.2.1, hin.2.2, hcl, by rw [hg]; exact hne⟩, hg]
          · exact .inl ⟨j, hlt, hin, hg, hne⟩
        · refine .inr ⟨fun j hj hin => hz j (by omega) hin, ?_⟩
          rw [if_neg]
          · exact hm
          · intro h5
            exact h5.2.2.2 (hz i (Nat.le_refl _) ⟨hi, h5.1, h5.2.1⟩)

theorem cmap4_get {s : Slice} (hw : s.WF) (hl : 14 ≤ s.len) (hc : Conforming4 s.data) {fuel : Nat} (hf : 65535 < fuel) :
    ∃ m, cmap4 fuel s = some (.ok m) ∧ ∀ c g : Nat, c < 65535 →
      (m.get (c : Int) = some g ↔ g ≠ 0 ∧ ∃ i, InSeg s.data i c ∧ segGlyph s.data i c = g) := by
  have hlen := hc.length
  rw [data_length hw] at hlen
  obtain ⟨m, h1, h2⟩ := segs4_get hw hc hf (segCount s.data) 0 [] (by omega)
  refine ⟨m, ?_, fun c g hcl => ?_⟩
  · rw [cmap4, if_neg (by omega), be16_ok hw (by omega), Res.bind, be16_ok hw (by omega), Res.bind]
    simp only
    rw [if_neg (by omega)]
    exact h1
  · rw [h2 c g hcl]
    constructor
    · rintro (⟨j, _, hin, hg, hne⟩ | ⟨_, h⟩)
      · exact ⟨hne, j, hin, hg⟩
      · simp [Map.get] at h
    · rintro ⟨hne, j, hin, hg⟩
      exact .inl ⟨j, Nat.zero_le _, hin, hg, hne⟩

/-! Termination of format 4 for every table. -/

theorem codes4_ne_none (s : Slice) (slot start stop delta ro : Nat) : ∀ (fuel code : Nat) (m : Map Int Nat), code ≤ 65535 →
    65535 < fuel + code → codes4 s slot start stop delta ro fuel code m ≠ none := by
  intro fuel
  induction fuel with
  | zero => intro code m h h'; omega
  | succ f ih =>
    intro code m hc hf
    rw [codes4]
    split
    · split
      · rw [Nat.mod_eq_of_lt (show code + 1 < 65536 by omega)]
        exact ih _ _ (by omega) (by omega)
      · simp
      · simp
    · simp

theorem segs4_ne_none (s : Slice) {fuel : Nat} (hf : 65535 < fuel) (n : Nat) : ∀ (k i : Nat) (m : Map Int Nat),
    segs4 s fuel n k i m ≠ none := by
  intro k
  induction k with
  | zero => intro i m; simp [segs4]
  | succ k ih =>
    intro i m
    rw [segs4]
    cases h1 : s.be16 (16 + n * 2 + i * 2) with
    | err => simp [Res.bind]
    | panic => simp [Res.bind]
    | ok start =>
      have hst : start ≤ 65535 := by
        have := (be16_val h1).2
        have := u16_lt s.mem (16 + n * 2 + i * 2)
        omega
      simp only [Res.bind]
      split
      · rename_i heq
        split
        · simp
        · rename_i st sp dl ro hnl
          have : st = start := by
            cases h2 : s.be16 (14 + i * 2) with
            | err => rw [h2] at heq; simp at heq
            | panic => rw [h2] at heq; simp at heq
            | ok b =>
              rw [h2] at heq
              cases h3 : s.be16 (16 + n * 2 + n * 2 + i * 2) with
              | err => rw [h3] at heq; simp at heq
              | panic => rw [h3] at heq; simp at heq
              | ok c =>
                rw [h3] at heq
                cases h4 : s.be16 (16 + n * 2 + n * 2 + n * 2 + i * 2) with
                | err => rw [h4] at heq; simp at heq
                | panic => rw [h4] at heq; simp at heq
                | ok d => rw [h4] at heq; simp at heq; exact heq.1.symm
          subst this
          have := codes4_ne_none s (16 + n * 2 + n * 2 + n * 2 + i * 2) st sp dl ro fuel st m hst (by omega)
          cases h5 : codes4 s (16 + n * 2 + n * 2 + n * 2 + i * 2) st sp dl ro fuel st m with
          | none => exact absurd h5 this
          | some r =>
            cases r with
            | ok m' => exact ih _ _
            | err => simp
            | panic => simp
      · simp
      · simp

theorem cmap4_ne_none (s : Slice) {fuel : Nat} (hf : 65535 < fuel) : cmap4 fuel s ≠ none := by
  rw [cmap4]
  split
  · simp
  · split
    · split
      · simp
      · exact segs4_ne_none s hf _ _ _ _
    · simp
    · simp

end Pdfer.Font
