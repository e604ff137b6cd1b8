import Mathlib.Data.List.Perm.Subperm
import Verif.Model.Incremental
import Verif.Spec.Incremental
import Verif.Proofs.Text

/-! Lemmas about revisions, the /Prev chain and the merging of sections. -/

namespace Pdfer.Incremental

open Pdfer.Go Pdfer.XRefTable Pdfer.XRefStream

/-! ### End-of-file markers -/

theorem eof_no_overlap {r : Bytes} {c : UInt8} (h : b!"%%EOF" <+: c :: r) (j : Nat) (hj : j < 4) :
    ¬ b!"%%EOF" <+: r.drop j := by
  obtain ⟨t, ht⟩ := h
  simp at ht
  obtain ⟨rfl, rfl⟩ := ht
  intro hp
  obtain ⟨u, hu⟩ := hp
  rcases j with _ | _ | _ | _ | j <;> first | omega | (simp at hu)

theorem mem_eofScan (s : Bytes) : ∀ pos skip i, i ∈ eofScan pos skip s ↔
    ∃ j, i = pos + j ∧ skip ≤ j ∧ b!"%%EOF" <+: s.drop j := by
  induction s with
  | nil => intro pos skip i; cases skip <;> simp [eofScan]
  | cons c r ih =>
    intro pos skip i
    cases skip with
    | succ k =>
      rw [eofScan, ih]
      constructor
      · rintro ⟨j, rfl, h1, h2⟩; exact ⟨j + 1, by omega, by omega, by simpa using h2⟩
      · rintro ⟨j, rfl, h1, h2⟩
        obtain ⟨j', rfl⟩ : ∃ j', j = j' + 1 := ⟨j - 1, by omega⟩
        exact ⟨j', by omega, by omega, by simpa using h2⟩
    | zero =>
      rw [eofScan]
      by_cases hp : (b!"%%EOF").isPrefixOf (c :: r) = true
      · rw [if_pos hp]
        have hp' : b!"%%EOF" <+: c :: r := by simpa using hp
        rw [List.mem_cons, ih]
        constructor
        · rintro (rfl | ⟨j, rfl, h1, h2⟩)
          · exact ⟨0, by omega, by omega, by simpa using hp'⟩
          · exact ⟨j + 1, by omega, by omega, by simpa using h2⟩
        · rintro ⟨j, rfl, h1, h2⟩
          cases j with
          | zero => left; omega
          | succ j =>
            right
            refine ⟨j, by omega, ?_, by simpa using h2⟩
            apply Classical.byContradiction
            intro hlt
            exact eof_no_overlap hp' j (by omega) (by simpa using h2)
      · rw [if_neg hp, ih]
        constructor
        · rintro ⟨j, rfl, h1, h2⟩; exact ⟨j + 1, by omega, by omega, by simpa using h2⟩
        · rintro ⟨j, rfl, h1, h2⟩
          cases j with
          | zero => exact absurd (by simpa using h2) hp
          | succ j => exact ⟨j, by omega, by omega, by simpa using h2⟩

theorem eofScan_sorted (s : Bytes) : ∀ pos skip, (eofScan pos skip s).Pairwise (· < ·) := by
  induction s with
  | nil => intro pos skip; cases skip <;> simp [eofScan]
  | cons c r ih =>
    intro pos skip
    cases skip with
    | succ k => rw [eofScan]; exact ih _ _
    | zero =>
      rw [eofScan]
      split
      · refine List.pairwise_cons.2 ⟨?_, ih _ _⟩
        intro i hi
        obtain ⟨j, rfl, _⟩ := (mem_eofScan r _ _ _).1 hi
        omega
      · exact ih _ _

theorem mem_findAllEOF (s : Bytes) (i : Nat) : i ∈ findAllEOF s ↔ b!"%%EOF" <+: s.drop i := by
  unfold findAllEOF
  rw [mem_eofScan]
  constructor
  · rintro ⟨j, rfl, _, h⟩; simpa using h
  · intro h; exact ⟨i, by omega, by omega, h⟩

theorem findAllEOF_sorted (s : Bytes) : (findAllEOF s).Pairwise (· < ·) := eofScan_sorted s _ _

/-- Two increasing lists with the same members are equal. -/
theorem sorted_ext : ∀ {a b : List Nat}, a.Pairwise (· < ·) → b.Pairwise (· < ·) → (∀ i, i ∈ a ↔ i ∈ b) → a = b
  | [], [], _, _, _ => rfl
  | [], y :: b, _, _, h => absurd ((h y).2 (by simp)) (by simp)
  | x :: a, [], _, _, h => absurd ((h x).1 (by simp)) (by simp)
  | x :: a, y :: b, ha, hb, h => by
    have ha' := List.pairwise_cons.1 ha
    have hb' := List.pairwise_cons.1 hb
    have hxy : x = y := by
      have h1 := (h x).1 (by simp)
      have h2 := (h y).2 (by simp)
      rcases List.mem_cons.1 h1 with h1 | h1
      · exact h1
      · rcases List.mem_cons.1 h2 with h2 | h2
        · exact h2.symm
        · have := hb'.1 x h1
          have := ha'.1 y h2
          omega
    subst hxy
    congr 1
    apply sorted_ext ha'.2 hb'.2
    intro i
    constructor
    · intro hi
      have := ha'.1 i hi
      rcases List.mem_cons.1 ((h i).1 (by simp [hi])) with h1 | h1
      · omega
      · exact h1
    · intro hi
      have := hb'.1 i hi
      rcases List.mem_cons.1 ((h i).2 (by simp [hi])) with h1 | h1
      · omega
      · exact h1

theorem sorted_take_mem {l : List Nat} (h : l.Pairwise (· < ·)) (k : Nat) (hk : k < l.length) (i : Nat) :
    i ∈ l.take (k + 1) ↔ i ∈ l ∧ i ≤ l[k] := by
  constructor
  · intro hi
    refine ⟨List.mem_of_mem_take hi, ?_⟩
    obtain ⟨j, hj, rfl⟩ := List.mem_take_iff_getElem.1 hi
    by_cases hjk : j = k
    · subst hjk; exact Nat.le_refl _
    · exact Nat.le_of_lt (List.pairwise_iff_getElem.1 h j k (by omega) hk (by omega))
  · rintro ⟨hm, hle⟩
    obtain ⟨j, hj, rfl⟩ := List.getElem_of_mem hm
    refine List.mem_take_iff_getElem.2 ⟨j, ?_, rfl⟩
    have : j ≤ k := by
      apply Classical.byContradiction
      intro hn
      have := List.pairwise_iff_getElem.1 h k j hk hj (by omega)
      omega
    omega

theorem eof_fits {s : Bytes} {i : Nat} (h : b!"%%EOF" <+: s.drop i) : i + 5 ≤ s.length := by
  have := h.length_le
  simp at this
  omega

/-- The end of revision `k + 1`. -/
def revEnd (s : Bytes) (i : Nat) : Nat := i + 5 + ((s.drop (i + 5)).takeWhile isEol).length

theorem extract_eq (s : Bytes) (k : Nat) (hk : k < (findAllEOF s).length) :
    extractRevision s (k + 1 : Nat) = some (s.take (revEnd s (findAllEOF s)[k])) := by
  unfold extractRevision
  have hb : (boundaries s).length = (findAllEOF s).length := by simp [boundaries]
  rw [if_neg (by omega)]
  have hg : (boundaries s).getD (((k + 1 : Nat) : Int).toNat - 1) 0 = (findAllEOF s)[k] + 5 := by
    rw [show (((k + 1 : Nat) : Int).toNat - 1) = k by omega]
    unfold boundaries
    rw [List.getD_eq_getElem?_getD, List.getElem?_map, List.getElem?_eq_getElem hk]
    rfl
  have hf := eof_fits ((mem_findAllEOF s _).1 (List.getElem_mem hk))
  simp only [hg, Nat.min_eq_left hf]
  rfl

theorem revEnd_le {s : Bytes} {i : Nat} (h : b!"%%EOF" <+: s.drop i) : revEnd s i ≤ s.length := by
  have h1 := eof_fits h
  have h2 : ((s.drop (i + 5)).takeWhile isEol).length ≤ (s.drop (i + 5)).length := by
    exact List.IsPrefix.length_le (List.takeWhile_prefix _)
  simp at h2
  unfold revEnd
  omega

/-- Bytes between the marker and the end of the revision are end-of-line bytes. -/
theorem between_eol {s : Bytes} {i j : Nat} (h1 : i + 5 ≤ j) (h2 : j < revEnd s i) :
    ∃ c r, s.drop j = c :: r ∧ isEol c = true := by
  obtain ⟨d, rfl⟩ : ∃ d, j = i + 5 + d := ⟨j - (i + 5), by omega⟩
  unfold revEnd at h2
  have hd : d < ((s.drop (i + 5)).takeWhile isEol).length := by omega
  have hm := List.getElem_mem hd
  have hpfx := List.takeWhile_prefix isEol (l := s.drop (i + 5))
  obtain ⟨t, ht⟩ := hpfx
  have hall := List.all_takeWhile (p := isEol) (l := s.drop (i + 5))
  rw [List.all_eq_true] at hall
  refine ⟨((s.drop (i + 5)).takeWhile isEol)[d], ((s.drop (i + 5)).takeWhile isEol).drop (d + 1) ++ t, ?_,
    hall _ hm⟩
  rw [← List.drop_drop]
  conv => lhs; rw [← ht]
  rw [List.drop_append_of_le_length (by omega), List.drop_eq_getElem_cons hd]
  rfl

theorem occ_take {s : Bytes} {i n : Nat} (hn : n ≤ s.length) :
    b!"%%EOF" <+: (s.take n).drop i ↔ b!"%%EOF" <+: s.drop i ∧ i + 5 ≤ n := by
  constructor
  · intro h
    refine ⟨?_, ?_⟩
    · rw [List.drop_take] at h
      exact h.trans (List.take_prefix _ _)
    · have := eof_fits h
      simp at this
      omega
  · rintro ⟨h, hle⟩
    rw [List.drop_take]
    obtain ⟨t, ht⟩ := h
    rw [← ht, List.take_append, List.take_of_length_le (by simp; omega)]
    exact List.prefix_append _ _

theorem revEnd_le_next {s : Bytes} {i j : Nat} (hi : b!"%%EOF" <+: s.drop i) (hj : b!"%%EOF" <+: s.drop j) (h : i < j) :
    revEnd s i ≤ j := by
  apply Classical.byContradiction
  intro hn
  have h5 : i + 5 ≤ j := by
    apply Classical.byContradiction
    intro h4
    obtain ⟨c, r, hr⟩ : ∃ c r, s.drop i = c :: r := by
      cases hd : s.drop i with
      | nil => rw [hd] at hi; simp at hi
      | cons c r => exact ⟨c, r, rfl⟩
    rw [hr] at hi
    apply eof_no_overlap hi (j - i - 1) (by omega)
    have : r = s.drop (i + 1) := by rw [← List.drop_drop, hr]; rfl
    rw [this, List.drop_drop, show i + 1 + (j - i - 1) = j by omega]
    exact hj
  obtain ⟨c, r, hr, hc⟩ := between_eol (s := s) h5 (by omega)
  rw [hr] at hj
  obtain ⟨t, ht⟩ := hj
  simp at ht
  rw [← ht.1] at hc
  exact absurd hc (by decide)

theorem takeWhile_take (p : UInt8 → Bool) (L : Bytes) (n : Nat) :
    (L.take n).takeWhile p = (L.takeWhile p).take n := by
  induction L generalizing n with
  | nil => simp
  | cons c L ih =>
    cases n with
    | zero => simp
    | succ n =>
      rw [List.take_succ_cons, List.takeWhile_cons, List.takeWhile_cons]
      split
      · rw [ih, List.take_succ_cons]
      · simp

theorem revEnd_take {s : Bytes} {i e : Nat} (he : revEnd s i ≤ e) : revEnd (s.take e) i = revEnd s i := by
  unfold revEnd at *
  rw [List.drop_take, takeWhile_take, List.take_of_length_le (by omega)]

/-- The markers of revision `k + 1` are the first `k + 1` markers. -/
theorem findAllEOF_take (s : Bytes) (k : Nat) (hk : k < (findAllEOF s).length) :
    findAllEOF (s.take (revEnd s (findAllEOF s)[k])) = (findAllEOF s).take (k + 1) := by
  have hocc := (mem_findAllEOF s _).1 (List.getElem_mem hk)
  apply sorted_ext (findAllEOF_sorted _) ((findAllEOF_sorted s).sublist (List.take_sublist _ _))
  intro i
  rw [mem_findAllEOF, occ_take (revEnd_le hocc), sorted_take_mem (findAllEOF_sorted s) k hk, mem_findAllEOF]
  constructor
  · rintro ⟨h1, h2⟩
    refine ⟨h1, ?_⟩
    apply Classical.byContradiction
    intro hn
    have := revEnd_le_next hocc h1 (by omega)
    omega
  · rintro ⟨h1, h2⟩
    refine ⟨h1, ?_⟩
    by_cases he : i = (findAllEOF s)[k]
    · subst he; unfold revEnd; omega
    · have := revEnd_le_next h1 hocc (by omega)
      unfold revEnd at *
      omega

theorem revEnd_mono {s : Bytes} {i j : Nat} (hi : i ∈ findAllEOF s) (hj : j ∈ findAllEOF s) (h : i ≤ j) :
    revEnd s i ≤ revEnd s j := by
  by_cases he : i = j
  · subst he; exact Nat.le_refl _
  · have := revEnd_le_next ((mem_findAllEOF s i).1 hi) ((mem_findAllEOF s j).1 hj) (by omega)
    unfold revEnd at *
    omega

theorem extract_of_extract (s : Bytes) (j k : Nat) (hjk : j ≤ k) (hk : k < (findAllEOF s).length) :
    extractRevision (s.take (revEnd s (findAllEOF s)[k])) (j + 1 : Nat) = extractRevision s (j + 1 : Nat) := by
  have hE := findAllEOF_take s k hk
  have hj' : j < (findAllEOF (s.take (revEnd s (findAllEOF s)[k]))).length := by
    rw [hE, List.length_take]; omega
  rw [extract_eq _ j hj', extract_eq s j (by omega)]
  have hget : (findAllEOF (s.take (revEnd s (findAllEOF s)[k])))[j] = (findAllEOF s)[j] := by
    simp only [hE, List.getElem_take]
  have hle : (findAllEOF s)[j] ≤ (findAllEOF s)[k] := by
    by_cases he : j = k
    · subst he; exact Nat.le_refl _
    · exact Nat.le_of_lt (List.pairwise_iff_getElem.1 (findAllEOF_sorted s) j k (by omega) hk (by omega))
  have hm := revEnd_mono (List.getElem_mem (by omega : j < (findAllEOF s).length)) (List.getElem_mem hk) hle
  rw [hget, revEnd_take hm, List.take_take, Nat.min_eq_left hm]

/-! ### The chain -/

theorem nodup_bound {l : List Nat} {n : Nat} (hn : l.Nodup) (hb : ∀ x ∈ l, x < n) : l.length ≤ n := by
  have h1 : l.Subperm (List.range n) := List.subperm_of_subset hn (fun x hx => List.mem_range.2 (hb x hx))
  simpa using h1.length_le

theorem prevChain_total (pdf : Bytes) : ∀ fuel visited cur acc, visited.Nodup → (∀ x ∈ visited, x < pdf.length) →
    pdf.length + 1 ≤ fuel + visited.length → 1 ≤ fuel → (prevChain pdf fuel visited cur acc).isSome := by
  intro fuel
  induction fuel with
  | zero => intro _ _ _ _ _ _ h; omega
  | succ fuel ih =>
    intro visited cur acc hn hb hf _
    rw [prevChain]
    split
    · rename_i hc
      cases hp : findPrevOffset pdf cur with
      | none => rfl
      | some prev =>
        simp only
        split
        · rename_i hp2
          have hcur : cur < pdf.length := by
            apply Classical.byContradiction
            intro hge
            unfold findPrevOffset at hp
            rw [if_pos (by omega)] at hp
            simp at hp
          have hn' : (cur :: visited).Nodup := List.nodup_cons.2 ⟨hc.2, hn⟩
          have hb' : ∀ x ∈ cur :: visited, x < pdf.length := by
            intro x hx
            rcases List.mem_cons.1 hx with rfl | hx
            · exact hcur
            · exact hb x hx
          have := nodup_bound hn' hb'
          apply ih _ _ _ hn' hb'
          · simp only [List.length_cons] at *; omega
          · simp only [List.length_cons] at *; omega
        · rfl
    · rfl

theorem prevChain_mono (pdf : Bytes) : ∀ fuel visited cur acc r, prevChain pdf fuel visited cur acc = some r →
    ∀ k, prevChain pdf (fuel + k) visited cur acc = some r := by
  intro fuel
  induction fuel with
  | zero => intro _ _ _ _ h; simp [prevChain] at h
  | succ fuel ih =>
    intro visited cur acc r h k
    rw [show fuel + 1 + k = (fuel + k) + 1 by omega]
    rw [prevChain] at h ⊢
    split
    · rename_i hc
      rw [if_pos hc] at h
      cases hp : findPrevOffset pdf cur with
      | none => rw [hp] at h; exact h
      | some prev =>
        rw [hp] at h
        simp only at h ⊢
        split
        · rename_i hp2
          rw [if_pos hp2] at h
          exact ih _ _ _ _ h k
        · rename_i hp2
          rw [if_neg hp2] at h
          exact h
    · rename_i hc
      rw [if_neg hc] at h
      exact h

/-! ### Merging -/

theorem mergeInto_get {ν : Type} (dst src : Map Int ν) (n : Int) :
    (mergeInto dst src).get n = (src.reverse.find? (fun e => e.1 = n)).elim (dst.get n) (fun e => some e.2) := by
  unfold mergeInto
  induction src generalizing dst with
  | nil => rfl
  | cons e src ih =>
    rw [List.foldl_cons, ih, List.reverse_cons, List.find?_append]
    cases hf : src.reverse.find? (fun e => decide (e.1 = n)) with
    | some x => rfl
    | none =>
      by_cases he : e.1 = n
      · subst he
        simp [Map.get_set_eq]
      · simp [Map.get_set_ne _ _ (Ne.symm he), he]

/-- With one entry per key the order of the entries does not matter. -/
theorem find_reverse {ν : Type} (m : Map Int ν) (h : m.keys.Nodup) (n : Int) :
    (m.reverse.find? (fun e => e.1 = n)) = (m.find? (fun e => e.1 = n)) := by
  induction m with
  | nil => rfl
  | cons e m ih =>
    rw [List.reverse_cons, List.find?_append]
    have hn := List.nodup_cons.1 (show (e.1 :: Map.keys m).Nodup from h)
    rw [ih hn.2]
    by_cases he : e.1 = n
    · subst he
      have : m.find? (fun x => decide (x.1 = e.1)) = none := by
        rw [List.find?_eq_none]
        intro x hx
        simp only [decide_eq_true_eq]
        intro hxe
        exact hn.1 (hxe ▸ List.mem_map.2 ⟨x, hx, rfl⟩)
      simp [this]
    · simp [he]

theorem mergeInto_get_nodup {ν : Type} (dst src : Map Int ν) (h : src.keys.Nodup) (n : Int) :
    (mergeInto dst src).get n = (src.get n).or (dst.get n) := by
  rw [mergeInto_get, find_reverse _ h]
  unfold Map.get
  cases src.find? (fun e => decide (e.1 = n)) <;> rfl

theorem mergeInto_nodup {ν : Type} (dst src : Map Int ν) (h : dst.keys.Nodup) : (mergeInto dst src).keys.Nodup := by
  unfold mergeInto
  induction src generalizing dst with
  | nil => exact h
  | cons e src ih => rw [List.foldl_cons]; exact ih _ (Map.nodup_set _ _ _ h)

theorem merged_nodup {σ ν : Type} (f : σ → Map Int ν) (ss : List σ) :
    ∀ m : Map Int ν, m.keys.Nodup → (ss.foldl (fun m s => mergeInto m (f s)) m).keys.Nodup := by
  induction ss with
  | nil => intro m h; exact h
  | cons s ss ih => intro m h; rw [List.foldl_cons]; exact ih _ (mergeInto_nodup _ _ h)

theorem merged_get {σ ν : Type} (f : σ → Map Int ν) (ss : List σ) (hs : ∀ s ∈ ss, (f s).keys.Nodup)
    (n : Int) : ∀ m : Map Int ν, (ss.foldl (fun m s => mergeInto m (f s)) m).get n =
      (ss.reverse.findSome? (fun s => (f s).get n)).or (m.get n) := by
  induction ss with
  | nil => intro m; rfl
  | cons s ss ih =>
    intro m
    rw [List.foldl_cons, ih (fun x hx => hs x (by simp [hx])), mergeInto_get_nodup _ _ (hs s (by simp)),
      List.reverse_cons, List.findSome?_append]
    cases ss.reverse.findSome? (fun s => (f s).get n) with
    | some x => rfl
    | none => simp [List.findSome?]; cases (f s).get n <;> simp

theorem keys_map {ν μ : Type} (m : Map Int ν) (g : ν → μ) :
    Map.keys (m.map (fun e => (e.1, g e.2))) = m.keys := by
  unfold Map.keys
  rw [List.map_map]
  rfl

theorem get_map {ν μ : Type} (m : Map Int ν) (g : ν → μ) (n : Int) :
    Map.get (m.map (fun e => (e.1, g e.2))) n = (m.get n).map g := by
  unfold Map.get
  rw [List.find?_map]
  cases h : m.find? ((fun e => decide (e.1 = n)) ∘ fun e => (e.1, g e.2)) with
  | none =>
    have : m.find? (fun e => decide (e.1 = n)) = none := h
    rw [this]; rfl
  | some x =>
    have : m.find? (fun e => decide (e.1 = n)) = some x := h
    rw [this]; rfl

/-- What `Open` records for an object number. -/
theorem refs_get (ss : List Section) (ho : ∀ s ∈ ss, s.objects.keys.Nodup) (hs : ∀ s ∈ ss, s.streams.keys.Nodup)
    (n : Int) : (refsOf ss).get n =
      ((ss.reverse.findSome? (fun s => s.streams.get n)).map (fun p => Ref.inStream p.1 p.2)).or
        ((ss.reverse.findSome? (fun s => s.objects.get n)).map Ref.direct) := by
  unfold refsOf
  have hO : (mergedObjs ss).keys.Nodup := merged_nodup _ ss [] (by simp [Map.keys])
  have hS : (mergedStreams ss).keys.Nodup := merged_nodup _ ss [] (by simp [Map.keys])
  have kO : Map.keys ((mergedObjs ss).map fun e => (e.1, Ref.direct e.2)) = (mergedObjs ss).keys :=
    keys_map _ Ref.direct
  have kS : Map.keys ((mergedStreams ss).map fun e => (e.1, Ref.inStream e.2.1 e.2.2)) = (mergedStreams ss).keys :=
    keys_map _ (fun p : Nat × Nat => Ref.inStream p.1 p.2)
  rw [mergeInto_get_nodup _ _ (by rw [kS]; exact hS), mergeInto_get_nodup _ _ (by rw [kO]; exact hO)]
  have gS := get_map (mergedStreams ss) (fun p : Nat × Nat => Ref.inStream p.1 p.2) n
  have gO := get_map (mergedObjs ss) Ref.direct n
  rw [gS, gO]
  unfold mergedObjs mergedStreams
  rw [merged_get _ ss hs, merged_get _ ss ho]
  have e1 : Map.get ([] : Map Int (Nat × Nat)) n = none := rfl
  have e2 : Map.get ([] : Map Int Int) n = none := rfl
  have e3 : Map.get ([] : Map Int Ref) n = none := rfl
  rw [e1, e2, e3]
  simp

end Pdfer.Incremental
