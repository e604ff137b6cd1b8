import Verif.Proofs.ToUnicodeMap
import Verif.Proofs.Strings
import Verif.Proofs.ObjStm
import Verif.Proofs.PageTree

/-! Decoding of text, Differences arrays and the ToUnicode maps that the library writes. -/

namespace Pdfer.Enc

open Pdfer.Go Pdfer.Strings Pdfer.Spec Pdfer.Spec.Enc Pdfer.Font Pdfer.Writer Pdfer.Manipulate

theorem writeRuneI_eq (r : Int) : writeRuneI r = (if 0 ≤ r ∧ r.toNat.isValidChar then String.utf8EncodeChar (Char.ofNat r.toNat) else [0xEF, 0xBF, 0xBD]) := by
  unfold writeRuneI
  by_cases h0 : 0 ≤ r
  · rw [if_pos h0]
    by_cases hv : r.toNat.isValidChar
    · rw [if_pos ⟨h0, hv⟩, ← writeRune_char]
      have : (Char.ofNat r.toNat).toNat = r.toNat := by
        rw [Char.ofNat, dif_pos hv]; rfl
      rw [this]
    · rw [if_neg (by simp [hv])]
      have : (0xD800 ≤ r.toNat ∧ r.toNat < 0xE000) ∨ 0x10FFFF < r.toNat := by
        unfold Nat.isValidChar at hv
        omega
      unfold writeRune
      rw [if_neg (by omega), if_neg (by omega), if_pos this]
  · rw [if_neg h0, if_neg (by simp [h0])]

theorem flatMap_write (l : List Int) : l.flatMap writeRuneI = Spec.Enc.utf8 l := by
  unfold Spec.Enc.utf8
  congr 1
  funext r
  exact writeRuneI_eq r

theorem charOf_byteChar (d : Decoder) (c : Int) : CharOf d c (byteChar d c) := by
  unfold byteChar
  cases h1 : d.toU.get c with
  | some u => exact .toUnicode h1
  | none => cases h2 : d.diff.get c with
    | some u => exact .differences h1 h2
    | none => cases h3 : d.base.get c with
      | some u => exact .base h1 h2 h3
      | none => exact .code h1 h2 h3

theorem charOf_lookup (d : Decoder) (hb : ∀ c : Int, 255 < c → d.base.get c = none) (c : Int) (hc : c < 65536) :
    CharOf d c (lookupCode d c) := by
  unfold lookupCode
  cases h1 : d.toU.get c with
  | some u => exact .toUnicode h1
  | none => cases h2 : d.diff.get c with
    | some u => exact .differences h1 h2
    | none =>
      have e : (if c < 256 then d.base.get c else none) = d.base.get c := by
        split
        · rfl
        · rw [hb c (by omega)]
      simp only [e]
      cases h3 : d.base.get c with
      | some u => exact .base h1 h2 h3
      | none => simp only [hc, if_true]; exact .code h1 h2 h3

theorem lookup_byte (d : Decoder) (b : UInt8) : lookupCode d b.toNat = byteChar d b.toNat := by
  have : (b.toNat : Int) < 256 := by have := b.toNat_lt; omega
  unfold lookupCode byteChar
  simp only [this, if_true]
  have h2 : (b.toNat : Int) < 65536 := by omega
  simp only [h2, if_true]

/-! ### Differences -/

/-- The assignments of the loop. -/
def diffAssigns (l : List (Nat × Bytes)) : List (Int × Int) :=
  (l.filter fun p => glyphUnicode p.2 ≠ 0).map fun p => ((p.1 : Int), glyphUnicode p.2)

theorem diffLoop_eq : ∀ (ds : List Diff) (k : Nat) (m : Map Int Int), (∀ n, .num n ∈ ds → n ≤ 9223372036854775807) →
    diffLoop k (ds.map Diff.text) m = setAll m (diffAssigns (Diff.named k ds)) := by
  intro ds
  induction ds with
  | nil => intro k m _; rfl
  | cons d ds ih =>
    intro k m h
    have h' := fun n hn => h n (List.mem_cons_of_mem _ hn)
    cases d with
    | num n =>
      rw [List.map_cons, Diff.named, Diff.text, diffLoop]
      have h1 : (b!"/").isPrefixOf (natDec n) = false := by
        cases hp : (b!"/").isPrefixOf (natDec n) with
        | false => rfl
        | true =>
          obtain ⟨t, ht⟩ := List.isPrefixOf_iff_prefix.1 hp
          have : (47 : UInt8) ∈ natDec n := by rw [← ht]; simp
          exact absurd this (not_mem_natDec (by decide) n)
      rw [h1, atoi_natDec n (h n (by simp))]
      exact ih n m h'
    | name s =>
      rw [List.map_cons, Diff.named, Diff.text, diffLoop]
      have h1 : (b!"/").isPrefixOf (b!"/" ++ s) = true := by simp [List.isPrefixOf]
      rw [if_pos h1]
      have h2 : (b!"/" ++ s).drop 1 = s := rfl
      rw [h2]
      have e : ((k : Int) + 1) = ((k + 1 : Nat) : Int) := by omega
      rw [e, ih (k + 1) _ h']
      unfold setDiff diffAssigns
      by_cases hg : glyphUnicode s ≠ 0
      · rw [if_pos hg, List.filter_cons_of_pos (by simp [hg]), List.map_cons]
        rfl
      · rw [if_neg hg, List.filter_cons_of_neg (by simpa using hg)]

theorem space_not_digit : ∀ c : UInt8, isSpace c = true → isDigit c = false := by apply forall_byte; decide +kernel

theorem parse_differences (ds : List Diff) (d : Decoder) (hd : d.diff = [])
    (hn : ∀ n, .num n ∈ ds → n ≤ 9223372036854775807) (hs : ∀ s, .name s ∈ ds → ∀ c ∈ s, isSpace c = false)
    (hf : ∀ k s s', (k, s) ∈ Diff.named 0 ds → (k, s') ∈ Diff.named 0 ds → s = s') (k v : Int) :
    (parseDifferences d (b!"[" ++ spaced (ds.map Diff.text) ++ b!"]")).diff.get k = some v ↔
      ∃ (c : Nat) (s : Bytes), k = c ∧ (c, s) ∈ Diff.named 0 ds ∧ v = glyphUnicode s ∧ v ≠ 0 := by
  have e0 : b!"[" ++ spaced (ds.map Diff.text) ++ b!"]" = 91 :: (spaced (ds.map Diff.text) ++ [93]) := rfl
  have e1 : (b!"[").isPrefixOf (91 :: (spaced (ds.map Diff.text) ++ [93])) = true := by simp [List.isPrefixOf]
  have e2 : (91 :: (spaced (ds.map Diff.text) ++ [93])).drop 1 = spaced (ds.map Diff.text) ++ [93] := rfl
  have e3 : (b!"]").isSuffixOf (spaced (ds.map Diff.text) ++ [93]) = true := by
    rw [List.isSuffixOf_iff_suffix]
    exact ⟨_, rfl⟩
  have e4 : (spaced (ds.map Diff.text) ++ [93]).take ((spaced (ds.map Diff.text) ++ [93]).length - 1) = spaced (ds.map Diff.text) := by
    simp
  rw [parseDifferences, e0, trimSpace_brackets]
  simp only [e1, if_true, e2, e3, e4]
  have hfs : ∀ w ∈ ds.map Diff.text, w ≠ [] ∧ ∀ c ∈ w, isSpace c = false := ?_
  rw [(XRefStream.fields_spaced _ hfs).1, hd]
  · rw [show (0 : Int) = ((0 : Nat) : Int) from rfl, diffLoop_eq ds 0 [] hn, setAll_get]
    · unfold diffAssigns
      simp only [List.mem_map, List.mem_filter, Prod.mk.injEq]
      constructor
      · rintro ⟨⟨c, s⟩, ⟨h1, h2⟩, h3, h4⟩
        exact ⟨c, s, h3.symm, h1, h4.symm, by rw [← h4]; simpa using h2⟩
      · rintro ⟨c, s, h1, h2, h3, h4⟩
        exact ⟨(c, s), ⟨h2, by simpa [← h3] using h4⟩, h1.symm, h3.symm⟩
    · intro k v v' h1 h2
      unfold diffAssigns at h1 h2
      simp only [List.mem_map, List.mem_filter, Prod.mk.injEq] at h1 h2
      obtain ⟨⟨c, s⟩, ⟨a1, _⟩, a2, a3⟩ := h1
      obtain ⟨⟨c', s'⟩, ⟨b1, _⟩, b2, b3⟩ := h2
      simp only at a2 b2 a3 b3
      have : c = c' := by omega
      subst this
      rw [← a3, ← b3, hf c s s' a1 b1]
  · intro w hw
    obtain ⟨x, hx, rfl⟩ := List.mem_map.1 hw
    cases x with
    | num n =>
      refine ⟨natDec_ne_nil n, fun c hc => ?_⟩
      cases h : isSpace c with
      | false => rfl
      | true =>
        exact absurd hc (not_mem_natDec (space_not_digit c h) n)
    | name s =>
      refine ⟨by simp [Diff.text], fun c hc => ?_⟩
      simp only [Diff.text, List.mem_append, List.mem_singleton] at hc
      rcases hc with rfl | hc
      · decide
      · exact hs s hx c hc

/-! ### The map the library writes -/

/-- The character the library writes for a glyph. -/
def written (visited : List (Int × Nat)) (g : Nat) : Nat := (((unicodesOf visited g).head?).getD 0x20).toNat

theorem join_lines (f : Nat → Bytes) (nl : Bytes) : ∀ (l : List Nat), l ≠ [] →
    joinWith nl (l.map f) ++ nl = l.flatMap fun g => f g ++ nl := by
  intro l
  induction l with
  | nil => intro h; exact absurd rfl h
  | cons a l ih =>
    intro _
    cases l with
    | nil => simp [joinWith]
    | cons b l =>
      rw [List.flatMap_cons, ← ih (by simp)]
      simp [joinWith]

/-- The fixed text before the entries, without its line end. -/
def cmapHead0 : Bytes := cmapHead.dropLast

theorem cmapHead_eq : cmapHead = cmapHead0 ++ b!"\n" := by decide +kernel

theorem toUnicodeData_eq (visit : Map Int Nat → List (Int × Nat)) (gm : Map Int Nat) (gs : List Nat) (hg : gs ≠ [])
    (hv : ∀ e ∈ visit gm, 0 ≤ e.1) :
    toUnicodeData visit gm gs =
      cmapText ⟨2, b!" ", b!"\n"⟩ cmapHead0 [.chars (gs.map fun g => (g, written (visit gm) g))] cmapTail := by
  have hline : ∀ g, bfLine (visit gm) g =
      (b!"<" ++ hexPad 2 g ++ b!">" ++ b!" " ++ (b!"<" ++ hexPad 4 (written (visit gm) g) ++ b!">")) ++ b!"\n" := by
    intro g
    unfold bfLine written
    cases hu : unicodesOf (visit gm) g with
    | nil =>
      have : hexPad 4 32 = b!"0020" := by decide
      simp [this]
    | cons u us =>
      have hm : u ∈ unicodesOf (visit gm) g := by rw [hu]; simp
      unfold unicodesOf at hm
      obtain ⟨e, he, rfl⟩ := List.mem_map.1 hm
      have := hv e (List.mem_filter.1 he).1
      simp [hexRune, this]
  have hl := join_lines (fun g => b!"<" ++ hexPad 2 g ++ b!">" ++ b!" " ++ (b!"<" ++ hexPad 4 (written (visit gm) g) ++ b!">"))
    b!"\n" gs hg
  have e : gs.flatMap (bfLine (visit gm)) = joinWith b!"\n" (gs.map (fun g => b!"<" ++ hexPad 2 g ++ b!">" ++ b!" " ++
      (b!"<" ++ hexPad 4 (written (visit gm) g) ++ b!">"))) ++ b!"\n" := by
    rw [hl]
    congr 1
    funext g
    exact hline g
  rw [toUnicodeData, e, cmapHead_eq, cmapText]
  simp only [List.flatMap_cons, List.flatMap_nil, Sect.text, List.length_map, List.map_map, Style.code, uniText]
  simp only [List.append_assoc, List.append_nil, Function.comp_def]
  congr 3

/-- Reading the map back, with more text behind it. -/
theorem read_back_tail (tail : Bytes) (ht : NoOcc b!"beginbf" (cmapTail ++ tail)) (visit : Map Int Nat → List (Int × Nat)) (gm : Map Int Nat) (gs : List Nat) (hg : gs ≠ [])
    (hv : ∀ e ∈ visit gm, 0 ≤ e.1 ∧ e.1 < 65536) (hb : ∀ g ∈ gs, g ≤ 2147483647) (d : Decoder) (hd : d.toU = []) (k v : Int) :
    (parseToUnicode d (toUnicodeData visit gm gs ++ tail)).toU.get k = some v ↔ ∃ g ∈ gs, k = g ∧ v = written (visit gm) g := by
  have e : toUnicodeData visit gm gs ++ tail = cmapText ⟨2, b!" ", b!"\n"⟩ cmapHead0 [.chars (gs.map fun g => (g, written (visit gm) g))] (cmapTail ++ tail) := by
    rw [toUnicodeData_eq visit gm gs hg (fun e he => (hv e he).1)]
    simp only [cmapText, List.append_assoc]
  rw [e, parse_cmap]
  · constructor
    · rintro ⟨c, u, rfl, rfl, s, hs, hm⟩
      simp only [List.mem_singleton] at hs
      subst hs
      simp only [Sect.maps, List.mem_map, Prod.mk.injEq] at hm
      obtain ⟨g, h1, rfl, h2⟩ := hm
      exact ⟨g, h1, rfl, by rw [h2]⟩
    · rintro ⟨g, h1, rfl, rfl⟩
      exact ⟨g, _, rfl, rfl, _, List.mem_singleton.2 rfl, by simp only [Sect.maps, List.mem_map]; exact ⟨g, h1, rfl⟩⟩
  · refine ⟨?_, ?_, ?_⟩ <;> simp <;> decide
  · rw [noOcc_iff_index]; decide +kernel
  · exact ht
  · intro s hs
    simp only [List.mem_singleton] at hs
    subst hs
    intro p hp
    obtain ⟨g, h1, rfl⟩ := List.mem_map.1 hp
    refine ⟨hb g h1, ?_⟩
    unfold written
    cases hu : unicodesOf (visit gm) g with
    | nil => simp
    | cons u us =>
      have hm : u ∈ unicodesOf (visit gm) g := by rw [hu]; simp
      unfold unicodesOf at hm
      obtain ⟨e, he, rfl⟩ := List.mem_map.1 hm
      have := hv e (List.mem_filter.1 he).1
      simp only [List.head?_cons, Option.getD_some]
      omega
  · exact hd
  · intro s hs s' hs' c u u' h1 h2
    simp only [List.mem_singleton] at hs hs'
    subst hs
    subst hs'
    simp only [Sect.maps, List.mem_map, Prod.mk.injEq] at h1 h2
    obtain ⟨g, _, rfl, rfl⟩ := h1
    obtain ⟨g', _, rfl, rfl⟩ := h2
    rfl

/-- Reading the map back. -/
theorem read_back (visit : Map Int Nat → List (Int × Nat)) (gm : Map Int Nat) (gs : List Nat) (hg : gs ≠ [])
    (hv : ∀ e ∈ visit gm, 0 ≤ e.1 ∧ e.1 < 65536) (hb : ∀ g ∈ gs, g ≤ 2147483647) (d : Decoder) (hd : d.toU = []) (k v : Int) :
    (parseToUnicode d (toUnicodeData visit gm gs)).toU.get k = some v ↔ ∃ g ∈ gs, k = g ∧ v = written (visit gm) g := by
  have := read_back_tail [] (by rw [noOcc_iff_index]; decide +kernel) visit gm gs hg hv hb d hd k v
  rwa [List.append_nil] at this

end Pdfer.Enc
