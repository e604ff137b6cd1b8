import Verif.Proofs.Filters

/-! Properties C01–C06: the ASCII filters of core/parse/filters.go. -/

namespace Pdfer.Props

open Pdfer.Filters Pdfer.Spec

/-! ### C01 -/

/-- C01: decoding what the encoder produced gives the data back, for every byte string. -/
theorem C01_asciihex_roundtrip (data : Bytes) : decodeASCIIHex (encodeASCIIHex data) = some data :=
  hexLoop_encode data

/-- C01: the encoded form has `2 n + 1` bytes and ends in `>`. -/
theorem C01_asciihex_length (data : Bytes) :
    (encodeASCIIHex data).length = 2 * data.length + 1 ∧ (encodeASCIIHex data).getLast? = some 0x3E := by
  constructor
  · induction data with
    | nil => rfl
    | cons b t ih => simp [encodeASCIIHex] at ih ⊢; omega
  · simp [encodeASCIIHex]

example : encodeASCIIHex [0x00, 0xFF, 0x3E] = b!"00FF3E>" := by decide

/-! ### C02 -/

/-- C02: ASCII85 round trip for every byte string (whole, zero and partial groups). -/
theorem C02_ascii85_roundtrip (data : Bytes) : decodeASCII85 (encodeASCII85 data) = some data := by
  have h : a85Strip (encodeASCII85 data) = a85Groups data ++ b!"~>" := by
    simp [a85Strip, encodeASCII85, List.isPrefixOf]
  unfold decodeASCII85
  rw [h]
  exact a85_roundtrip data

example : encodeASCII85 [0, 0, 0, 0, 0xFF, 0xFF, 0xFF, 0xFF, 1] = b!"<~zs8W-!!<~>" := by decide

/-! ### C03 -/

/-- C03: RunLength round trip for every byte string. -/
theorem C03_runlength_roundtrip (data : Bytes) : decodeRunLength (encodeRunLength data) = some data :=
  (decodeRunLength_iff _ _).2 (rle_roundtrip _ data (Nat.le_refl _))

example : encodeRunLength [1, 1, 1, 2, 3, 3] = [254, 1, 0, 2, 255, 3, 128] := by decide

/-! ### C04 -/

/-- C04: the decoder returns `out` exactly when `out` is the ASCIIHex value of the input according to
the independent specification; otherwise it reports an error. -/
theorem C04_asciihex_exact (data out : Bytes) : decodeASCIIHex data = some out ↔ HexDecodesTo data out :=
  decodeASCIIHex_iff data out

/-- C04: it fails exactly when some byte before the first `>` is neither white space nor a hex digit. -/
theorem C04_asciihex_rejects (data : Bytes) :
    decodeASCIIHex data = none ↔
      ∃ c ∈ data.takeWhile (· != 0x3E), c ∉ white ∧ hexValue c = none := by
  constructor
  · intro h
    by_cases hex : ∃ c ∈ data.takeWhile (· != 0x3E), c ∉ white ∧ hexValue c = none
    · exact hex
    · exfalso
      have hall : ∀ c ∈ (data.takeWhile (· != 0x3E)).filter (fun c => !white.contains c),
          ∃ d, hexValue c = some d := by
        intro c hc
        rw [List.mem_filter] at hc
        cases hv : hexValue c with
        | some d => exact ⟨d, rfl⟩
        | none => exact absurd ⟨c, hc.1, by simpa using hc.2, hv⟩ hex
      generalize hl : (data.takeWhile (· != 0x3E)).filter (fun c => !white.contains c) = l at hall
      have hds : ∃ ds : List Nat, l.map hexValue = ds.map some := by
        clear hl
        induction l with
        | nil => exact ⟨[], rfl⟩
        | cons c t ih =>
          obtain ⟨d, hd⟩ := hall c (by simp)
          obtain ⟨ds, hds⟩ := ih (fun x hx => hall x (by simp [hx]))
          exact ⟨d :: ds, by simp [hd, hds]⟩
      obtain ⟨ds, hds⟩ := hds
      have := (C04_asciihex_exact data (hexPairs ds)).2 ⟨ds, by rw [hl]; exact hds, rfl⟩
      rw [h] at this
      exact absurd this (by simp)
  · rintro ⟨c, hc, hw, hv⟩
    cases hd : decodeASCIIHex data with
    | none => rfl
    | some out =>
      exfalso
      obtain ⟨ds, hds, _⟩ := (C04_asciihex_exact data out).1 hd
      have hm : hexValue c ∈ ((data.takeWhile (· != 0x3E)).filter (fun c => !white.contains c)).map hexValue :=
        List.mem_map.2 ⟨c, List.mem_filter.2 ⟨hc, by simpa using hw⟩, rfl⟩
      rw [hds, hv] at hm
      simp at hm

/-- C04: nothing after the first `>` matters. -/
theorem C04_asciihex_blind_after_end (pre tail₁ tail₂ : Bytes) :
    decodeASCIIHex (pre ++ 0x3E :: tail₁) = decodeASCIIHex (pre ++ 0x3E :: tail₂) := by
  have key : ∀ t : Bytes, (pre ++ 0x3E :: t).takeWhile (· != 0x3E) = pre.takeWhile (· != 0x3E) := by
    intro t
    induction pre with
    | nil => simp
    | cons c r ih => by_cases h : (c != 0x3E) = true <;> simp_all
  apply Option.ext
  intro out
  rw [C04_asciihex_exact, C04_asciihex_exact]
  unfold HexDecodesTo
  rw [key, key]

example : decodeASCIIHex b!"4 8\n6G>" = none ∧ decodeASCIIHex b!"4 8\n6>zz" = some [0x48, 0x60] := by decide

/-! ### C05 -/

/-- C05: the decoder computes exactly the run-length relation of ISO 32000 (which ends at the EOD byte). -/
theorem C05_runlength_exact (data out : Bytes) : decodeRunLength data = some out ↔ RunsTo data out :=
  decodeRunLength_iff data out

/-- C05: it fails exactly on input that breaks off inside a run. -/
theorem C05_runlength_rejects (data : Bytes) : decodeRunLength data = none ↔ RunTruncated data :=
  decodeRunLength_none data

/-- C05: the output is at most 128 (indeed 64) times as long as the input. -/
theorem C05_runlength_bounded (data out : Bytes) (h : decodeRunLength data = some out) :
    out.length ≤ 64 * data.length ∧ out.length ≤ 128 * data.length := by
  have := runsTo_length ((decodeRunLength_iff _ _).1 h)
  omega

/-- C05: after complete runs, nothing that follows an EOD byte matters. -/
theorem C05_runlength_blind_after_eod (pre out tail : Bytes) (h : decodeRunLength pre = some out) :
    decodeRunLength (pre ++ 128 :: tail) = some out := by
  rw [decodeRunLength_iff] at *
  induction h with
  | stop => exact RunsTo.eod tail
  | eod tail => exact RunsTo.eod _
  | literal n lit rest out hn hl _ ih =>
    rw [List.cons_append, List.append_assoc]; exact RunsTo.literal n lit _ _ hn hl ih
  | run n x rest out hn _ ih => exact RunsTo.run n x _ _ hn ih

example : decodeRunLength [254, 7, 0, 9] = some [7, 7, 7, 9] ∧
    decodeRunLength [254, 7, 0, 9, 128, 5] = some [7, 7, 7, 9] := by decide

example : RunTruncated [3, 1, 2] := RunTruncated.literal 3 [1, 2] (by decide) (by decide)

/-! ### C06 -/

/-- C06: the decoder computes exactly the ASCII85 group relation on the significant characters (input
cut at the first `~>`, white space dropped, a leading `<~` removed). -/
theorem C06_ascii85_exact (data out : Bytes) :
    decodeASCII85 data = some out ↔
      A85To (a85Significant (if (b!"<~") <+: data then data.drop 2 else data)) out := by
  have h := a85Loop_iff [] (a85Strip data) out (by simp) (by simp)
  unfold decodeASCII85
  rw [show a85Loop [] (a85Strip data) = a85Loop ([].map d85) (a85Strip data) from rfl, h]
  simp [a85Strip]

theorem sig_length (l : Bytes) : (a85Significant l).length ≤ l.length := by
  unfold a85Significant
  refine Nat.le_trans (List.length_filter_le _ _) ?_
  fun_induction a85Cut l <;> simp_all <;> omega

/-- C06: at most four bytes per input byte. -/
theorem C06_ascii85_bounded (data out : Bytes) (h : decodeASCII85 data = some out) :
    out.length ≤ 4 * data.length := by
  rw [C06_ascii85_exact] at h
  have h1 := a85To_length h
  have h2 := sig_length (if (b!"<~") <+: data then data.drop 2 else data)
  have h3 : (if (b!"<~") <+: data then data.drop 2 else data).length ≤ data.length := by
    split <;> simp
  omega

/-- C06: a byte (before `~>`) outside white space, `!`..`u` and `z` makes the decoder fail. -/
theorem C06_ascii85_rejects (data : Bytes) (c : UInt8)
    (hc : c ∈ a85Cut (if (b!"<~") <+: data then data.drop 2 else data))
    (hw : c ∉ white) (hd : ¬ IsDigit85 c) (hz : c ≠ 0x7A) : decodeASCII85 data = none := by
  cases h : decodeASCII85 data with
  | none => rfl
  | some out =>
    exfalso
    rw [C06_ascii85_exact] at h
    have hm : c ∈ a85Significant (if (b!"<~") <+: data then data.drop 2 else data) :=
      List.mem_filter.2 ⟨hc, by simpa using hw⟩
    have key : ∀ {l o}, A85To l o → c ∉ l := by
      intro l o hlo
      induction hlo with
      | stop => simp
      | zero rest out _ ih => simp [hz, ih]
      | group cs rest out _ hcs _ ih =>
        intro hm
        rcases List.mem_append.1 hm with h | h
        · exact hd (hcs c h)
        · exact ih h
      | last cs _ _ hcs => exact fun hm => hd (hcs c hm)
    exact key h hm

/-- C06: nothing after the terminating `~>` matters.  (`pre` is not the single byte `<`: in `<~>` the
code takes `<~` for the opening marker.) -/
theorem C06_ascii85_blind_after_end (pre tail₁ tail₂ : Bytes) (hp : pre ≠ b!"<") :
    decodeASCII85 (pre ++ b!"~>" ++ tail₁) = decodeASCII85 (pre ++ b!"~>" ++ tail₂) := by
  have cut : ∀ (p t : Bytes), a85Cut (p ++ b!"~>" ++ t) = a85Cut (p ++ b!"~>") := by
    intro p t
    induction p with
    | nil => simp [a85Cut]
    | cons c r ih =>
      cases r with
      | nil =>
        simp only [List.cons_append, List.nil_append] at ih ⊢
        have : ∀ x, a85Cut (c :: 126 :: x) = c :: a85Cut (126 :: x) := by
          intro x
          rw [a85Cut]
          intro _ _ h2
          simp at h2
        rw [this, this, ih]
      | cons e r' =>
        simp only [List.cons_append] at ih ⊢
        by_cases hce : c = 0x7E ∧ e = 0x3E
        · obtain ⟨rfl, rfl⟩ := hce; simp [a85Cut]
        · have : ∀ x, a85Cut (c :: e :: x) = c :: a85Cut (e :: x) := by
            intro x
            rw [a85Cut]
            intro _ h1 h2
            simp at h2
            exact hce ⟨h1, h2.1⟩
          rw [this, this, ih]
  have strip : ∀ t : Bytes, ((b!"<~") <+: (pre ++ b!"~>" ++ t)) ↔ ((b!"<~") <+: pre) := by
    intro t
    match pre, hp with
    | [], _ => simp
    | [c], hp =>
      simp only [List.cons_append, List.nil_append, List.cons_prefix_cons]
      constructor
      · rintro ⟨rfl, _⟩; exact absurd rfl hp
      · rintro ⟨_, h⟩; simp at h
    | c :: d :: r, _ => simp
  apply Option.ext
  intro out
  rw [C06_ascii85_exact, C06_ascii85_exact]
  simp only [strip]
  unfold a85Significant
  split
  · rename_i h
    obtain ⟨r, rfl⟩ := h
    have : ∀ t : Bytes, (b!"<~" ++ r ++ b!"~>" ++ t).drop 2 = r ++ b!"~>" ++ t := by intro t; simp
    rw [this, this, cut, cut r tail₂]
  · rw [cut, cut pre tail₂]

example : decodeASCII85 (b!"<~zs8W-!!<" ++ b!"~>" ++ b!"~~~junk") = some [0, 0, 0, 0, 255, 255, 255, 255, 1] := by
  decide
example : decodeASCII85 b!"<~ab{~>" = none := by decide

end Pdfer.Props
