import Verif.Proofs.OldXRef
import Verif.Props.XRefStream
import Verif.Props.Fallback

/-!
# C164: ParseXRefStream, ParseCrossReferenceTable and ParseXRefStreamFull on the same cross-reference stream
-/

namespace Pdfer.Props
open Pdfer.Go Pdfer.Spec Pdfer.Writer Pdfer.XRefStream Pdfer.Fallback

/-- C164: the two readers crash on the same files, and a stream that ParseXRefStreamFull refuses is refused by ParseXRefStream. -/
theorem C164_same_errors (unz : Bytes → Option Bytes) (pdf : Bytes) (start : Nat) :
    (oldXRefStream unz pdf start = .panic ↔ parseFull unz pdf start = .panic) ∧
    (parseFull unz pdf start = .err → oldXRefStream unz pdf start = .err) := by
  rw [old_found, parseFull_found]
  cases h : found unz pdf start with
  | panic => simp [Res.bind]
  | err => simp [Res.bind]
  | ok v =>
    simp only [res_ok]
    by_cases h0 : v.2.1.1 + v.2.1.2.1 + v.2.1.2.2 = 0
    · rw [if_pos h0, if_pos h0]; simp
    · rw [if_neg h0, if_neg h0]
      refine ⟨?_, by simp⟩
      split <;> simp

theorem bindOk {α β : Type} {r : Res α} {f : α → Res β} {b : β} (h : r.bind f = .ok b) : ∃ a, r = .ok a ∧ f a = .ok b := by
  cases r with
  | ok a => exact ⟨a, rfl, h⟩
  | panic => cases h
  | err => cases h

theorem empty_map {m : Map Int Int} (h : m = []) (n : Int) : (m.get n).isSome = false := by rw [h]; rfl

/-- C164 (partial: no word `/DecodeParms` in the first 500 bytes, see `C164_predictor_violated`): every object that ParseXRefStreamFull
finds in a cross-reference stream, ParseXRefStream finds too; and what it finds is the same place, or else the number of a free entry
that might be a place. -/
theorem C164_knows_all_partial (unz : Bytes → Option Bytes) (pdf : Bytes) (start : Nat) (r : XRefResult)
    (hp : ¬ Occurs b!"/DecodeParms" ((pdf.drop start).take 500)) (h : parseFull unz pdf start = .ok r) (hne : ∃ n, (r.objects.get n).isSome) :
    ∃ m, oldXRefStream unz pdf start = .ok m ∧ (∀ n, (r.objects.get n).isSome → (m.get n).isSome) ∧
      ∀ n off, m.get n = some off → (∃ k : Nat, r.objects.get n = some k ∧ off = k) ∨ (100 < off ∧ off < pdf.length) := by
  have hw : ∀ v, found unz pdf start = .ok v → v.1 = (pdf.drop start).take 500 := by
    intro v hv
    unfold found at hv
    obtain ⟨sec, h1, hv⟩ := bindOk hv
    obtain ⟨_, _, hv⟩ := bindOk hv
    obtain ⟨_, _, hv⟩ := bindOk hv
    obtain ⟨_, _, hv⟩ := bindOk hv
    obtain ⟨_, _, hv⟩ := bindOk hv
    obtain ⟨_, _, hv⟩ := bindOk hv
    obtain ⟨_, _, hv⟩ := bindOk hv
    obtain ⟨_, _, hv⟩ := bindOk hv
    obtain ⟨_, _, hv⟩ := bindOk hv
    cases hv
    unfold sliceFrom at h1
    split at h1
    · cases h1; rfl
    · cases h1
  rw [parseFull_found] at h
  rw [old_found]
  cases hf : found unz pdf start with
  | panic => rw [hf] at h; cases h
  | err => rw [hf] at h; cases h
  | ok v =>
    rw [hf] at h
    have hv := hw v hf
    simp only [res_ok] at h ⊢
    by_cases h0 : v.2.1.1 + v.2.1.2.1 + v.2.1.2.2 = 0
    · rw [if_pos h0] at h; cases h
    · rw [if_neg h0] at h ⊢
      have hpr : applyPredictor v.1 v.2.2.2 = v.2.2.2 := by
        unfold applyPredictor
        rw [searchWith_none (key := b!"/DecodeParms") (fun s => reDecodeParms_prefix) (by rw [hv]; exact noOcc_of_not_occurs hp)]
      rw [hpr] at h
      have hc := covers_entries (len := pdf.length) v.2.1.1 v.2.1.2.1 v.2.1.2.2 v.2.2.1 v.2.2.2 [] { objects := [], objectStreams := [] }
        ⟨fun n hn => by simp [Map.get] at hn, fun n off hn => by simp [Map.get] at hn⟩
      have hr : parseEntries v.2.1.1 v.2.1.2.1 v.2.1.2.2 v.2.2.1 v.2.2.2 { objects := [], objectStreams := [] } = r := by
        simpa using h
      rw [hr] at hc
      obtain ⟨n, hn⟩ := hne
      have hm := hc.all n hn
      rw [if_neg (fun hcontra => by rw [empty_map hcontra n] at hm; cases hm)]
      exact ⟨_, rfl, hc.all, hc.only⟩

/-- C164 for the files that the writer writes: whatever was stored and in every mode with a cross-reference stream, reading the stream
where `startxref` says it is (if the compressed bytes happen not to contain the words that the readers search for) gives the same places
of objects with both readers. -/
theorem C164_written (env : Env) (henv : FairOrder env) (unz : Bytes → Option Bytes) (hz : ZlibLike env.z unz) (ops : List Op)
    (hx : (run env ops).useXRefStream = true)
    (hsize : (write env (run env ops)).1.length < 2 ^ 63 ∧ (run env ops).nextObjNum + 2 < 2 ^ 63 ∧ (run env ops).objects.length < 2 ^ 63) :
    ∃ (pre dict comp tail : Bytes) (num : Int),
      (write env (run env ops)).1 = pre ++ (itoa num ++ b!" 0 obj\n" ++ dict ++ b!"\nstream\n" ++ comp ++ b!"\nendstream\nendobj\n" ++ tail) ∧
      (b!"startxref\n" ++ natDec pre.length ++ b!"\n%%EOF\n") <:+ tail ∧
      (¬ Occurs b!"endstream" comp → ¬ Occurs b!"/Index" comp → ¬ Occurs b!"/DecodeParms" comp →
        ∃ r m, parseFull unz (write env (run env ops)).1 pre.length = .ok r ∧
          oldXRefStream unz (write env (run env ops)).1 pre.length = .ok m ∧
          ∀ n off, m.get n = some off ↔ ∃ k : Nat, off = k ∧ r.objects.get n = some k) := by
  have hi := inv_run env ops
  have hs := slash_run env ops
  generalize run env ops = w at *
  obtain ⟨pre, dict, tail, h1, h2, h3⟩ := xref_text env w hx
  refine ⟨pre, dict, _, tail, _, h1, by rw [h2]; exact h3, ?_⟩
  intro o1 o2 o3
  have hcond : ∀ e ∈ (createObjectStreams env w).2, e.2.index < 2 ^ 63 ∧ e.2.streamObjNum.toNat < 2 ^ 63 := by
    by_cases ho : w.useObjectStream = true
    · by_cases hnee : eligible env w = []
      · intro e he
        have : (createObjectStreams env w).2 = [] := by unfold createObjectStreams; simp [ho, hnee]
        rw [this] at he
        cases he
      · obtain ⟨hnd, hel⟩ := eligible_keys env henv w hi
        obtain ⟨hc2, _, _⟩ := create_on env w ho hnee
        have hlenL : (eligible env w).length ≤ w.objects.length := by
          have hsub : (eligible env w).map (·.1) ⊆ w.objects.keys := by
            intro n hn
            obtain ⟨⟨n', c⟩, hm, rfl⟩ := List.mem_map.1 hn
            obtain ⟨o, a, _⟩ := (hel n' c).1 hm
            exact (Map.get_isSome_iff _ _).1 (by rw [a]; rfl)
          have := (List.subperm_of_subset hnd hsub).length_le
          simpa [Map.keys] using this
        rintro ⟨m, r⟩ he
        rw [hc2] at he
        obtain ⟨x, hx', he'⟩ := List.mem_map.1 he
        have h1 := List.mem_zipIdx hx'
        simp only [Prod.mk.injEq] at he'
        obtain ⟨e1, e2⟩ := he'
        subst e2
        simp only
        omega
    · intro e he
      rw [create_off env w (by simpa using ho)] at he
      cases he
  obtain ⟨r, m, hr, hm, hrm⟩ := both_written env unz w hx hi hs hz.nonempty
    (fun d c hd => by have := hz.head d c hd; simp [streamWs, this]) hz.inverse hsize.1 (by omega) hcond _ rfl
    (noOcc_of_not_occurs o1) (noOcc_of_not_occurs o2) (noOcc_of_not_occurs o3)
  rw [← h2] at hr hm
  refine ⟨r, m, hr, hm, fun n off => ?_⟩
  rw [hrm n]
  cases r.objects.get n with
  | none => simp
  | some k => simp only [Option.map_some, Option.some.injEq]; constructor
              · rintro rfl; exact ⟨k, rfl, rfl⟩
              · rintro ⟨k', rfl, rfl⟩; rfl

/-- A written file, with both readers. -/
example : parseFull toyUnz (write toyEnv (run toyEnv histX)).1 132 = .ok { objects := [(5, 132), (4, 71), (3, 48), (1, 15)], objectStreams := [] } ∧
    oldXRefStream toyUnz (write toyEnv (run toyEnv histX)).1 132 = .ok [(5, 132), (4, 71), (3, 48), (1, 15)] := by decide +kernel
/-- The hypotheses of the theorems for this file. -/
example : contains ((write toyEnv (run toyEnv histX)).1.drop 132) b!"/DecodeParms" = false := by decide +kernel

/-- The code breaks C164: ParseCrossReferenceTable does not see that a file written by this library has a cross-reference stream (the
writer puts a space before the name and the array): it takes the word in `startxref` for the head of a table and succeeds with no object
at all, where ParseXRefStream and ParseXRefStreamFull read it. -/
theorem C164_not_recognised_violated :
    oldXRefStream toyUnz (write toyEnv (run toyEnv histX)).1 132 = .ok [(5, 132), (4, 71), (3, 48), (1, 15)] ∧
    crossRefTable toyUnz (write toyEnv (run toyEnv histX)).1 132 = .ok [] := by decide +kernel

/-- A cross-reference stream of two objects at 17 and 35, with the usual predictor (rows of differences). -/
def predictedFile : Bytes :=
  b!"7 0 obj\n<</Type/XRef/Size 3/W[1 1 0]/DecodeParms<</Predictor 12/Columns 2>>>>\nstream\n" ++
  [2, 0, 0, 2, 1, 17, 2, 0, 18] ++ b!"endstream\nendobj\n"

/-- The code breaks C164: ParseXRefStream does not undo the predictor and finds one object, at the place of the other. -/
theorem C164_predictor_violated :
    parseFull some predictedFile 0 = .ok { objects := [(2, 35), (1, 17)], objectStreams := [] } ∧
    oldXRefStream some predictedFile 0 = .ok [(2, 17)] := by decide +kernel

end Pdfer.Props
