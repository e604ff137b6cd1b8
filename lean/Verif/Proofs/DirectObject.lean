import Verif.Model.Incremental
import Verif.Spec.Incremental
import Verif.Proofs.Text
import Verif.Proofs.XRefTable

/-! `GetDirectObject` on a well-delimited object. -/

namespace Pdfer.Incremental

open Pdfer.Go Pdfer.XRefTable Pdfer.XRefStream

theorem occursAt_iff {pat s : Bytes} (hp : pat ≠ []) (i : Nat) : Spec.OccursAt pat s i ↔ pat <+: s.drop i := by
  constructor
  · rintro ⟨a, b, rfl, rfl⟩
    simp
  · rintro ⟨t, ht⟩
    have hle : i ≤ s.length := by
      apply Classical.byContradiction
      intro hn
      rw [List.drop_of_length_le (by omega)] at ht
      exact hp (List.append_eq_nil_iff.1 ht).1
    refine ⟨s.take i, t, ?_, by simp; omega⟩
    rw [List.append_assoc, ht, List.take_append_drop]

theorem absent_iff {pat s : Bytes} (hp : pat ≠ []) : Spec.Absent pat s ↔ NoOcc pat s := by
  unfold Spec.Absent NoOcc
  simp only [occursAt_iff hp]

/-- A byte of the pattern that does not occur in the text. -/
theorem noOcc_of_mem {c : UInt8} {pat s : Bytes} (hc : c ∈ pat) (h : c ∉ s) : NoOcc pat s := by
  intro j hp
  obtain ⟨t, ht⟩ := hp
  apply h
  apply List.mem_of_mem_drop (i := j)
  rw [← ht]; simp [hc]

theorem itoa_chars (n : Int) : ∀ c ∈ itoa n, isDigit c = true ∨ c = 45 := by
  intro c hc
  cases n with
  | ofNat n => exact .inl (natDec_digits n c hc)
  | negSucc n =>
    rcases List.mem_cons.1 hc with rfl | hc
    · exact .inr rfl
    · exact .inl (natDec_digits _ c hc)

theorem not_mem_itoa {c : UInt8} (n : Int) (h1 : isDigit c = false) (h2 : c ≠ 45) : c ∉ itoa n := by
  intro hc
  rcases itoa_chars n c hc with h | h
  · rw [h] at h1; exact absurd h1 (by decide)
  · exact h2 h

theorem reHeader_zero (n : Int) (s : Bytes) : reHeader n (itoa n ++ b!" 0 obj" ++ s) = some b!"0" := by
  unfold reHeader
  rw [List.append_assoc, reLit_append]
  simp only [Option.bind_some]
  rw [show b!" 0 obj" ++ s = 32 :: (b!"0" ++ (b!" obj" ++ s)) from rfl, reSp1_one (by intro c hc; simp at hc; subst hc; decide)]
  simp only [Option.bind_some]
  rw [reNum_digits (by decide) (by decide) (by intro c hc; simp at hc; subst hc; decide)]
  simp only [Option.bind_some]
  rw [show b!" obj" ++ s = 32 :: (b!"obj" ++ s) from rfl, reSp1_one (by intro c hc; simp at hc; subst hc; decide)]
  simp only [Option.bind_some]
  rw [reLit_append]
  rfl

/-- A body that ends where the reader thinks it does. -/
def Delimited (body : Bytes) : Prop :=
  NoOcc b!"endobj" body ∧ (∀ c, body.head? = some c → objWs c = false) ∧
  (NoOcc b!"stream" body ∨ ∃ t, body = t ++ b!"\nendstream" ∧ NoOcc b!"endstream" t)

theorem locate_here (pdf : Bytes) (n : Int) (hn : (itoa n).length ≤ 40) (s : Bytes) (off : Nat)
    (h : pdf.drop off = itoa n ++ b!" 0 obj" ++ s) : locate pdf n off = (itoa n ++ b!" 0 obj" ++ s, 0) := by
  have ht : (itoa n ++ b!" 0 obj" ++ s).take 50 = itoa n ++ b!" 0 obj" ++ s.take (50 - (itoa n ++ b!" 0 obj").length) := by
    rw [List.take_append, List.take_of_length_le]
    simp; omega
  unfold locate
  simp only [h, ht, reHeader_zero]
  rfl

theorem dropWhile_objWs (body : Bytes) (hw : ∀ c, body.head? = some c → objWs c = false) :
    (10 :: (body ++ b!"\n")).dropWhile objWs = if body = [] then [] else body ++ b!"\n" := by
  rw [List.dropWhile_cons, if_pos (by decide)]
  cases body with
  | nil => rfl
  | cons c r =>
    rw [List.cons_append, List.dropWhile_cons, hw c rfl]
    simp

theorem index_append_left {pat a : Bytes} {i : Nat} (b : Bytes) (h : index pat a = some i) :
    index pat (a ++ b) = some i := by
  rw [index_eq_some_iff] at h ⊢
  obtain ⟨h1, h2, h3⟩ := h
  refine ⟨by simp; omega, ?_, ?_⟩
  · rw [List.drop_append_of_le_length h1]
    exact h2.trans (List.prefix_append _ _)
  · intro j hj hp
    apply h3 j hj
    rw [List.drop_append_of_le_length (by omega)] at hp
    obtain ⟨t, ht⟩ := hp
    have hl : pat.length ≤ (a.drop j).length := by
      have := h2.length_le
      simp at this ⊢
      omega
    refine ⟨(a.drop j).drop pat.length, ?_⟩
    have h2 : pat = ((a.drop j) ++ b).take pat.length := by rw [← ht]; simp
    rw [List.take_append_of_le_length hl] at h2
    conv => lhs; lhs; rw [h2]
    exact List.take_append_drop _ _

/-- What decryption makes of the content of a non-stream object. -/
def plainOf (crypt : Option Decrypt) (n : Int) (c : Bytes) : Bytes :=
  match crypt with
  | none => c
  | some d => (d n 0 c).getD c

/-- What decryption makes of the content of a stream object. -/
def plainStreamOf (crypt : Option Decrypt) (n : Int) (c : Bytes) : Bytes :=
  match crypt with
  | none => c
  | some d => decryptStream d n 0 c ((index b!"stream" c).getD 0)

theorem objContent_crypt (crypt : Option Decrypt) (n : Int) (body rest : Bytes) (hb : Delimited body) :
    objContent crypt n 0 (itoa n ++ b!" 0 obj" ++ (10 :: (body ++ 10 :: (b!"endobj\n" ++ rest)))) =
      .ok (if index b!"stream" body = none then plainOf crypt n (if body = [] then [] else body ++ b!"\n")
        else plainStreamOf crypt n body) := by
  obtain ⟨h1, h2, h3⟩ := hb
  have hno : NoOcc b!"endobj" (itoa n ++ b!" 0 obj" ++ (10 :: body)) := by
    apply noOcc_mid (by decide) _ h1
    apply noOcc_of_head
    rw [List.mem_append, not_or]
    exact ⟨not_mem_itoa n (by decide) (by decide), by decide⟩
  have he : index b!"endobj" (itoa n ++ b!" 0 obj" ++ (10 :: (body ++ 10 :: (b!"endobj\n" ++ rest)))) =
      some ((itoa n ++ b!" 0 obj" ++ (10 :: body)).length + 1) := by
    rw [show itoa n ++ b!" 0 obj" ++ (10 :: (body ++ 10 :: (b!"endobj\n" ++ rest))) =
      (itoa n ++ b!" 0 obj" ++ (10 :: body)) ++ 10 :: (b!"endobj" ++ (b!"\n" ++ rest)) by simp [List.append_assoc]]
    exact index_after (by decide) hno (List.prefix_append _ _)
  have htake : (itoa n ++ b!" 0 obj" ++ (10 :: (body ++ 10 :: (b!"endobj\n" ++ rest)))).take
      ((itoa n ++ b!" 0 obj" ++ (10 :: body)).length + 1) = itoa n ++ b!" 0 obj" ++ (10 :: (body ++ b!"\n")) := by
    rw [show itoa n ++ b!" 0 obj" ++ (10 :: (body ++ 10 :: (b!"endobj\n" ++ rest))) =
      (itoa n ++ b!" 0 obj" ++ (10 :: (body ++ b!"\n"))) ++ (b!"endobj\n" ++ rest) by simp [List.append_assoc]]
    rw [List.take_append_of_le_length (by simp; omega), List.take_of_length_le (by simp; omega)]
  have hobj : index b!"obj" (itoa n ++ b!" 0 obj" ++ (10 :: (body ++ b!"\n"))) = some ((itoa n).length + 3) := by
    rw [show itoa n ++ b!" 0 obj" ++ (10 :: (body ++ b!"\n")) =
      (itoa n ++ b!" 0 ") ++ (b!"obj" ++ (10 :: (body ++ b!"\n"))) by simp [List.append_assoc]]
    rw [index_skip (c := 111) (by
      rw [List.mem_append, not_or]
      exact ⟨not_mem_itoa n (by decide) (by decide), by decide⟩), index_here (List.prefix_append _ _)]
    simp
  have hdrop : (itoa n ++ b!" 0 obj" ++ (10 :: (body ++ b!"\n"))).drop ((itoa n).length + 3 + 3) =
      10 :: (body ++ b!"\n") := by
    rw [List.append_assoc, List.drop_append, List.drop_of_length_le (by omega)]
    rw [show (itoa n).length + 3 + 3 - (itoa n).length = 6 by omega]
    rfl
  unfold objContent
  rw [he]
  simp only [Res.ofOption, Res.bind, htake, hobj, hdrop, dropWhile_objWs body h2]
  by_cases hb0 : body = []
  · subst hb0
    rw [if_pos rfl]
    cases crypt <;> rfl
  · rw [if_neg hb0]
    rcases h3 with h3 | ⟨t, rfl, ht⟩
    · have : index b!"stream" (body ++ b!"\n") = none :=
        noOcc_iff_index.1 (noOcc_mid (by decide) h3 (noOcc_nil (by decide)))
      rw [this, if_pos (noOcc_iff_index.1 h3)]
      cases crypt <;> rfl
    · have hidx : index b!"endstream" (t ++ b!"\nendstream" ++ b!"\n") = some (t.length + 1) := by
        apply index_append_left
        exact index_after (by decide) ht (List.prefix_refl _)
      have hns : ¬ NoOcc b!"stream" (t ++ b!"\nendstream") := by
        intro hh
        apply hh (t.length + 4)
        rw [List.drop_append, List.drop_of_length_le (by omega), show t.length + 4 - t.length = 4 by omega]
        decide
      rw [if_neg (fun h => hns (noOcc_iff_index.2 h))]
      cases hst : index b!"stream" (t ++ b!"\nendstream" ++ b!"\n") with
      | none =>
        exact absurd (noOcc_prefix (noOcc_iff_index.2 hst) (by decide)) hns
      | some k =>
        simp only [hidx, Option.getD_some]
        have hsl : sliceTo ((itoa n ++ b!" 0 obj" ++ (10 :: (t ++ b!"\nendstream" ++ 10 :: (b!"endobj\n" ++ rest)))).drop
            ((itoa n ++ b!" 0 obj" ++ (10 :: (t ++ b!"\nendstream"))).length + 1 - (t ++ b!"\nendstream" ++ b!"\n").length))
            (t.length + 1 + 9) = .ok (t ++ b!"\nendstream") := by
          have e1 : (itoa n ++ b!" 0 obj" ++ (10 :: (t ++ b!"\nendstream"))).length + 1 -
              (t ++ b!"\nendstream" ++ b!"\n").length = (itoa n ++ b!" 0 obj\n").length := by
            simp; omega
          rw [e1]
          have e2 : (itoa n ++ b!" 0 obj" ++ (10 :: (t ++ b!"\nendstream" ++ 10 :: (b!"endobj\n" ++ rest)))) =
            (itoa n ++ b!" 0 obj\n") ++ ((t ++ b!"\nendstream") ++ 10 :: (b!"endobj\n" ++ rest)) := by
            simp [List.append_assoc]
          rw [e2, List.drop_left]
          unfold sliceTo
          rw [if_pos (by simp; omega), List.take_append_of_le_length (by simp), List.take_of_length_le (by simp)]
        have hk : index b!"stream" (t ++ b!"\nendstream") = some k := by
          cases hs2 : index b!"stream" (t ++ b!"\nendstream") with
          | none => exact absurd (noOcc_iff_index.2 hs2) hns
          | some k2 => rw [index_append_left _ hs2] at hst; exact hst
        rw [hsl]
        cases crypt <;> simp only [plainStreamOf, hk, Option.getD_some]

theorem objContent_at (n : Int) (body rest : Bytes) (hb : Delimited body) :
    objContent none n 0 (itoa n ++ b!" 0 obj" ++ (10 :: (body ++ 10 :: (b!"endobj\n" ++ rest)))) =
      .ok (if index b!"stream" body = none then (if body = [] then [] else body ++ b!"\n") else body) :=
  objContent_crypt none n body rest hb

theorem getDirect_crypt (crypt : Option Decrypt) (pdf : Bytes) (n : Int) (hn : (itoa n).length ≤ 40) (body : Bytes)
    (hb : Delimited body) (off : Nat) (h : (itoa n ++ b!" 0 obj\n" ++ body ++ b!"\nendobj\n") <+: pdf.drop off)
    (c : Bytes) (hc : c = if index b!"stream" body = none then plainOf crypt n (if body = [] then [] else body ++ b!"\n")
        else plainStreamOf crypt n body) :
    getDirectObject crypt pdf n off = .ok (itoa n ++ b!" 0 obj\n" ++ c ++
      (if (b!"\n").isSuffixOf c then [] else b!"\n") ++ b!"endobj") := by
  obtain ⟨rest, hr⟩ := h
  have hlt : off < pdf.length := by
    apply Classical.byContradiction
    intro hn
    rw [List.drop_of_length_le (by omega)] at hr
    simp at hr
  have hd : pdf.drop off = itoa n ++ b!" 0 obj" ++ (10 :: (body ++ 10 :: (b!"endobj\n" ++ rest))) := by
    rw [← hr]; simp [List.append_assoc]
  unfold getDirectObject
  rw [if_neg (by omega), show (off : Int).toNat = off by omega]
  simp only [locate_here pdf n hn _ off hd]
  rw [objContent_crypt crypt n body rest hb]
  simp only [Res.bind, ← hc]
  congr 1
  simp [natDec, natDecAux, digit, List.append_assoc]

theorem getDirect_at (pdf : Bytes) (n : Int) (hn : (itoa n).length ≤ 40) (body : Bytes) (hb : Delimited body) (off : Nat)
    (h : (itoa n ++ b!" 0 obj\n" ++ body ++ b!"\nendobj\n") <+: pdf.drop off) :
    getDirectObject none pdf n off = .ok (itoa n ++ b!" 0 obj\n" ++ body ++ b!"\nendobj") := by
  obtain ⟨rest, hr⟩ := h
  have hlt : off < pdf.length := by
    apply Classical.byContradiction
    intro hn
    rw [List.drop_of_length_le (by omega)] at hr
    simp at hr
  have hd : pdf.drop off = itoa n ++ b!" 0 obj" ++ (10 :: (body ++ 10 :: (b!"endobj\n" ++ rest))) := by
    rw [← hr]; simp [List.append_assoc]
  unfold getDirectObject
  rw [if_neg (by omega), show (off : Int).toNat = off by omega]
  simp only [locate_here pdf n hn _ off hd]
  have h3 := hb.2.2
  rw [objContent_at n body rest hb]
  simp only [Res.bind]
  congr 1
  by_cases hst : index b!"stream" body = none
  · rw [if_pos hst]
    by_cases hb0 : body = []
    · subst hb0
      simp [natDec, natDecAux, digit]
    · rw [if_neg hb0, if_pos (by simp)]
      simp [natDec, natDecAux, digit, List.append_assoc]
  · rw [if_neg hst]
    rcases h3 with h3 | ⟨t, rfl, ht⟩
    · exact absurd (noOcc_iff_index.1 h3) hst
    · rw [if_neg]
      · simp [natDec, natDecAux, digit, List.append_assoc]
      · intro hh
        rw [List.isSuffixOf_iff_suffix] at hh
        obtain ⟨u, hu⟩ := hh
        have := congrArg List.getLast? hu
        simp at this

end Pdfer.Incremental
