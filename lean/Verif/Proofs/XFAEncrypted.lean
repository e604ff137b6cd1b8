import Verif.Model.XFAEncrypted
import Verif.Proofs.XFASalvage

/-! Where the objects of an encrypted file are. -/

namespace Pdfer.XFA

open Pdfer.Go Pdfer.Spec Pdfer.Spec.XFA Pdfer.Document Pdfer.Incremental Pdfer.Crypto

theorem objectSpan_line (A B body : Bytes) (n : Nat) (hn : n ≤ 9223372036854775807) (hA : A = [] ∨ A.getLast? = some 10) (hb : Absent b!"endobj" body)
    (hfirst : index (itoa (n : Int) ++ b!" 0 obj") (A ++ (itoa (n : Int) ++ b!" 0 obj\n" ++ body ++ b!"\nendobj" ++ B)) = some A.length) :
    objectSpan (A ++ (itoa (n : Int) ++ b!" 0 obj\n" ++ body ++ b!"\nendobj" ++ B)) A.length n =
      .ok (A.length, itoa (n : Int) ++ b!" 0 obj\n" ++ body ++ b!"\nendobj") := by
  have hl := head_length n hn
  have ecut : ∀ P : Bytes, P = A ++ (itoa (n : Int) ++ b!" 0 obj\n" ++ body ++ b!"\nendobj" ++ B) → index b!"endobj" (P.drop A.length) =
      some ((itoa (n : Int) ++ b!" 0 obj\n" ++ body ++ b!"\n").length) := by
    intro P hP
    rw [hP, List.drop_left' rfl]
    have e : itoa (n : Int) ++ b!" 0 obj\n" ++ body ++ b!"\nendobj" ++ B = (itoa (n : Int) ++ b!" 0 obj\n" ++ (body ++ b!"\n")) ++ (b!"endobj" ++ B) := by simp
    rw [e, index_avoid (avoid_append (avoid_append (avoid_head (not_mem_itoa _ (by decide) (by decide))) (avoid_clash (by decide)))
      (data_avoid (by decide) (by decide) hb)), idx_here _ _ (by decide)]
    simp
  have hline : lineStart (A ++ (itoa (n : Int) ++ b!" 0 obj\n" ++ body ++ b!"\nendobj" ++ B)) A.length = A.length := lineStart_line _ _ hA
  have hdrop : (A ++ (itoa (n : Int) ++ b!" 0 obj\n" ++ body ++ b!"\nendobj" ++ B)).drop A.length = itoa (n : Int) ++ b!" 0 obj\n" ++ body ++ b!"\nendobj" ++ B :=
    List.drop_left' rfl
  have hlt : A.length < (A ++ (itoa (n : Int) ++ b!" 0 obj\n" ++ body ++ b!"\nendobj" ++ B)).length := by simp
  have htake : (itoa (n : Int) ++ b!" 0 obj\n" ++ body ++ b!"\nendobj" ++ B).take ((itoa (n : Int) ++ b!" 0 obj\n" ++ body ++ b!"\n").length + 6) =
      itoa (n : Int) ++ b!" 0 obj\n" ++ body ++ b!"\nendobj" := List.take_left' (by simp; omega)
  have hE := ecut _ rfl
  rw [hdrop] at hE
  generalize hP : A ++ (itoa (n : Int) ++ b!" 0 obj\n" ++ body ++ b!"\nendobj" ++ B) = P at *
  have hwin : window P A.length 2000 2000 = .ok (A.length - 2000, (P.take (min P.length (A.length + 2000))).drop (A.length - 2000)) := by
    unfold window
    have h1 : max 0 ((A.length : Int) - (2000 : Nat)) = ((A.length - 2000 : Nat) : Int) := by omega
    have h2 : min (P.length : Int) ((A.length : Int) + (2000 : Nat)) = ((min P.length (A.length + 2000) : Nat) : Int) := by omega
    simp only [h1, h2]
    rw [if_pos (by omega), Int.toNat_natCast, Int.toNat_natCast]
  rw [index_eq_some_iff] at hfirst
  obtain ⟨_, f1, f2⟩ := hfirst
  have hidx : index (itoa (n : Int) ++ b!" 0 obj") ((P.take (min P.length (A.length + 2000))).drop (A.length - 2000)) = some (A.length - (A.length - 2000)) := by
    rw [index_eq_some_iff]
    refine ⟨by simp; omega, ?_, ?_⟩
    · rw [List.drop_drop, show A.length - 2000 + (A.length - (A.length - 2000)) = A.length by omega, List.drop_take]
      rw [List.prefix_take_iff]
      refine ⟨f1, ?_⟩
      have := f1.length_le
      simp only [List.length_drop] at this
      omega
    · intro j hj hpre
      rw [List.drop_drop, List.drop_take] at hpre
      exact f2 _ (by omega) (hpre.trans (List.take_prefix _ _))
  unfold objectSpan
  simp only
  rw [if_pos (by omega), hwin]
  simp only [Res.bind, hidx, Option.map_some]
  rw [show A.length - (A.length - 2000) + (A.length - 2000) = A.length by omega, hline]
  rw [if_neg (by omega)]
  simp only [Int.toNat_natCast, hdrop, hE, Res.ofOption, Res.bind, htake]

end Pdfer.XFA
