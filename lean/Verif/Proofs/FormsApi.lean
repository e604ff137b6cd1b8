import Verif.Spec.Datasets
import Verif.Model.FormsApi
import Verif.Proofs.XFABuilt
import Verif.Proofs.OpenWritten

/-! The unified form interface on built files. -/

namespace Pdfer.FormsApi

open Pdfer.Go Pdfer.XFA Pdfer.Forms Pdfer.Datasets Pdfer.Document Pdfer.Incremental Pdfer.Spec Pdfer.Spec.XFA Pdfer.Crypto
open Pdfer.Writer (Writer)

/-- The form object of a file built from XFA streams and the first reference to it. -/
theorem built_form (src : Src) (env : Writer.Env) (ss : List XStream)
    (hk : ∀ x ∈ ss, x.name ∈ known) (hn : (ss.map (·.name)).Nodup) (hs : ∀ x ∈ ss, ∃ d, Storable env.z src.zip x d) (hfit : FitsAlone env (Writer.run env (buildOps ss)))
    (honce : ∀ i j, OccursAt b!"/AcroForm" (buildFromXFA env ss) i → OccursAt b!"/AcroForm" (buildFromXFA env ss) j → i = j) :
    getObject src.unz none (buildFromXFA env ss) ((ss.length : Int) + 1) = .ok (itoa ((ss.length : Int) + 1) ++ b!" 0 obj\n" ++ formBody (refsOf ss) ++ b!"\nendobj") ∧
    searchWith reAcroForm (buildFromXFA env ss) = some (natDec (ss.length + 1)) ∧ atoi (natDec (ss.length + 1)) = some ((ss.length : Int) + 1) := by
  obtain ⟨ho1, ho2, ho3⟩ := built_objects env src.zip ss hs
  have hsize := hfit.size
  have hone := hfit.single
  have hw := fun n o h1 ho => standalone_writer src.unz env _ (Writer.inv_run env (buildOps ss)) (refOrNil_run env (buildOps ss))
    (XRefTable.refs_run env (buildOps ss)) hfit.toFileFits hfit.single hfit.ending n o h1 ho
  have hinf0 := fun n o h1 ho => written_infix env _ (Writer.inv_run env (buildOps ss)) hfit.toFileFits n o h1 ho
  have hlen9 : ss.length ≤ 9 := by
    have := subset_length (ss.map (·.name)) known hn (by intro x hx; obtain ⟨y, hy, rfl⟩ := List.mem_map.1 hx; exact hk y hy)
    simpa [known] using this
  unfold buildFromXFA at honce ⊢
  generalize hfile : (Writer.write env (Writer.run env (buildOps ss))).1 = file at *
  -- the form object
  have hform : getObject src.unz none file ((ss.length : Int) + 1) = .ok (itoa ((ss.length : Int) + 1) ++ b!" 0 obj\n" ++ formBody (refsOf ss) ++ b!"\nendobj") := by
    obtain ⟨c, hc, _, hg⟩ := hw _ _ (by omega) ho2
    unfold BodyOf at hc
    simp only [Option.getD_some] at hc
    subst hc
    apply hg
    have hp : ∀ c : UInt8, isDigit c = false → (∀ k ∈ known, c ∉ k) → c ∉ b!"() 0 R" → c ∉ b!"<</Fields[]/XFA[" → c ∉ b!"]>>" → c ∉ formBody (refsOf ss) := by
      intro c h1 h2 h3 h4 h5
      have := refs_plain (refsOf ss) (by
        intro e he
        obtain ⟨i, x, hx, rfl⟩ := refsOf_mem he
        exact hk x (List.mem_of_getElem? hx)) c h1 h2 h3
      unfold formBody
      simp only [List.mem_append, not_or]
      exact ⟨⟨h4, this⟩, h5⟩
    refine ⟨?_, ?_, .inl ?_⟩
    · rw [absent_iff (by decide)]
      exact noOcc_of_mem (c := 106) (by decide) (hp 106 (by decide) (by decide) (by decide) (by decide) (by decide))
    · intro b hb
      simp [formBody] at hb
      subst hb
      decide
    · rw [absent_iff (by decide)]
      exact avoid_noOcc (avoid_refs (refsOf ss) (by
        intro e he
        obtain ⟨i, x, hx, rfl⟩ := refsOf_mem he
        exact hk x (List.mem_of_getElem? hx))) (by decide)
  -- its reference
  have hsearch : searchWith reAcroForm file = some (natDec (ss.length + 1)) := by
    obtain ⟨c, hc, _, A, B, hAB⟩ := hinf0 _ _ (by omega) ho3
    unfold BodyOf at hc
    simp only [Option.getD_some] at hc
    subst hc
    have e : file = (A ++ (itoa ((ss.length : Int) + 2) ++ b!" 0 obj\n" ++ b!"<</Type/Catalog")) ++
        (b!"/AcroForm" ++ (32 :: (natDec (ss.length + 1) ++ (b!" 0 R" ++ (b!">>\nendobj\n" ++ B))))) := by
      rw [← hAB]; simp
    generalize A ++ (itoa ((ss.length : Int) + 2) ++ b!" 0 obj\n" ++ b!"<</Type/Catalog") = P at e
    have hP : NoOcc b!"/AcroForm" P := by
      intro j hj
      have hj' : OccursAt b!"/AcroForm" file j := by
        rw [occursAt_iff (by decide), e]
        exact prefix_drop_append _ hj
      have hi' : OccursAt b!"/AcroForm" file P.length := ⟨P, _, by rw [e, List.append_assoc], rfl⟩
      have := honce j P.length hj' hi'
      subst this
      rw [List.drop_length] at hj
      simp at hj
    rw [e, Manipulate.searchWith_first (fun s => reAcroForm_prefix) (by intro d hd; simp at hd; subst hd; decide) hP]
    exact searchWith_here (reAcroForm_here _ _)
  have hatoi : atoi (natDec (ss.length + 1)) = some ((ss.length : Int) + 1) := by
    have := Manipulate.atoi_itoa ((ss.length + 1 : Nat) : Int) (by omega) (by omega)
    rw [show itoa ((ss.length + 1 : Nat) : Int) = natDec (ss.length + 1) from rfl] at this
    rw [this]
    rfl
  exact ⟨hform, hsearch, hatoi⟩

end Pdfer.FormsApi
