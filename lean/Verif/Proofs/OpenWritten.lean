import Verif.Spec.Written
import Verif.Proofs.UpdateBase
import Verif.Props.Incremental

/-! Opening what a writer in a well-formed state writes. -/

namespace Pdfer.Incremental

open Pdfer.Go Pdfer.Writer Pdfer.Spec

theorem base_root (env : Writer.Env) (w : Writer) (n : Nat) (h : w.rootRef = ref n) : (baseSection env w).root = ref n := by
  show (searchWith (reKeyRef b!"/Root") (b!"<<" ++ (trailerHead w ++ trailerId w) ++ b!">>")).getD [] = _
  have hne : w.rootRef ≠ [] := by rw [h]; simp [ref]
  have e : b!"<<" ++ (trailerHead w ++ trailerId w) ++ b!">>" =
      (b!"<<\n/Size " ++ itoa w.nextObjNum) ++ 10 :: (b!"/Root" ++ (32 :: (natDec n ++ b!" 0 R" ++ (b!"\n" ++
        (if w.infoRef ≠ [] then b!"/Info " ++ w.infoRef ++ b!"\n" else []) ++
        (if w.encryptRef ≠ [] then b!"/Encrypt " ++ w.encryptRef ++ b!"\n" else []) ++ trailerId w ++ b!">>")))) := by
    unfold trailerHead
    rw [if_pos hne, h]
    simp only [ref, itoa, List.append_assoc, List.cons_append, List.nil_append, List.singleton_append]
  rw [e, searchWith_after (by decide) (by decide) (reKeyRef_prefix _) _ (reKeyRef_natDec _ _ _)]
  · rfl
  · apply noOcc_of_mem (c := 82) (by decide)
    simp only [List.mem_append, not_or]
    exact ⟨by decide, not_mem_itoa _ (by decide) (by decide)⟩

theorem base_info (env : Writer.Env) (w : Writer) (hr : RefOrNil w.rootRef) (n : Nat) (h : w.infoRef = ref n) :
    (baseSection env w).info = ref n := by
  show (searchWith (reKeyRef b!"/Info") (b!"<<" ++ (trailerHead w ++ trailerId w) ++ b!">>")).getD [] = _
  have hne : w.infoRef ≠ [] := by rw [h]; simp [ref]
  have e : b!"<<" ++ (trailerHead w ++ trailerId w) ++ b!">>" =
      (b!"<<\n/Size " ++ itoa w.nextObjNum ++ b!"\n" ++ (if w.rootRef ≠ [] then b!"/Root " ++ w.rootRef ++ b!"\n" else [])) ++
        (b!"/Info" ++ (32 :: (natDec n ++ b!" 0 R" ++ (b!"\n" ++
        (if w.encryptRef ≠ [] then b!"/Encrypt " ++ w.encryptRef ++ b!"\n" else []) ++ trailerId w ++ b!">>")))) := by
    unfold trailerHead
    rw [if_pos hne, h]
    simp only [ref, itoa, List.append_assoc, List.cons_append, List.nil_append, List.singleton_append]
  have hno : (73 : UInt8) ∉ (b!"<<\n/Size " ++ itoa w.nextObjNum ++ b!"\n" ++ (if w.rootRef ≠ [] then b!"/Root " ++ w.rootRef ++ b!"\n" else [])) := by
    simp only [List.mem_append, not_or]
    refine ⟨⟨⟨by decide, not_mem_itoa _ (by decide) (by decide)⟩, by decide⟩, ?_⟩
    rcases hr with hr | ⟨m, hr⟩
    · simp [hr]
    · rw [hr]
      split
      · simp only [List.mem_append, not_or, ref]
        exact ⟨⟨by decide, ⟨not_mem_itoa _ (by decide) (by decide), by decide⟩⟩, by decide⟩
      · simp
  have key : ∀ p : Bytes, (73 : UInt8) ∉ p → ∀ rest : Bytes, p.getLast? = some 10 →
      searchWith (reKeyRef b!"/Info") (p ++ (b!"/Info" ++ (32 :: (natDec n ++ b!" 0 R" ++ rest)))) = some (ref n) := by
    intro p hp rest hlast
    obtain ⟨q, rfl⟩ := List.getLast?_eq_some_iff.1 hlast
    rw [List.append_assoc]
    rw [show ([10] : Bytes) ++ (b!"/Info" ++ (32 :: (natDec n ++ b!" 0 R" ++ rest))) = 10 :: (b!"/Info" ++ (32 :: (natDec n ++ b!" 0 R" ++ rest))) from rfl,
      searchWith_after (by decide) (by decide) (reKeyRef_prefix _) _ (reKeyRef_natDec _ _ _)]
    · rfl
    · apply noOcc_of_mem (c := 73) (by decide)
      simp only [List.mem_append, not_or] at hp
      exact hp.1
  have hlast : (b!"<<\n/Size " ++ itoa w.nextObjNum ++ b!"\n" ++ (if w.rootRef ≠ [] then b!"/Root " ++ w.rootRef ++ b!"\n" else [])).getLast? = some 10 := by
    split
    · rw [show b!"\n" = [10] from rfl, ← List.append_assoc, List.getLast?_append]; rfl
    · rw [List.append_nil, show b!"\n" = [10] from rfl, List.getLast?_append]; rfl
  rw [e, key _ hno _ hlast]
  rfl

/-- Opening the file of a writer: the root is its root, and its objects are found (with the dictionaries of streams). -/
theorem open_writer_info (wenv : Writer.Env) (w : Writer) (hinv : Inv w)
    (hrefs : RefOrNil w.rootRef ∧ RefOrNil w.infoRef ∧ RefOrNil w.encryptRef) (hfit : FileFits wenv w)
    (env : Incremental.Env) (henc : env.handleEncryption (write wenv w).1 = some none) :
    ∃ pdf, (openPdf env (write wenv w).1 = .ok pdf ∧ pdf.crypt = none ∧ pdf.raw = (write wenv w).1 ∧
      (∀ n : Nat, w.infoRef = ref n → pdf.info = ref n)) ∧
      (∀ n : Nat, w.rootRef = ref n → pdf.root = ref n) ∧
      (∀ n, hasObject pdf n = true ↔ 1 ≤ n ∧ (w.objects.get n).isSome) ∧
      (∀ n o, 1 ≤ n → w.objects.get n = some o → ∃ c, BodyOf wenv n o c ∧
        (wenv.crypt = none → ∀ s, o.stream = some s →
          c = formatDictionary (w.heap.getD (o.dict.getD 0) []) ++ b!"\nstream\n" ++ s ++ b!"\nendstream") ∧ (Delimitable c →
        Incremental.getObject env pdf n = .ok (itoa n ++ b!" 0 obj\n" ++ c ++ b!"\nendobj"))) := by
  have hg := good_base_w env.unz wenv w hrefs hfit.table hfit.plain hfit.size hfit.once hfit.window
  obtain ⟨base, hl, hb1, hb2⟩ := loc_base_w wenv hfit.fair w hinv hfit.table hfit.plain hfit.size hfit.next
  have hread := Good.read hg
  have hlen : ¬ (write wenv w).1.length < 8 := by
    rw [Writer.write_table wenv _ hfit.table hfit.plain]
    simp [Writer.header]
    omega
  have hopen : openPdf env (write wenv w).1 = .ok (pdfOf (write wenv w).1 none [baseSection wenv w]) := by
    unfold openPdf
    rw [if_neg hlen, henc]
    have : readSections env.unz (write wenv w).1 = .ok [baseSection wenv w] := hread
    simp [Res.ofOption, Res.bind, this]
  have e : pdfOf (write wenv w).1 none [baseSection wenv w] = ⟨(write wenv w).1, none, refsOf [baseSection wenv w], (baseSection wenv w).root,
      (baseSection wenv w).info, (baseSection wenv w).encrypt, (baseSection wenv w).size⟩ := rfl
  refine ⟨_, ⟨hopen, rfl, rfl, fun n hn => base_info wenv w hrefs.1 n hn⟩, ?_, ?_, ?_⟩
  · intro n hn
    exact base_root wenv w n hn
  · intro n
    unfold hasObject
    rw [e]
    simp only
    rw [refs_tables (tables_base wenv w)]
    rw [← hb1]
    rcases hl n with ⟨h1, h2⟩ | ⟨p, c, h1, h2, h3⟩
    · rw [h1, h2]; rfl
    · rw [h1, h2]; simp
  · intro n o h1 ho
    have hs : (base n).isSome := (hb1 n).2 ⟨h1, by rw [ho]; rfl⟩
    obtain ⟨c, hc⟩ := Option.isSome_iff_exists.1 hs
    obtain ⟨_, o', ho', hbody, _, hdict⟩ := hb2 n c hc
    rw [ho] at ho'
    simp at ho'
    subst ho'
    refine ⟨c, hbody, hdict, fun hd => ?_⟩
    have hlt := hinv.lt_next n ((Map.get_isSome_iff _ _).1 (by rw [ho]; rfl))
    have hnx := hfit.next
    rcases hl n with ⟨_, h2⟩ | ⟨p, c', h2, h3, h4⟩
    · rw [hc] at h2; simp at h2
    · rw [hc] at h3
      simp at h3
      subst h3
      unfold Incremental.getObject
      rw [e]
      simp only
      rw [refs_tables (tables_base wenv w), h2]
      simp only [Option.map_some]
      exact getDirect_at _ n (Props.itoa_len n (by omega) (by omega)) c (Props.delimited_of hd) p h4

/-- Opening the file of a writer: the root is its root, and its objects are found (with the dictionaries of streams). -/
theorem open_writer_dict (wenv : Writer.Env) (w : Writer) (hinv : Inv w)
    (hrefs : RefOrNil w.rootRef ∧ RefOrNil w.infoRef ∧ RefOrNil w.encryptRef) (hfit : FileFits wenv w)
    (env : Incremental.Env) (henc : env.handleEncryption (write wenv w).1 = some none) :
    ∃ pdf, openPdf env (write wenv w).1 = .ok pdf ∧ pdf.crypt = none ∧ (∀ n : Nat, w.rootRef = ref n → pdf.root = ref n) ∧
      (∀ n, hasObject pdf n = true ↔ 1 ≤ n ∧ (w.objects.get n).isSome) ∧
      (∀ n o, 1 ≤ n → w.objects.get n = some o → ∃ c, BodyOf wenv n o c ∧
        (wenv.crypt = none → ∀ s, o.stream = some s →
          c = formatDictionary (w.heap.getD (o.dict.getD 0) []) ++ b!"\nstream\n" ++ s ++ b!"\nendstream") ∧ (Delimitable c →
        Incremental.getObject env pdf n = .ok (itoa n ++ b!" 0 obj\n" ++ c ++ b!"\nendobj"))) := by
  obtain ⟨pdf, ⟨h1, h2, _, _⟩, h3⟩ := open_writer_info wenv w hinv hrefs hfit env henc
  exact ⟨pdf, h1, h2, h3⟩

/-- Opening the file of a writer: the root is its root, and its objects are found. -/
theorem open_writer (wenv : Writer.Env) (w : Writer) (hinv : Inv w)
    (hrefs : RefOrNil w.rootRef ∧ RefOrNil w.infoRef ∧ RefOrNil w.encryptRef) (hfit : FileFits wenv w)
    (env : Incremental.Env) (henc : env.handleEncryption (write wenv w).1 = some none) :
    ∃ pdf, openPdf env (write wenv w).1 = .ok pdf ∧ pdf.crypt = none ∧ (∀ n : Nat, w.rootRef = ref n → pdf.root = ref n) ∧
      (∀ n, hasObject pdf n = true ↔ 1 ≤ n ∧ (w.objects.get n).isSome) ∧
      (∀ n o, 1 ≤ n → w.objects.get n = some o → ∃ c, BodyOf wenv n o c ∧ (Delimitable c →
        Incremental.getObject env pdf n = .ok (itoa n ++ b!" 0 obj\n" ++ c ++ b!"\nendobj"))) := by
  obtain ⟨pdf, h1, h2, h3, h4, h5⟩ := open_writer_dict wenv w hinv hrefs hfit env henc
  refine ⟨pdf, h1, h2, h3, h4, fun n o hn ho => ?_⟩
  obtain ⟨c, k1, _, k3⟩ := h5 n o hn ho
  exact ⟨c, k1, k3⟩

end Pdfer.Incremental
